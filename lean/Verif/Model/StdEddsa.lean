import Verif.Model.StdSha

/-
The standard library, `zokrates_stdlib/stdlib/signatures` and `utils/pack/u32/nonStrictUnpack256`, transliterated as in `Model/Stdlib.lean`.
-/

namespace Zok.Typed.Std
open Abi
variable {p : ℕ}

/-- `utils/pack/u32/nonStrictUnpack256`. -/
@[match_pattern] abbrev kNonStrictU32 : ℕ := 50
/-- `signatures/verifyEddsa`. -/
@[match_pattern] abbrev kEddsa : ℕ := 51

/-- `utils/pack/u32/nonStrictUnpack256.zok:9-11` (with `utils/casts/bool_256_to_u32_8` as a cast):
```
def main(field i) -> u32[8] {
    return from_bits(unpack(i));
}
``` -/
def nonStrictU32 : Inst (ZMod p) where
  generics := []
  params := [0]
  body := [
    call 1 (.array 256 .bool) kNonStrict [fv 0],
    call 2 (u32s 8) kCast [bv 1 256]]
  ret := uvs 2 8

/-- `signatures/verifyEddsa.zok:32-51`, with `utils/casts/u32_8_to_bool_256` as a cast:
```
def main(field[2] R, field S, field[2] A, u32[8] M0, u32[8] M1, BabyJubJubParams context) -> bool {
    field[2] G = [context.Gu, context.Gv];
    assert(onCurve(R, context)); // throws if R is not on curve
    assert(orderCheck(R, context));
    u32[8] Rx = unpack256u(R[0]);
    u32[8] Ax = unpack256u(A[0]);
    bool[256] hRAM = u32_8_to_bool_256(sha256(Rx, Ax, M0, M1));
    bool[256] sBits = unpack256bool(S);
    field[2] lhs = scalarMult(sBits, G, context);
    field[2] AhRAM = scalarMult(hRAM, A, context);
    field[2] rhs = add(R, AhRAM, context);
    bool out = rhs[0] == lhs[0] && rhs[1] == lhs[1];
    return out;
}
``` -/
def verifyEddsa : Inst (ZMod p) where
  generics := []
  params := [0, 1, 2, 3, 4, 5]
  body := [
    set 6 ptTy (.array .field 2 [.expr (ctxF 5 "Gu"), .expr (ctxF 5 "Gv")]),
    call 7 .bool kOnCurve [ptv 0, ctx 5],
    assert (.ident 7 .bool),
    call 8 .bool kOrderCheck [ptv 0, ctx 5],
    assert (.ident 8 .bool),
    call 9 (u32s 8) kNonStrictU32 [fsel 0 2 0],
    call 10 (u32s 8) kNonStrictU32 [fsel 2 2 0],
    call 11 (u32s 8) kSha1024P [uvs 9 8, uvs 10 8, uvs 3 8, uvs 4 8],
    call 12 (.array 256 .bool) kCast [uvs 11 8],
    call 13 (.array 256 .bool) kNonStrict [fv 1],
    call 14 ptTy kScalarMult [bv 13 256, ptv 6, ctx 5],
    call 15 ptTy kScalarMult [bv 12 256, ptv 2, ctx 5],
    call 16 ptTy kEdAdd [ptv 0, ptv 15, ctx 5],
    set 17 .bool (.bbin .and (.eq (fsel 16 2 0) (fsel 14 2 0)) (.eq (fsel 16 2 1) (fsel 14 2 1)))]
  ret := .ident 17 .bool

/-- The functions of this file. -/
def signatures : Program (ZMod p)
  | kNonStrictU32, [], [.field], .array 8 (.uint .b32) => some (.here nonStrictU32)
  | kEddsa, [], [.array 2 .field, .field, .array 2 .field, .array 8 (.uint .b32), .array 8 (.uint .b32), .struct ms], .bool => if .struct ms = paramsTy then some (.here verifyEddsa) else none
  | _, _, _, _ => none

end Zok.Typed.Std
