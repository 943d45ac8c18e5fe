import Verif.Model.Stdlib

/-
The standard library, `zokrates_stdlib/stdlib/ecc`: twisted Edwards curves, transliterated as in `Model/Stdlib.lean`.
-/

namespace Zok.Typed.Std
open Abi
variable {p : ℕ}

/-! ### Parameters -/

/-- `ecc/babyjubjubParams.zok:6-15`:
```
struct BabyJubJubParams {
    field JUBJUB_C;
    field JUBJUB_A;
    field JUBJUB_D;
    field MONT_A;
    field MONT_B;
    field[2] INFINITY;
    field Gu;
    field Gv;
}
``` -/
def paramsTy : CType := .struct [("JUBJUB_C".toList, .field), ("JUBJUB_A".toList, .field), ("JUBJUB_D".toList, .field), ("MONT_A".toList, .field), ("MONT_B".toList, .field),
  ("INFINITY".toList, .array 2 .field), ("Gu".toList, .field), ("Gv".toList, .field)]

/-- The values of such a struct. -/
structure Params (p : ℕ) where
  C : ZMod p
  A : ZMod p
  D : ZMod p
  montA : ZMod p
  montB : ZMod p
  infinity : List (ZMod p)
  Gu : ZMod p
  Gv : ZMod p

/-- The struct. -/
def Params.val (c : Params p) : AVal (ZMod p) := .struct [("JUBJUB_C".toList, .field c.C), ("JUBJUB_A".toList, .field c.A), ("JUBJUB_D".toList, .field c.D), ("MONT_A".toList, .field c.montA),
  ("MONT_B".toList, .field c.montB), ("INFINITY".toList, .array (c.infinity.map .field)), ("Gu".toList, .field c.Gu), ("Gv".toList, .field c.Gv)]

/-- `ecc/babyjubjubParams.zok:17-34` -/
def babyJubJub : Params p where
  C := 8
  A := 168700
  D := 168696
  montA := 168698
  montB := 1
  infinity := [0, 1]
  Gu := 16540640123574156134436876038791482806971768689494387082833631921987005038935
  Gv := 20819045374670962167435360035096875258406992893633759881276124905556507972311

/-! ### Names of functions -/

/-- `ecc/edwardsAdd`. -/
@[match_pattern] abbrev kEdAdd : ℕ := 20
/-- `ecc/edwardsNegate`. -/
@[match_pattern] abbrev kEdNegate : ℕ := 21
/-- `ecc/edwardsOnCurve`. -/
@[match_pattern] abbrev kOnCurve : ℕ := 22
/-- `ecc/edwardsOrderCheck`. -/
@[match_pattern] abbrev kOrderCheck : ℕ := 23
/-- `ecc/edwardsScalarMult`. -/
@[match_pattern] abbrev kScalarMult : ℕ := 24
/-- `ecc/edwardsCompress`. -/
@[match_pattern] abbrev kCompress : ℕ := 25
/-- `ecc/proofOfOwnership`. -/
@[match_pattern] abbrev kOwnership : ℕ := 26

/-- The type of points. -/
abbrev ptTy : CType := .array 2 .field
/-- A variable which is a point. -/
def ptv (x : TId) : TExpr (ZMod p) := .ident x ptTy
/-- A variable which is a struct of parameters. -/
def ctx (x : TId) : TExpr (ZMod p) := .ident x paramsTy
/-- A field element of the parameters. -/
def ctxF (x : TId) (m : String) : TExpr (ZMod p) := .member .field (ctx x) m.toList

/-! ### Functions -/

/-- `ecc/edwardsAdd.zok:6-20`:
```
def main(field[2] pt1, field[2] pt2, BabyJubJubParams context) -> field[2] {
    field a = context.JUBJUB_A;
    field d = context.JUBJUB_D;
    field u1 = pt1[0];
    field v1 = pt1[1];
    field u2 = pt2[0];
    field v2 = pt2[1];
    field uOut = (u1*v2 + v1*u2) / (1 + d*u1*u2*v1*v2);
    field vOut = (v1*v2 - a*u1*u2) / (1 - d*u1*u2*v1*v2);
    return [uOut, vOut];
}
``` -/
def edwardsAdd : Inst (ZMod p) where
  generics := []
  params := [0, 1, 2]
  body := [
    set 3 .field (ctxF 2 "JUBJUB_A"),
    set 4 .field (ctxF 2 "JUBJUB_D"),
    set 5 .field (fsel 0 2 0),
    set 6 .field (fsel 0 2 1),
    set 7 .field (fsel 1 2 0),
    set 8 .field (fsel 1 2 1),
    set 9 .field (.fbin .div (.fbin .add (.fbin .mult (fv 5) (fv 8)) (.fbin .mult (fv 6) (fv 7)))
      (.fbin .add (.fval 1) (.fbin .mult (.fbin .mult (.fbin .mult (.fbin .mult (fv 4) (fv 5)) (fv 7)) (fv 6)) (fv 8)))),
    set 10 .field (.fbin .div (.fbin .sub (.fbin .mult (fv 6) (fv 8)) (.fbin .mult (.fbin .mult (fv 3) (fv 5)) (fv 7)))
      (.fbin .sub (.fval 1) (.fbin .mult (.fbin .mult (.fbin .mult (.fbin .mult (fv 4) (fv 5)) (fv 7)) (fv 6)) (fv 8))))]
  ret := .array .field 2 [.expr (fv 9), .expr (fv 10)]

/-- `ecc/edwardsNegate.zok:4-9`:
```
def main(field[2] pt) -> field[2] {
    field u = pt[0];
    field v = pt[1];
    return [-u, v];
}
``` -/
def edwardsNegate : Inst (ZMod p) where
  generics := []
  params := [0]
  body := [set 1 .field (fsel 0 2 0), set 2 .field (fsel 0 2 1)]
  ret := .array .field 2 [.expr (.fneg (fv 1)), .expr (fv 2)]

/-- `ecc/edwardsOnCurve.zok:7-17`:
```
def main(field[2] pt, BabyJubJubParams context) -> bool {
    field a = context.JUBJUB_A;
    field d = context.JUBJUB_D;
    field uu = pt[0] * pt[0];
    field vv = pt[1] * pt[1];
    field uuvv = uu * vv;
    assert(a * uu + vv == 1 + d * uuvv);
    return true;
}
``` -/
def edwardsOnCurve : Inst (ZMod p) where
  generics := []
  params := [0, 1]
  body := [
    set 2 .field (ctxF 1 "JUBJUB_A"),
    set 3 .field (ctxF 1 "JUBJUB_D"),
    set 4 .field (.fbin .mult (fsel 0 2 0) (fsel 0 2 0)),
    set 5 .field (.fbin .mult (fsel 0 2 1) (fsel 0 2 1)),
    set 6 .field (.fbin .mult (fv 4) (fv 5)),
    assert (.eq (.fbin .add (.fbin .mult (fv 2) (fv 4)) (fv 5)) (.fbin .add (.fval 1) (.fbin .mult (fv 3) (fv 6))))]
  ret := .bval true

/-- `ecc/edwardsOrderCheck.zok:12-26`:
```
def main(field[2] pt, BabyJubJubParams context) -> bool {
    field cofactor = context.JUBJUB_C;
    assert(cofactor == 8);
    field[2] mut ptExp = add(pt, pt, context); // 2*pt
    ptExp = add(ptExp, ptExp, context);    // 4*pt
    ptExp = add(ptExp, ptExp, context);    // 8*pt
    return !(ptExp[0] == 0 && ptExp[1] == 1);
}
``` -/
def edwardsOrderCheck : Inst (ZMod p) where
  generics := []
  params := [0, 1]
  body := [
    set 2 .field (ctxF 1 "JUBJUB_C"),
    assert (.eq (fv 2) (.fval 8)),
    call 3 ptTy kEdAdd [ptv 0, ptv 0, ctx 1],
    call 3 ptTy kEdAdd [ptv 3, ptv 3, ctx 1],
    call 3 ptTy kEdAdd [ptv 3, ptv 3, ctx 1]]
  ret := .bnot (.bbin .and (.eq (fsel 3 2 0) (.fval 0)) (.eq (fsel 3 2 1) (.fval 1)))

/-- `ecc/edwardsScalarMult.zok:11-26`:
```
def main(bool[256] exponent, field[2] pt, BabyJubJubParams context) -> field[2] {
    field[2] infinity = context.INFINITY;
    field[2] mut doubledP = pt;
    field[2] mut accumulatedP = infinity;
    for u32 i in 0..256 {
        u32 j = 255 - i;
        field[2] candidateP = add(accumulatedP, doubledP, context);
        accumulatedP = exponent[j] ? candidateP : accumulatedP;
        doubledP = add(doubledP, doubledP, context);
    }
    assert(onCurve(accumulatedP, context));
    return accumulatedP;
}
``` -/
def edwardsScalarMult : Inst (ZMod p) where
  generics := []
  params := [0, 1, 2]
  body := [
    set 3 ptTy (.member ptTy (ctx 2) "INFINITY".toList),
    set 4 ptTy (ptv 1),
    set 5 ptTy (ptv 3),
    .for_ 6 (ul 0) (ul 256) [
      set 7 (.uint .b32) (.ubin .b32 .sub (ul 255) (uv 6)),
      call 8 ptTy kEdAdd [ptv 5, ptv 4, ctx 2],
      set 5 ptTy (.cond ptTy (.select .bool (bv 0 256) (uv 7)) (ptv 8) (ptv 5)),
      call 4 ptTy kEdAdd [ptv 4, ptv 4, ctx 2]],
    call 9 .bool kOnCurve [ptv 5, ctx 2],
    assert (.ident 9 .bool)]
  ret := ptv 5

/-- `ecc/edwardsCompress.zok:10-21`:
```
def main(field[2] pt)  -> bool[256] {
    field x = pt[0];
    field y = pt[1];
    bool[256] xBits = unpack256(x);
    bool[256] mut yBits = unpack256(y);
    bool sign = xBits[255];
    yBits[0] = sign;
    return yBits;
}
``` -/
def edwardsCompress : Inst (ZMod p) where
  generics := []
  params := [0]
  body := [
    set 1 .field (fsel 0 2 0),
    set 2 .field (fsel 0 2 1),
    call 3 (.array 256 .bool) kNonStrict [fv 1],
    call 4 (.array 256 .bool) kNonStrict [fv 2],
    set 5 .bool (bsel 3 256 255),
    .simple (.definition (.select (.ident 4 (.array 256 .bool)) (ul 0)) (.ident 5 .bool))]
  ret := bv 4 256

/-- `ecc/proofOfOwnership.zok:20-28`:
```
def main(field[2] pk, field sk, BabyJubJubParams context) -> bool {
    field[2] G = [context.Gu, context.Gv];
    bool[256] skBits = unpack256(sk);
    field[2] ptExp = multiply(skBits, G, context);
    bool out = ptExp[0] == pk[0] && ptExp[1] == pk[1];
    return out;
}
``` -/
def proofOfOwnership : Inst (ZMod p) where
  generics := []
  params := [0, 1, 2]
  body := [
    set 3 ptTy (.array .field 2 [.expr (ctxF 2 "Gu"), .expr (ctxF 2 "Gv")]),
    call 4 (.array 256 .bool) kNonStrict [fv 1],
    call 5 ptTy kScalarMult [bv 4 256, ptv 3, ctx 2],
    set 6 .bool (.bbin .and (.eq (fsel 5 2 0) (fsel 0 2 0)) (.eq (fsel 5 2 1) (fsel 0 2 1)))]
  ret := .ident 6 .bool

/-! ### The library -/

/-- The functions of `ecc/`. -/
def ecc : Program (ZMod p)
  | kEdAdd, [], [.array 2 .field, .array 2 .field, .struct ms], .array 2 .field => if .struct ms = paramsTy then some (.here edwardsAdd) else none
  | kEdNegate, [], [.array 2 .field], .array 2 .field => some (.here edwardsNegate)
  | kOnCurve, [], [.array 2 .field, .struct ms], .bool => if .struct ms = paramsTy then some (.here edwardsOnCurve) else none
  | kOrderCheck, [], [.array 2 .field, .struct ms], .bool => if .struct ms = paramsTy then some (.here edwardsOrderCheck) else none
  | kScalarMult, [], [.array 256 .bool, .array 2 .field, .struct ms], .array 2 .field => if .struct ms = paramsTy then some (.here edwardsScalarMult) else none
  | kCompress, [], [.array 2 .field], .array 256 .bool => some (.here edwardsCompress)
  | kOwnership, [], [.array 2 .field, .field, .struct ms], .bool => if .struct ms = paramsTy then some (.here proofOfOwnership) else none
  | _, _, _, _ => none

end Zok.Typed.Std
