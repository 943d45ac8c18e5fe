import Verif.Model.Reducer

/-
The standard library, `zokrates_stdlib/stdlib`: functions of `utils/` (packing, casts, lookup tables), as instances for all values of their generic parameters.

Transliteration. Variables are numbers. A call inside of an expression is the definition of a new variable in front of the statement. Types are concrete: the instance
gives the sizes. Where a condition on generic parameters decides between two branches, the instance has the branch that is taken, since the reducer drops the other one
together with the calls in it. `Inst.generics` gives values to the generic parameters which occur in expressions.
-/

namespace Zok.Typed.Std
open Abi
variable {p : ℕ}

/-! ### Abbreviations for expressions and statements -/

/-- A variable of type `u32`. -/
def uv (x : TId) : TExpr (ZMod p) := .ident x (.uint .b32)
/-- A literal of type `u32`. -/
def ul (n : ℕ) : TExpr (ZMod p) := .uval .b32 n
/-- A variable of type `field`. -/
def fv (x : TId) : TExpr (ZMod p) := .ident x .field
/-- An array of booleans. -/
def bv (x : TId) (n : ℕ) : TExpr (ZMod p) := .ident x (.array n .bool)
/-- `x = e` -/
def set (x : TId) (t : CType) (e : TExpr (ZMod p)) : SStmt (ZMod p) := .simple (.definition (.ident x t) e)
/-- `x = key(args)` -/
def call (x : TId) (t : CType) (key : ℕ) (args : List (TExpr (ZMod p))) : SStmt (ZMod p) := .call (.ident x t) t key [] args
/-- `assert(e)` -/
def assert (e : TExpr (ZMod p)) : SStmt (ZMod p) := .simple (.assertion e (.sourceAssertion ""))

/-! ### Names of functions -/

/-- `u8_to_bits`, ..., `u64_to_bits` of `EMBED`. -/
@[match_pattern] abbrev kToBits : ℕ := 0
/-- `u8_from_bits`, ..., `u64_from_bits` of `EMBED`. -/
@[match_pattern] abbrev kFromBits : ℕ := 1
/-- `unpack` of `EMBED`. -/
@[match_pattern] abbrev kUnpackE : ℕ := 2
/-- `bit_array_le` of `EMBED`. -/
@[match_pattern] abbrev kLe : ℕ := 3
/-- `utils/pack/bool/pack`. -/
@[match_pattern] abbrev kPack : ℕ := 4
/-- `utils/pack/bool/unpack_unchecked`. -/
@[match_pattern] abbrev kUnchecked : ℕ := 5
/-- `utils/pack/bool/unpack`. -/
@[match_pattern] abbrev kUnpack : ℕ := 6
/-- `utils/pack/bool/nonStrictUnpack256`. -/
@[match_pattern] abbrev kNonStrict : ℕ := 7
/-- `utils/casts/field_to_u8`, ..., `field_to_u64`. -/
@[match_pattern] abbrev kFieldToU : ℕ := 8
/-- `cast` of `utils/casts`, which is overloaded. -/
@[match_pattern] abbrev kCast : ℕ := 9
/-- `utils/multiplexer/lookup1bit`. -/
@[match_pattern] abbrev kLookup1 : ℕ := 10
/-- `utils/multiplexer/lookup2bit`. -/
@[match_pattern] abbrev kLookup2 : ℕ := 11
/-- `utils/multiplexer/lookup3bitSigned`. -/
@[match_pattern] abbrev kLookup3 : ℕ := 12
/-- `utils/pack/u32/pack`. -/
@[match_pattern] abbrev kPackU32 : ℕ := 13
/-- `utils/pack/u32/unpack128`. -/
@[match_pattern] abbrev kUnpackU32 : ℕ := 14

/-! ### Packing -/

/-- `utils/pack/bool/pack.zok:1-8`:
```
def main<N>(bool[N] bits) -> field {
    field mut out = 0;
    for u32 j in 0..N {
        u32 i = N - (j + 1);
        out = out + (bits[i] ? 2 ** j : 0);
    }
    return out;
}
``` -/
def pack (N : ℕ) : Inst (ZMod p) where
  generics := [(9, N)]
  params := [0]
  body := [
    set 1 .field (.fval 0),
    .for_ 2 (ul 0) (uv 9) [
      set 3 (.uint .b32) (.ubin .b32 .sub (uv 9) (.ubin .b32 .add (uv 2) (ul 1))),
      set 1 .field (.fbin .add (fv 1) (.cond .field (.select .bool (bv 0 N) (uv 3)) (.fubin .pow (.fval 2) (uv 2)) (.fval 0)))]]
  ret := fv 1

/-- `utils/pack/bool/unpack_unchecked.zok:5-8`:
```
def main<N>(field i) -> bool[N] {
    bool[N] res = unpack(i);
    return res;
}
``` -/
def unpackUnchecked (N : ℕ) : Inst (ZMod p) where
  generics := [(9, N)]
  params := [0]
  body := [call 1 (.array N .bool) kUnpackE [fv 0]]
  ret := bv 1 N

/-- `utils/pack/bool/unpack.zok:6-12`:
```
def main<N>(field i) -> bool[N] {
    bool[N] res = unpack_unchecked(i);
    assert(N >= FIELD_SIZE_IN_BITS \
                ? bit_array_le(res, [...[false; N - FIELD_SIZE_IN_BITS], ...unpack_unchecked::<FIELD_SIZE_IN_BITS>(-1)]) \
                : true);
    return res;
}
``` -/
def unpack (N : ℕ) : Inst (ZMod p) where
  generics := [(9, N)]
  params := [0]
  body := call 1 (.array N .bool) kUnchecked [fv 0] ::
    if Fld.requiredBits p ≤ N then [
      .call (.ident 2 (.array (Fld.requiredBits p) .bool)) (.array (Fld.requiredBits p) .bool) kUnchecked [ul (Fld.requiredBits p)] [.fneg (.fval 1)],
      call 3 .bool kLe [bv 1 N, .array .bool N [.spread (.repeat_ .bool (N - Fld.requiredBits p) (.bval false) (.ubin .b32 .sub (uv 9) (ul (Fld.requiredBits p)))),
        .spread (bv 2 (Fld.requiredBits p))]],
      assert (.ident 3 .bool)]
    else [assert (.bval true)]
  ret := bv 1 N

/-- `utils/pack/bool/nonStrictUnpack256.zok:8-11`:
```
def main(field i) -> bool[256] {
    bool[254] b = unpack_unchecked(i);
    return [false, false, ...b];
}
``` -/
def nonStrictUnpack256 : Inst (ZMod p) where
  generics := []
  params := [0]
  body := [call 1 (.array 254 .bool) kUnchecked [fv 0]]
  ret := .array .bool 256 [.expr (.bval false), .expr (.bval false), .spread (bv 1 254)]

/-- `utils/casts/field_to_u8.zok:5-8`, and the same for the other widths:
```
def main(field input) -> u8 {
    bool[FIELD_SIZE_IN_BITS] bits = unpack(input);
    return u8_from_bits(bits[FIELD_SIZE_IN_BITS-8..]);
}
``` -/
def fieldToU (w : UW) : Inst (ZMod p) where
  generics := []
  params := [0]
  body := [
    call 1 (.array (Fld.requiredBits p) .bool) kUnpack [fv 0],
    call 2 (.uint w) kFromBits [.slice .bool w.bits (bv 1 (Fld.requiredBits p)) (.ubin .b32 .sub (ul (Fld.requiredBits p)) (ul w.bits)) (ul (Fld.requiredBits p))]]
  ret := .ident 2 (.uint w)

/-! ### Casts -/

/-- `utils/casts.zok:4-6`, `:20-22`, `:36-38`, `:52-54` (and `utils/casts/u8_from_bits.zok` etc.): `return u8_from_bits(input);` -/
def castFromBits (w : UW) : Inst (ZMod p) where
  generics := []
  params := [0]
  body := [call 1 (.uint w) kFromBits [bv 0 w.bits]]
  ret := .ident 1 (.uint w)

/-- `utils/casts.zok:68-70`, `:193-195`, `:308-310`, `:420-422` (and `utils/casts/u8_to_bits.zok` etc.): `return u8_to_bits(input);` -/
def castToBits (w : UW) : Inst (ZMod p) where
  generics := []
  params := [0]
  body := [call 1 (.array w.bits .bool) kToBits [.ident 0 (.uint w)]]
  ret := bv 1 w.bits

/-- `utils/casts.zok:10-17`, and the same for the other widths `:26-33`, `:42-49`, `:58-65` (`utils/casts/bool_array_to_u32_array.zok`):
```
def cast<N, P>(bool[N] input) -> u8[P] {
    assert(N == 8 * P);
    u8[P] mut r = [0; P];
    for u32 i in 0..P {
        r[i] = u8_from_bits(input[i * 8..(i + 1) * 8]);
    }
    return r;
}
``` -/
def castFromBitsArr (w : UW) (N P : ℕ) : Inst (ZMod p) where
  generics := [(8, N), (9, P)]
  params := [0]
  body := [
    assert (.eq (uv 8) (.ubin .b32 .mult (ul w.bits) (uv 9))),
    set 1 (.array P (.uint w)) (.repeat_ (.uint w) P (.uval w 0) (uv 9)),
    .for_ 2 (ul 0) (uv 9) [
      .call (.select (.ident 1 (.array P (.uint w))) (uv 2)) (.uint w) kFromBits []
        [.slice .bool w.bits (bv 0 N) (.ubin .b32 .mult (uv 2) (ul w.bits)) (.ubin .b32 .mult (.ubin .b32 .add (uv 2) (ul 1)) (ul w.bits))]]]
  ret := .ident 1 (.array P (.uint w))

/-- `utils/casts.zok:74-84`, and the same for the other widths `:199-209`, `:314-324`, `:426-436` (`utils/casts/u32_array_to_bool_array.zok`):
```
def cast<N, P>(u8[N] input) -> bool[P] {
    assert(P == 8 * N);
    bool[P] mut r = [false; P];
    for u32 i in 0..N {
        bool[8] bits = u8_to_bits(input[i]);
        for u32 j in 0..8 {
            r[i * 8 + j] = bits[j];
        }
    }
    return r;
}
``` -/
def castToBitsArr (w : UW) (N P : ℕ) : Inst (ZMod p) where
  generics := [(8, N), (9, P)]
  params := [0]
  body := [
    assert (.eq (uv 9) (.ubin .b32 .mult (ul w.bits) (uv 8))),
    set 1 (.array P .bool) (.repeat_ .bool P (.bval false) (uv 9)),
    .for_ 2 (ul 0) (uv 8) [
      call 3 (.array w.bits .bool) kToBits [.select (.uint w) (.ident 0 (.array N (.uint w))) (uv 2)],
      .for_ 4 (ul 0) (ul w.bits) [
        .simple (.definition (.select (.ident 1 (.array P .bool)) (.ubin .b32 .add (.ubin .b32 .mult (uv 2) (ul w.bits)) (uv 4))) (.select .bool (bv 3 w.bits) (uv 4)))]]]
  ret := bv 1 P

/-- `utils/casts.zok:87-95`, and the same for the other widths `:212-220`, `:327-335`, `:439-447` (`utils/casts/u8_to_field.zok` etc.):
```
def cast(u8 input) -> field {
    bool[8] bits = u8_to_bits(input);
    field mut r = 0;
    for u32 i in 0..8 {
        u32 exponent = 8 - i - 1;
        r = r + (bits[i] ? 2 ** exponent : 0);
    }
    return r;
}
``` -/
def castToField (w : UW) : Inst (ZMod p) where
  generics := []
  params := [0]
  body := [
    call 1 (.array w.bits .bool) kToBits [.ident 0 (.uint w)],
    set 2 .field (.fval 0),
    .for_ 3 (ul 0) (ul w.bits) [
      set 4 (.uint .b32) (.ubin .b32 .sub (.ubin .b32 .sub (ul w.bits) (uv 3)) (ul 1)),
      set 2 .field (.fbin .add (fv 2) (.cond .field (.select .bool (bv 1 w.bits) (uv 3)) (.fubin .pow (.fval 2) (uv 4)) (.fval 0)))]]
  ret := fv 2

/-- `utils/casts.zok:98-104`, and the same for the other widths `:223-229`, `:338-344`, `:450-456`:
```
def cast<N>(u8[N] input) -> field[N] {
    field[N] mut r = [0; N];
    for u32 i in 0..N {
        r[i] = cast(input[i]);
    }
    return r;
}
``` -/
def castToFieldArr (w : UW) (N : ℕ) : Inst (ZMod p) where
  generics := [(9, N)]
  params := [0]
  body := [
    set 1 (.array N .field) (.repeat_ .field N (.fval 0) (uv 9)),
    .for_ 2 (ul 0) (uv 9) [.call (.select (.ident 1 (.array N .field)) (uv 2)) .field kCast [] [.select (.uint w) (.ident 0 (.array N (.uint w))) (uv 2)]]]
  ret := .ident 1 (.array N .field)

/-- `utils/casts.zok:107-110`, and the same for the other widths `:133-136`, `:161-164`, `:254-257`, `:280-283`, `:394-397`:
```
def cast(u8 input) -> u16 {
    bool[8] bits = u8_to_bits(input);
    return u16_from_bits([...[false; 8], ...bits]);
}
``` -/
def castUp (w w' : UW) : Inst (ZMod p) where
  generics := []
  params := [0]
  body := [
    call 1 (.array w.bits .bool) kToBits [.ident 0 (.uint w)],
    call 2 (.uint w') kFromBits [.array .bool w'.bits [.spread (.repeat_ .bool (w'.bits - w.bits) (.bval false) (ul (w'.bits - w.bits))), .spread (bv 1 w.bits)]]]
  ret := .ident 2 (.uint w')

/-- `utils/casts.zok:113-119`, `:139-147`, `:167-179`, `:260-266`, `:286-294`, `:400-406`: an array of `k` integers of `w` bits becomes an integer of `w' = k * w` bits:
```
def cast(u8[2] input) -> u16 {
    bool[16] bits = [
        ...u8_to_bits(input[0]),
        ...u8_to_bits(input[1])
    ];
    return u16_from_bits(bits);
}
``` -/
def castCat (w w' : UW) (k : ℕ) : Inst (ZMod p) where
  generics := []
  params := [0]
  body := (List.range k).map (fun j => call (10 + j) (.array w.bits .bool) kToBits [.select (.uint w) (.ident 0 (.array k (.uint w))) (ul j)]) ++ [
    set 1 (.array w'.bits .bool) (.array .bool w'.bits ((List.range k).map fun j => .spread (bv (10 + j) w.bits))),
    call 2 (.uint w') kFromBits [bv 1 w'.bits]]
  ret := .ident 2 (.uint w')

/-- `utils/casts.zok:232-238`, `:347-355`, `:372-378`, `:459-471`, `:488-496`, `:513-519`: an integer of `w' = k * w` bits becomes an array of `k` integers of `w` bits:
```
def cast(u16 input) -> u8[2] {
    bool[16] bits = u16_to_bits(input);
    return [
        u8_from_bits(bits[0..8]),
        u8_from_bits(bits[8..16])
    ];
}
``` -/
def castSplit (w w' : UW) (k : ℕ) : Inst (ZMod p) where
  generics := []
  params := [0]
  body := call 1 (.array w'.bits .bool) kToBits [.ident 0 (.uint w')] ::
    (List.range k).map (fun j => call (10 + j) (.uint w) kFromBits [.slice .bool w.bits (bv 1 w'.bits) (ul (j * w.bits)) (ul ((j + 1) * w.bits))])
  ret := .array (.uint w) k ((List.range k).map fun j => .expr (.ident (10 + j) (.uint w)))

/-- `utils/casts.zok:123-130`, and the same for the other widths `:151-158`, `:183-190`, `:270-277`, `:298-305`, `:410-417`: an array of integers of `w` bits becomes an array of integers of `w' = k * w` bits:
```
def cast<N, P>(u8[N] input) -> u16[P] {
    assert(N == 2 * P);
    u16[P] mut r = [0; P];
    for u32 i in 0..P {
        r[i] = cast(input[i * 2..(i + 1) * 2]);
    }
    return r;
}
``` -/
def castCatArr (w w' : UW) (k N P : ℕ) : Inst (ZMod p) where
  generics := [(8, N), (9, P)]
  params := [0]
  body := [
    assert (.eq (uv 8) (.ubin .b32 .mult (ul k) (uv 9))),
    set 1 (.array P (.uint w')) (.repeat_ (.uint w') P (.uval w' 0) (uv 9)),
    .for_ 2 (ul 0) (uv 9) [
      .call (.select (.ident 1 (.array P (.uint w'))) (uv 2)) (.uint w') kCast []
        [.slice (.uint w) k (.ident 0 (.array N (.uint w))) (.ubin .b32 .mult (uv 2) (ul k)) (.ubin .b32 .mult (.ubin .b32 .add (uv 2) (ul 1)) (ul k))]]]
  ret := .ident 1 (.array P (.uint w'))

/-- `utils/casts.zok:359-369`, `:475-485`, `:500-510` (for `k > 2`) and `:242-251`, `:382-391`, `:523-531` (for `k = 2`): an array of integers of `w' = k * w` bits becomes an array of integers of `w` bits:
```
def cast<N, P>(u32[N] input) -> u8[P] {              def cast<N, P>(u16[N] input) -> u8[P] {
    assert(P == 4 * N);                                  assert(P == 2 * N);
    u8[P] mut r = [0; P];                                u8[P] mut r = [0; P];
    for u32 i in 0..N {                                  for u32 i in 0..N {
        u8[4] t = cast(input[i]);                            u8[2] t = cast(input[i]);
        for u32 j in 0..4 {                                  r[i * 2] = t[0];
            r[i * 4 + j] = t[j];                             r[i * 2 + 1] = t[1];
        }                                                }
    }                                                    return r;
    return r;                                        }
}
``` -/
def castSplitArr (w w' : UW) (k N P : ℕ) : Inst (ZMod p) where
  generics := [(8, N), (9, P)]
  params := [0]
  body := [
    assert (.eq (uv 9) (.ubin .b32 .mult (ul k) (uv 8))),
    set 1 (.array P (.uint w)) (.repeat_ (.uint w) P (.uval w 0) (uv 9)),
    .for_ 2 (ul 0) (uv 8) (
      call 3 (.array k (.uint w)) kCast [.select (.uint w') (.ident 0 (.array N (.uint w'))) (uv 2)] ::
      if k = 2 then [
        .simple (.definition (.select (.ident 1 (.array P (.uint w))) (.ubin .b32 .mult (uv 2) (ul 2))) (.select (.uint w) (.ident 3 (.array 2 (.uint w))) (ul 0))),
        .simple (.definition (.select (.ident 1 (.array P (.uint w))) (.ubin .b32 .add (.ubin .b32 .mult (uv 2) (ul 2)) (ul 1))) (.select (.uint w) (.ident 3 (.array 2 (.uint w))) (ul 1)))]
      else [
        .for_ 4 (ul 0) (ul k) [
          .simple (.definition (.select (.ident 1 (.array P (.uint w))) (.ubin .b32 .add (.ubin .b32 .mult (uv 2) (ul k)) (uv 4))) (.select (.uint w) (.ident 3 (.array k (.uint w))) (uv 4)))]])]
  ret := .ident 1 (.array P (.uint w))

/-- `utils/pack/u32/pack.zok:5-8`, with `utils/casts/u32_array_to_bool_array` as a cast:
```
def main<N>(u32[N] input) -> field {
    bool[N * 32] bits = to_bits(input);
    return pack(bits);
}
``` -/
def packU32 (N : ℕ) : Inst (ZMod p) where
  generics := [(9, N)]
  params := [0]
  body := [
    call 1 (.array (N * 32) .bool) kCast [.ident 0 (.array N (.uint .b32))],
    call 2 .field kPack [bv 1 (N * 32)]]
  ret := fv 2

/-- `utils/pack/u32/unpack128.zok:7-9` (with `utils/pack/bool/unpack128.zok:5-8` and `utils/casts/bool_128_to_u32_4.zok:3-6` inlined, and `utils/casts/bool_array_to_u32_array` as a cast):
```
def main(field i) -> u32[4] {
    return from_bits(unpack(i));
}
``` -/
def unpackU32x4 : Inst (ZMod p) where
  generics := []
  params := [0]
  body := [
    call 1 (.array 128 .bool) kUnpack [fv 0],
    call 2 (.array 4 (.uint .b32)) kCast [bv 1 128]]
  ret := .ident 2 (.array 4 (.uint .b32))

/-! ### Lookup tables -/

/-- The element `i` of an array of field elements. -/
def fsel (x : TId) (n i : ℕ) : TExpr (ZMod p) := .select .field (.ident x (.array n .field)) (ul i)
/-- The element `i` of an array of booleans. -/
def bsel (x : TId) (n i : ℕ) : TExpr (ZMod p) := .select .bool (bv x n) (ul i)

/-- `utils/multiplexer/lookup1bit.zok:2-5`:
```
def main(bool selector, field[2] target) -> field {
    field out = selector ? target[1] : target[0];
    return out;
}
``` -/
def lookup1bit : Inst (ZMod p) where
  generics := []
  params := [0, 1]
  body := [set 2 .field (.cond .field (.ident 0 .bool) (fsel 1 2 1) (fsel 1 2 0))]
  ret := fv 2

/-- `utils/multiplexer/lookup2bit.zok:3-7`:
```
def main(bool[2] b, field[4] c) -> field {
    field alpha = c[1] - c[0] + (b[1] ? (c[3] - c[2] - c[1] + c[0]) : 0);
    field out = (b[0] ? alpha : 0) + c[0] - (b[1] ? (0 - c[2] + c[0]) : 0);
    return out;
}
``` -/
def lookup2bit : Inst (ZMod p) where
  generics := []
  params := [0, 1]
  body := [
    set 2 .field (.fbin .add (.fbin .sub (fsel 1 4 1) (fsel 1 4 0))
      (.cond .field (bsel 0 2 1) (.fbin .add (.fbin .sub (.fbin .sub (fsel 1 4 3) (fsel 1 4 2)) (fsel 1 4 1)) (fsel 1 4 0)) (.fval 0))),
    set 3 .field (.fbin .sub (.fbin .add (.cond .field (bsel 0 2 0) (fv 2) (.fval 0)) (fsel 1 4 0))
      (.cond .field (bsel 0 2 1) (.fbin .add (.fbin .sub (.fval 0) (fsel 1 4 2)) (fsel 1 4 0)) (.fval 0)))]
  ret := fv 3

/-- `utils/multiplexer/lookup3bitSigned.zok:5-9`:
```
def main(bool[3] b, field[4] c) -> field {
    field alpha = lookup([b[0], b[1]], c);
    field out = alpha - 2 * (b[2] ? alpha : 0);
    return out;
}
``` -/
def lookup3bitSigned : Inst (ZMod p) where
  generics := []
  params := [0, 1]
  body := [
    call 2 .field kLookup2 [.array .bool 2 [.expr (bsel 0 3 0), .expr (bsel 0 3 1)], .ident 1 (.array 4 .field)],
    set 3 .field (.fbin .sub (fv 2) (.fbin .mult (.fval 2) (.cond .field (bsel 0 3 2) (fv 2) (.fval 0))))]
  ret := fv 3

/-! ### The library -/

/-- The functions of `utils/` and of `EMBED`, by name, explicit generic arguments, types of the arguments and type of the result. -/
def utils : Program (ZMod p)
  | kToBits, [], [.uint w], .array n .bool => if n = w.bits then some (.flat (.uToBits n) []) else none
  | kFromBits, [], [.array n .bool], .uint w => if n = w.bits then some (.flat (.uFromBits n) []) else none
  | kUnpackE, [], [.field], .array n .bool => some (.flat .unpack [n])
  | kLe, [], [.array n .bool, .array m .bool], .bool => if n = m then some (.flat .bitArrayLe [n]) else none
  | kPack, [], [.array n .bool], .field => some (.here (pack n))
  | kUnchecked, [], [.field], .array n .bool => some (.here (unpackUnchecked n))
  | kUnchecked, [m], [.field], .array n .bool => if n = m then some (.here (unpackUnchecked n)) else none
  | kUnpack, [], [.field], .array n .bool => some (.here (unpack n))
  | kNonStrict, [], [.field], .array 256 .bool => some (.here nonStrictUnpack256)
  | kFieldToU, [], [.field], .uint w => some (.here (fieldToU w))
  | kCast, [], [.array n .bool], .uint w => if n = w.bits then some (.here (castFromBits w)) else none
  | kCast, [], [.uint w], .array n .bool => if n = w.bits then some (.here (castToBits w)) else none
  | kCast, [], [.array n .bool], .array m (.uint w) => some (.here (castFromBitsArr w n m))
  | kCast, [], [.array n (.uint w)], .array m .bool => some (.here (castToBitsArr w n m))
  | kCast, [], [.uint w], .field => some (.here (castToField w))
  | kCast, [], [.array n (.uint w)], .array m .field => if n = m then some (.here (castToFieldArr w n)) else none
  | kCast, [], [.uint w], .uint w' => if w.bits < w'.bits then some (.here (castUp w w')) else none
  | kCast, [], [.array k (.uint w)], .uint w' => if 1 < k ∧ w'.bits = k * w.bits then some (.here (castCat w w' k)) else none
  | kCast, [], [.array n (.uint w)], .array m (.uint w') =>
    if w.bits < w'.bits then some (.here (castCatArr w w' (w'.bits / w.bits) n m)) else if w'.bits < w.bits then some (.here (castSplitArr w' w (w.bits / w'.bits) n m)) else none
  | kCast, [], [.uint w'], .array k (.uint w) => if 1 < k ∧ w'.bits = k * w.bits then some (.here (castSplit w w' k)) else none
  | kLookup1, [], [.bool, .array 2 .field], .field => some (.here lookup1bit)
  | kLookup2, [], [.array 2 .bool, .array 4 .field], .field => some (.here lookup2bit)
  | kPackU32, [], [.array n (.uint .b32)], .field => some (.here (packU32 n))
  | kUnpackU32, [], [.field], .array 4 (.uint .b32) => some (.here unpackU32x4)
  | kLookup3, [], [.array 3 .bool, .array 4 .field], .field => some (.here lookup3bitSigned)
  | _, _, _, _ => none

/-- A program which contains the functions of `lib`. -/
def Imports (P lib : Program (ZMod p)) : Prop := ∀ key ns ts t c, lib key ns ts t = some c → P key ns ts t = some c

end Zok.Typed.Std
