import Verif.Model.StdKeccak

/-
The standard library, `zokrates_stdlib/stdlib/hashes/blake2`, transliterated as in `Model/Stdlib.lean`. Constants are inlined.
-/

namespace Zok.Typed.Std
open Abi
variable {p : ℕ}

/-- `rotr32` of `blake2s_p`. -/
@[match_pattern] abbrev kBlakeRotr : ℕ := 70
/-- `swap_u32` of `blake2s_p`. -/
@[match_pattern] abbrev kSwap32 : ℕ := 71
/-- `mixing_g` of `blake2s_p`. -/
@[match_pattern] abbrev kMixing : ℕ := 72
/-- `blake2s_compression` of `blake2s_p`. -/
@[match_pattern] abbrev kBlakeF : ℕ := 73
/-- `hashes/blake2/blake2s_p`. -/
@[match_pattern] abbrev kBlakeP : ℕ := 74
/-- `hashes/blake2/blake2s`. -/
@[match_pattern] abbrev kBlake : ℕ := 75

/-- `hashes/blake2/blake2s_p.zok:7-10` -/
def blakeIV : List ℕ := [
  0x6A09E667, 0xBB67AE85, 0x3C6EF372, 0xA54FF53A,
  0x510E527F, 0x9B05688C, 0x1F83D9AB, 0x5BE0CD19]

/-- `hashes/blake2/blake2s_p.zok:13-24` -/
def blakeSigma : List (List ℕ) := [
  [0, 1, 2, 3, 4, 5, 6, 7, 8, 9, 10, 11, 12, 13, 14, 15],
  [14, 10, 4, 8, 9, 15, 13, 6, 1, 12, 0, 2, 11, 7, 5, 3],
  [11, 8, 12, 0, 5, 2, 15, 13, 10, 14, 3, 6, 7, 1, 9, 4],
  [7, 9, 3, 1, 13, 12, 11, 14, 2, 6, 5, 10, 4, 0, 15, 8],
  [9, 0, 5, 7, 2, 4, 10, 15, 14, 1, 11, 12, 6, 8, 3, 13],
  [2, 12, 6, 10, 0, 11, 8, 3, 4, 13, 7, 5, 15, 14, 1, 9],
  [12, 5, 1, 15, 14, 13, 4, 10, 0, 7, 6, 3, 9, 2, 8, 11],
  [13, 11, 7, 14, 12, 1, 3, 9, 5, 0, 15, 4, 8, 6, 2, 10],
  [6, 15, 14, 9, 11, 3, 0, 8, 12, 2, 13, 7, 1, 4, 10, 5],
  [10, 2, 8, 4, 7, 6, 1, 5, 15, 11, 9, 14, 3, 12, 13, 0]]

/-! `rotr32`, `hashes/blake2/blake2s_p.zok:27-29`, is the same as `rotr32` of `Model/StdSha.lean`. -/

/-- `hashes/blake2/blake2s_p.zok:32-37`:
```
def swap_u32(u32 val) -> u32 {
    return (val << 24) | \
          ((val <<  8) & 0x00ff0000) | \
          ((val >>  8) & 0x0000ff00) | \
          ((val >> 24) & 0x000000ff);
}
``` -/
def swapU32 : Inst (ZMod p) where
  generics := []
  params := [0]
  body := []
  ret := uor (uor (uor (ushl (uv 0) (ul 24)) (uand (ushl (uv 0) (ul 8)) (ul 0x00ff0000))) (uand (ushr (uv 0) (ul 8)) (ul 0x0000ff00))) (uand (ushr (uv 0) (ul 24)) (ul 0x000000ff))

/-- `v[i] = v[i] + ... ` and `v[i] = rotr32::<n>(v[i] ^ v[j])` in `mixing_g`. -/
def mixSet (i : TId) (e : TExpr (ZMod p)) : SStmt (ZMod p) := setAt 0 16 u32 (uv i) e
def mixRot (n : ℕ) (i j : TId) : SStmt (ZMod p) := .call (.select (.ident 0 (.array 16 u32)) (uv i)) u32 kBlakeRotr [ul n] [uxor (usel 0 16 (uv i)) (usel 0 16 (uv j))]

/-- `hashes/blake2/blake2s_p.zok:40-50`:
```
def mixing_g(u32[16] mut v, u32 a, u32 b, u32 c, u32 d, u32 x, u32 y) -> u32[16] {
    v[a] = (v[a] + v[b] + x);
    v[d] = rotr32::<16>(v[d] ^ v[a]);
    v[c] = (v[c] + v[d]);
    v[b] = rotr32::<12>(v[b] ^ v[c]);
    v[a] = (v[a] + v[b] + y);
    v[d] = rotr32::<8>(v[d] ^ v[a]);
    v[c] = (v[c] + v[d]);
    v[b] = rotr32::<7>(v[b] ^ v[c]);
    return v;
}
```
Variables: `v` 0, `a` 1, `b` 2, `c` 3, `d` 4, `x` 5, `y` 6. -/
def mixingG : Inst (ZMod p) where
  generics := []
  params := [0, 1, 2, 3, 4, 5, 6]
  body := [
    mixSet 1 (uadd (uadd (usel 0 16 (uv 1)) (usel 0 16 (uv 2))) (uv 5)),
    mixRot 16 4 1,
    mixSet 3 (uadd (usel 0 16 (uv 3)) (usel 0 16 (uv 4))),
    mixRot 12 2 3,
    mixSet 1 (uadd (uadd (usel 0 16 (uv 1)) (usel 0 16 (uv 2))) (uv 6)),
    mixRot 8 4 1,
    mixSet 3 (uadd (usel 0 16 (uv 3)) (usel 0 16 (uv 4))),
    mixRot 7 2 3]
  ret := uvs 0 16

/-- `v = mixing_g(v, a, b, c, d, m[s[i]], m[s[j]]);` in `blake2s_compression`. -/
def mixCall (a b c d i j : ℕ) : SStmt (ZMod p) := call 4 (u32s 16) kMixing [uvs 4 16, ul a, ul b, ul c, ul d, usel 1 16 (usel 6 16 (ul i)), usel 1 16 (usel 6 16 (ul j))]

/-- `hashes/blake2/blake2s_p.zok:52-76`:
```
def blake2s_compression(u32[8] mut h, u32[16] m, u32[2] t, bool last) -> u32[8] {
    u32[16] mut v = [...h, ...IV];
    v[12] = v[12] ^ t[0];
    v[13] = v[13] ^ t[1];
    v[14] = last ? v[14] ^ 0xFFFFFFFF : v[14];
    for u32 i in 0..10 {
        u32[16] s = SIGMA[i];
        v = mixing_g(v, 0, 4,  8, 12, m[s[0]],  m[s[1]]);
        v = mixing_g(v, 1, 5,  9, 13, m[s[2]],  m[s[3]]);
        v = mixing_g(v, 2, 6, 10, 14, m[s[4]],  m[s[5]]);
        v = mixing_g(v, 3, 7, 11, 15, m[s[6]],  m[s[7]]);
        v = mixing_g(v, 0, 5, 10, 15, m[s[8]],  m[s[9]]);
        v = mixing_g(v, 1, 6, 11, 12, m[s[10]], m[s[11]]);
        v = mixing_g(v, 2, 7,  8, 13, m[s[12]], m[s[13]]);
        v = mixing_g(v, 3, 4,  9, 14, m[s[14]], m[s[15]]);
    }
    for u32 i in 0..8 {
        h[i] = h[i] ^ v[i] ^ v[i + 8];
    }
    return h;
}
```
Variables: `h` 0, `m` 1, `t` 2, `last` 3, `v` 4, `i` 5, `s` 6. -/
def blakeF : Inst (ZMod p) where
  generics := []
  params := [0, 1, 2, 3]
  body := [
    set 4 (u32s 16) (.array u32 16 [.spread (uvs 0 8), .spread (ulits blakeIV)]),
    setAt 4 16 u32 (ul 12) (uxor (usel 4 16 (ul 12)) (usel 2 2 (ul 0))),
    setAt 4 16 u32 (ul 13) (uxor (usel 4 16 (ul 13)) (usel 2 2 (ul 1))),
    setAt 4 16 u32 (ul 14) (.cond u32 (.ident 3 .bool) (uxor (usel 4 16 (ul 14)) (ul 0xFFFFFFFF)) (usel 4 16 (ul 14))),
    .for_ 5 (ul 0) (ul 10) [
      set 6 (u32s 16) (.select (u32s 16) (.array (u32s 16) 10 (blakeSigma.map fun s => .expr (ulits s))) (uv 5)),
      mixCall 0 4 8 12 0 1,
      mixCall 1 5 9 13 2 3,
      mixCall 2 6 10 14 4 5,
      mixCall 3 7 11 15 6 7,
      mixCall 0 5 10 15 8 9,
      mixCall 1 6 11 12 10 11,
      mixCall 2 7 8 13 12 13,
      mixCall 3 4 9 14 14 15],
    .for_ 5 (ul 0) (ul 8) [
      setAt 0 8 u32 (uv 5) (uxor (uxor (usel 0 8 (uv 5)) (usel 4 16 (uv 5))) (usel 4 16 (uadd (uv 5) (ul 8))))]]
  ret := uvs 0 8

/-- An element of `IV`. -/
def blakeIVsel (i : ℕ) : TExpr (ZMod p) := .select u32 (ulits blakeIV) (ul i)

/-- `hashes/blake2/blake2s_p.zok:78-117`:
```
def main<K>(u32[K][16] mut input, u32[2] p) -> u32[8] {
    u32[8] mut h = [
        IV[0] ^ 0x01010000 ^ 0x00000020,
        IV[1],
        IV[2],
        IV[3],
        IV[4],
        IV[5],
        IV[6] ^ swap_u32(p[0]),
        IV[7] ^ swap_u32(p[1])
    ];
    u32 mut t0 = 0;
    u32 mut t1 = 0;
    // change endianness of inputs from big endian to little endian
    for u32 i in 0..K {
        for u32 j in 0..16 {
            input[i][j] = swap_u32(input[i][j]);
        }
    }
    for u32 i in 0..K-1 {
        t0 = (i + 1) * 64;
        t1 = t0 == 0 ? t1 + 1 : t1;
        h = blake2s_compression(h, input[i], [t0, t1], false);
    }
    t0 = t0 + 64;
    t1 = t0 == 0 ? t1 + 1 : t1;
    h = blake2s_compression(h, input[K - 1], [t0, t1], true);
    // change endianness of output from little endian to big endian
    for u32 i in 0..8 {
        h[i] = swap_u32(h[i]);
    }
    return h;
}
```
Variables: `input` 0, `p` 1, `h` 2, `t0` 3, `t1` 4, `i` 5, `j` 6. -/
def blakeP (K : ℕ) : Inst (ZMod p) where
  generics := [(9, K)]
  params := [0, 1]
  body := [
    call 10 u32 kSwap32 [usel 1 2 (ul 0)],
    call 11 u32 kSwap32 [usel 1 2 (ul 1)],
    set 2 (u32s 8) (.array u32 8 [.expr (uxor (uxor (blakeIVsel 0) (ul 0x01010000)) (ul 0x00000020)), .expr (blakeIVsel 1), .expr (blakeIVsel 2), .expr (blakeIVsel 3), .expr (blakeIVsel 4), .expr (blakeIVsel 5),
      .expr (uxor (blakeIVsel 6) (uv 10)), .expr (uxor (blakeIVsel 7) (uv 11))]),
    set 3 u32 (ul 0),
    set 4 u32 (ul 0),
    .for_ 5 (ul 0) (uv 9) [
      .for_ 6 (ul 0) (ul 16) [
        .call (.select (.select (.ident 0 (.array K (u32s 16))) (uv 5)) (uv 6)) u32 kSwap32 [] [.select u32 (.select (u32s 16) (.ident 0 (.array K (u32s 16))) (uv 5)) (uv 6)]]],
    .for_ 5 (ul 0) (usub (uv 9) (ul 1)) [
      set 3 u32 (umul (uadd (uv 5) (ul 1)) (ul 64)),
      set 4 u32 (.cond u32 (.eq (uv 3) (ul 0)) (uadd (uv 4) (ul 1)) (uv 4)),
      call 2 (u32s 8) kBlakeF [uvs 2 8, .select (u32s 16) (.ident 0 (.array K (u32s 16))) (uv 5), .array u32 2 [.expr (uv 3), .expr (uv 4)], .bval false]],
    set 3 u32 (uadd (uv 3) (ul 64)),
    set 4 u32 (.cond u32 (.eq (uv 3) (ul 0)) (uadd (uv 4) (ul 1)) (uv 4)),
    call 2 (u32s 8) kBlakeF [uvs 2 8, .select (u32s 16) (.ident 0 (.array K (u32s 16))) (usub (uv 9) (ul 1)), .array u32 2 [.expr (uv 3), .expr (uv 4)], .bval true],
    .for_ 5 (ul 0) (ul 8) [
      .call (.select (.ident 2 (u32s 8)) (uv 5)) u32 kSwap32 [] [usel 2 8 (uv 5)]]]
  ret := uvs 2 8

/-- `hashes/blake2/blake2s.zok:3-5`: `return blake2s_p(input, [0; 2]);` -/
def blake2s (K : ℕ) : Inst (ZMod p) where
  generics := [(9, K)]
  params := [0]
  body := [call 10 (u32s 8) kBlakeP [.ident 0 (.array K (u32s 16)), .repeat_ u32 2 (ul 0) (ul 2)]]
  ret := uvs 10 8

/-- The functions of `hashes/blake2`. -/
def blake2 : Program (ZMod p)
  | kBlakeRotr, [n], [.uint .b32], .uint .b32 => some (.here (rotr32 n))
  | kSwap32, [], [.uint .b32], .uint .b32 => some (.here swapU32)
  | kMixing, [], [.array 16 (.uint .b32), .uint .b32, .uint .b32, .uint .b32, .uint .b32, .uint .b32, .uint .b32], .array 16 (.uint .b32) => some (.here mixingG)
  | kBlakeF, [], [.array 8 (.uint .b32), .array 16 (.uint .b32), .array 2 (.uint .b32), .bool], .array 8 (.uint .b32) => some (.here blakeF)
  | kBlakeP, [], [.array k (.array 16 (.uint .b32)), .array 2 (.uint .b32)], .array 8 (.uint .b32) => some (.here (blakeP k))
  | kBlake, [], [.array k (.array 16 (.uint .b32))], .array 8 (.uint .b32) => some (.here (blake2s k))
  | _, _, _, _ => none

end Zok.Typed.Std
