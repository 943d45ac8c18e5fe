import Verif.Model.StdEcc

/-
The standard library, `zokrates_stdlib/stdlib/hashes/sha256` (without `embed/`), transliterated as in `Model/Stdlib.lean`. Constants are inlined.
-/

namespace Zok.Typed.Std
open Abi
variable {p : ℕ}

/-! ### Names of functions -/

/-- `rotr32` of `shaRound`. -/
@[match_pattern] abbrev kRotr : ℕ := 30
/-- `extend` of `shaRound`. -/
@[match_pattern] abbrev kExtend : ℕ := 31
/-- `temp1` of `shaRound`. -/
@[match_pattern] abbrev kTemp1 : ℕ := 32
/-- `temp2` of `shaRound`. -/
@[match_pattern] abbrev kTemp2 : ℕ := 33
/-- `hashes/sha256/shaRound`. -/
@[match_pattern] abbrev kRound : ℕ := 34
/-- `hashes/sha256/sha256`. -/
@[match_pattern] abbrev kSha : ℕ := 35
/-- `pad` of `sha256Padded`. -/
@[match_pattern] abbrev kPad : ℕ := 36
/-- `sha256Padded` of `sha256Padded`. -/
@[match_pattern] abbrev kShaPadded : ℕ := 37
/-- `hashes/sha256/sha256Padded`. -/
@[match_pattern] abbrev kShaBytes : ℕ := 38
/-- `hashes/sha256/512bit`. -/
@[match_pattern] abbrev kSha512 : ℕ := 39
/-- `hashes/sha256/1024bit`. -/
@[match_pattern] abbrev kSha1024 : ℕ := 40
/-- `hashes/sha256/1536bit`. -/
@[match_pattern] abbrev kSha1536 : ℕ := 41
/-- `hashes/sha256/256bitPadded`. -/
@[match_pattern] abbrev kSha256P : ℕ := 42
/-- `hashes/sha256/512bitPadded`. -/
@[match_pattern] abbrev kSha512P : ℕ := 43
/-- `hashes/sha256/1024bitPadded`. -/
@[match_pattern] abbrev kSha1024P : ℕ := 44
/-- `hashes/sha256/512bitPacked`. -/
@[match_pattern] abbrev kShaPacked : ℕ := 45
/-- `hashes/utils/256bitsDirectionHelper`. -/
@[match_pattern] abbrev kDirection : ℕ := 46

/-- The type `u32`. -/
abbrev u32 : CType := .uint .b32
/-- The type `u32[n]`. -/
abbrev u32s (n : ℕ) : CType := .array n u32
/-- A variable of type `u32[n]`. -/
def uvs (x : TId) (n : ℕ) : TExpr (ZMod p) := .ident x (u32s n)
/-- An element of an array of `u32`. -/
def usel (x : TId) (n : ℕ) (i : TExpr (ZMod p)) : TExpr (ZMod p) := .select u32 (uvs x n) i
/-- Operators. -/
def uadd (l r : TExpr (ZMod p)) : TExpr (ZMod p) := .ubin .b32 .add l r
def usub (l r : TExpr (ZMod p)) : TExpr (ZMod p) := .ubin .b32 .sub l r
def umul (l r : TExpr (ZMod p)) : TExpr (ZMod p) := .ubin .b32 .mult l r
def uxor (l r : TExpr (ZMod p)) : TExpr (ZMod p) := .ubin .b32 .xor l r
def uand (l r : TExpr (ZMod p)) : TExpr (ZMod p) := .ubin .b32 .and l r
def uor (l r : TExpr (ZMod p)) : TExpr (ZMod p) := .ubin .b32 .or l r
def ushl (l r : TExpr (ZMod p)) : TExpr (ZMod p) := .ubin .b32 .shl l r
def ushr (l r : TExpr (ZMod p)) : TExpr (ZMod p) := .ubin .b32 .shr l r
/-- An array of literals. -/
def ulits (ns : List ℕ) : TExpr (ZMod p) := .array u32 ns.length (ns.map fun n => .expr (ul n))

/-- `hashes/sha256/shaRound.zok:3-12` -/
def shaK : List ℕ := [
  0x428a2f98, 0x71374491, 0xb5c0fbcf, 0xe9b5dba5, 0x3956c25b, 0x59f111f1, 0x923f82a4, 0xab1c5ed5,
  0xd807aa98, 0x12835b01, 0x243185be, 0x550c7dc3, 0x72be5d74, 0x80deb1fe, 0x9bdc06a7, 0xc19bf174,
  0xe49b69c1, 0xefbe4786, 0x0fc19dc6, 0x240ca1cc, 0x2de92c6f, 0x4a7484aa, 0x5cb0a9dc, 0x76f988da,
  0x983e5152, 0xa831c66d, 0xb00327c8, 0xbf597fc7, 0xc6e00bf3, 0xd5a79147, 0x06ca6351, 0x14292967,
  0x27b70a85, 0x2e1b2138, 0x4d2c6dfc, 0x53380d13, 0x650a7354, 0x766a0abb, 0x81c2c92e, 0x92722c85,
  0xa2bfe8a1, 0xa81a664b, 0xc24b8b70, 0xc76c51a3, 0xd192e819, 0xd6990624, 0xf40e3585, 0x106aa070,
  0x19a4c116, 0x1e376c08, 0x2748774c, 0x34b0bcb5, 0x391c0cb3, 0x4ed8aa4a, 0x5b9cca4f, 0x682e6ff3,
  0x748f82ee, 0x78a5636f, 0x84c87814, 0x8cc70208, 0x90befffa, 0xa4506ceb, 0xbef9a3f7, 0xc67178f2]

/-- `hashes/sha256/sha256.zok:5-8` -/
def shaIV : List ℕ := [
  0x6a09e667, 0xbb67ae85, 0x3c6ef372, 0xa54ff53a,
  0x510e527f, 0x9b05688c, 0x1f83d9ab, 0x5be0cd19]

/-! ### The compression function -/

/-- `hashes/sha256/shaRound.zok:14-16`:
```
def rotr32<N>(u32 x) -> u32 {
    return (x >> N) | (x << (32 - N));
}
``` -/
def rotr32 (N : ℕ) : Inst (ZMod p) where
  generics := [(9, N)]
  params := [0]
  body := []
  ret := uor (ushr (uv 0) (uv 9)) (ushl (uv 0) (usub (ul 32) (uv 9)))

/-- `rotr32::<n>(e)` as the definition of a variable. -/
def rotrCall (x : TId) (n : ℕ) (e : TExpr (ZMod p)) : SStmt (ZMod p) := .call (.ident x u32) u32 kRotr [ul n] [e]

/-- `hashes/sha256/shaRound.zok:18-22`:
```
def extend(u32[64] w, u32 i) -> u32 {
    u32 s0 = rotr32::<7>(w[i-15]) ^ rotr32::<18>(w[i-15]) ^ (w[i-15] >> 3);
    u32 s1 = rotr32::<17>(w[i-2]) ^ rotr32::<19>(w[i-2]) ^ (w[i-2] >> 10);
    return w[i-16] + s0 + w[i-7] + s1;
}
``` -/
def shaExtend : Inst (ZMod p) where
  generics := []
  params := [0, 1]
  body := [
    rotrCall 10 7 (usel 0 64 (usub (uv 1) (ul 15))),
    rotrCall 11 18 (usel 0 64 (usub (uv 1) (ul 15))),
    set 2 u32 (uxor (uxor (uv 10) (uv 11)) (ushr (usel 0 64 (usub (uv 1) (ul 15))) (ul 3))),
    rotrCall 12 17 (usel 0 64 (usub (uv 1) (ul 2))),
    rotrCall 13 19 (usel 0 64 (usub (uv 1) (ul 2))),
    set 3 u32 (uxor (uxor (uv 12) (uv 13)) (ushr (usel 0 64 (usub (uv 1) (ul 2))) (ul 10)))]
  ret := uadd (uadd (uadd (usel 0 64 (usub (uv 1) (ul 16))) (uv 2)) (usel 0 64 (usub (uv 1) (ul 7)))) (uv 3)

/-- `hashes/sha256/shaRound.zok:24-33`:
```
def temp1(u32 e, u32 f, u32 g, u32 h, u32 k, u32 w) -> u32 {
    u32 ch = (e & f) ^ ((!e) & g);
    u32 S1 = rotr32::<6>(e) ^ rotr32::<11>(e) ^ rotr32::<25>(e);
    return h + S1 + ch + k + w;
}
``` -/
def shaTemp1 : Inst (ZMod p) where
  generics := []
  params := [0, 1, 2, 3, 4, 5]
  body := [
    set 6 u32 (uxor (uand (uv 0) (uv 1)) (uand (.unot .b32 (uv 0)) (uv 2))),
    rotrCall 10 6 (uv 0),
    rotrCall 11 11 (uv 0),
    rotrCall 12 25 (uv 0),
    set 7 u32 (uxor (uxor (uv 10) (uv 11)) (uv 12))]
  ret := uadd (uadd (uadd (uadd (uv 3) (uv 7)) (uv 6)) (uv 4)) (uv 5)

/-- `hashes/sha256/shaRound.zok:35-44`:
```
def temp2(u32 a, u32 b, u32 c) -> u32 {
    u32 maj = (a & b) ^ (a & c) ^ (b & c);
    u32 S0 = rotr32::<2>(a) ^ rotr32::<13>(a) ^ rotr32::<22>(a);
    return S0 + maj;
}
``` -/
def shaTemp2 : Inst (ZMod p) where
  generics := []
  params := [0, 1, 2]
  body := [
    set 3 u32 (uxor (uxor (uand (uv 0) (uv 1)) (uand (uv 0) (uv 2))) (uand (uv 1) (uv 2))),
    rotrCall 10 2 (uv 0),
    rotrCall 11 13 (uv 0),
    rotrCall 12 22 (uv 0),
    set 4 u32 (uxor (uxor (uv 10) (uv 11)) (uv 12))]
  ret := uadd (uv 4) (uv 3)

/-- `hashes/sha256/shaRound.zok:48-99`:
```
def main(u32[16] input, u32[8] current) -> u32[8] {
    u32 mut h0 = current[0];
    ...
    u32 mut h7 = current[7];
    u32[64] mut w = [...input, ...[0u32; 48]];
    for u32 i in 16..64 {
        w[i] = extend(w, i);
    }
    u32 mut a = h0;
    ...
    u32 mut h = h7;
    for u32 i in 0..64 {
        u32 t1 = temp1(e, f, g, h, K[i], w[i]);
        u32 t2 = temp2(a, b, c);
        h = g;
        g = f;
        f = e;
        e = d + t1;
        d = c;
        c = b;
        b = a;
        a = t1 + t2;
    }
    h0 = h0 + a;
    ...
    h7 = h7 + h;
    return [h0, h1, h2, h3, h4, h5, h6, h7];
}
```
Variables: `input` 0, `current` 1, `w` 2, `i` 3, `t1` 4, `t2` 5, `h0`, ..., `h7` 10, ..., 17 and `a`, ..., `h` 20, ..., 27. -/
def shaRound : Inst (ZMod p) where
  generics := []
  params := [0, 1]
  body := [
    set 10 u32 (usel 1 8 (ul 0)),
    set 11 u32 (usel 1 8 (ul 1)),
    set 12 u32 (usel 1 8 (ul 2)),
    set 13 u32 (usel 1 8 (ul 3)),
    set 14 u32 (usel 1 8 (ul 4)),
    set 15 u32 (usel 1 8 (ul 5)),
    set 16 u32 (usel 1 8 (ul 6)),
    set 17 u32 (usel 1 8 (ul 7)),
    set 2 (u32s 64) (.array u32 64 [.spread (uvs 0 16), .spread (.repeat_ u32 48 (ul 0) (ul 48))]),
    .for_ 3 (ul 16) (ul 64) [
      .call (.select (.ident 2 (u32s 64)) (uv 3)) u32 kExtend [] [uvs 2 64, uv 3]],
    set 20 u32 (uv 10),
    set 21 u32 (uv 11),
    set 22 u32 (uv 12),
    set 23 u32 (uv 13),
    set 24 u32 (uv 14),
    set 25 u32 (uv 15),
    set 26 u32 (uv 16),
    set 27 u32 (uv 17),
    .for_ 3 (ul 0) (ul 64) [
      call 4 u32 kTemp1 [uv 24, uv 25, uv 26, uv 27, .select u32 (ulits shaK) (uv 3), usel 2 64 (uv 3)],
      call 5 u32 kTemp2 [uv 20, uv 21, uv 22],
      set 27 u32 (uv 26),
      set 26 u32 (uv 25),
      set 25 u32 (uv 24),
      set 24 u32 (uadd (uv 23) (uv 4)),
      set 23 u32 (uv 22),
      set 22 u32 (uv 21),
      set 21 u32 (uv 20),
      set 20 u32 (uadd (uv 4) (uv 5))],
    set 10 u32 (uadd (uv 10) (uv 20)),
    set 11 u32 (uadd (uv 11) (uv 21)),
    set 12 u32 (uadd (uv 12) (uv 22)),
    set 13 u32 (uadd (uv 13) (uv 23)),
    set 14 u32 (uadd (uv 14) (uv 24)),
    set 15 u32 (uadd (uv 15) (uv 25)),
    set 16 u32 (uadd (uv 16) (uv 26)),
    set 17 u32 (uadd (uv 17) (uv 27))]
  ret := .array u32 8 [.expr (uv 10), .expr (uv 11), .expr (uv 12), .expr (uv 13), .expr (uv 14), .expr (uv 15), .expr (uv 16), .expr (uv 17)]

/-- `hashes/sha256/sha256.zok:13-21`:
```
def main<N>(u32[N][16] a) -> u32[8] {
    u32[8] mut current = IV;
    for u32 i in 0..N {
        current = shaRound(a[i], current);
    }
    return current;
}
``` -/
def sha256 (N : ℕ) : Inst (ZMod p) where
  generics := [(9, N)]
  params := [0]
  body := [
    set 1 (u32s 8) (ulits shaIV),
    .for_ 2 (ul 0) (uv 9) [
      call 1 (u32s 8) kRound [.select (u32s 16) (.ident 0 (.array N (u32s 16))) (uv 2), uvs 1 8]]]
  ret := uvs 1 8

/-! ### Padding -/

/-- `hashes/sha256/sha256Padded.zok:7-24`:
```
def pad<L, M>(bool[L] m) -> u32[M][16] {
    u32 length = L + 64 + 1;
    assert(length / 512 + 1 == M);
    u32 r = length % 512;
    u32 k = 512 - r;
    bool[M * 512] result_in_bits = [...m, true, ...[false; k + 32], ...u32_to_bits(L)];
    u32[M][16] mut result = [[0; 16]; M];
    for u32 i in 0..M {
        for u32 j in 0..16 {
            u32 start = i * 512 + j * 32;
            u32 end = start + 32;
            result[i][j] = u32_from_bits(result_in_bits[start..end]);
        }
    }
    return result;
}
```
The size of the repeated array is computed by the instance. -/
def shaPad (L M : ℕ) : Inst (ZMod p) where
  generics := [(8, L), (9, M)]
  params := [0]
  body := [
    set 1 u32 (uadd (uadd (uv 8) (ul 64)) (ul 1)),
    assert (.eq (uadd (.ubin .b32 .div (uv 1) (ul 512)) (ul 1)) (uv 9)),
    set 2 u32 (.ubin .b32 .rem (uv 1) (ul 512)),
    set 3 u32 (usub (ul 512) (uv 2)),
    call 4 (.array 32 .bool) kCast [uv 8],
    set 5 (.array (M * 512) .bool) (.array .bool (M * 512) [.spread (bv 0 L), .expr (.bval true), .spread (.repeat_ .bool (512 - (L + 65) % 512 + 32) (.bval false) (uadd (uv 3) (ul 32))), .spread (bv 4 32)]),
    set 6 (.array M (u32s 16)) (.repeat_ (u32s 16) M (.repeat_ u32 16 (ul 0) (ul 16)) (uv 9)),
    .for_ 7 (ul 0) (uv 9) [
      .for_ 10 (ul 0) (ul 16) [
        set 11 u32 (uadd (umul (uv 7) (ul 512)) (umul (uv 10) (ul 32))),
        set 12 u32 (uadd (uv 11) (ul 32)),
        .call (.select (.select (.ident 6 (.array M (u32s 16))) (uv 7)) (uv 10)) u32 kCast [] [.slice .bool 32 (bv 5 (M * 512)) (uv 11) (uv 12)]]]]
  ret := .ident 6 (.array M (u32s 16))

/-- `hashes/sha256/sha256Padded.zok:28-32`:
```
def sha256Padded<N>(bool[N] input) -> u32[8] {
    u32 block_count = (N + 64 + 1) / 512 + 1;
    u32[block_count][16] padded = pad(input);
    return sha256(padded);
}
``` -/
def sha256Padded (N : ℕ) : Inst (ZMod p) where
  generics := [(9, N)]
  params := [0]
  body := [
    set 1 u32 (uadd (.ubin .b32 .div (uadd (uadd (uv 9) (ul 64)) (ul 1)) (ul 512)) (ul 1)),
    call 2 (.array ((N + 64 + 1) / 512 + 1) (u32s 16)) kPad [bv 0 N],
    call 3 (u32s 8) kSha [.ident 2 (.array ((N + 64 + 1) / 512 + 1) (u32s 16))]]
  ret := uvs 3 8

/-- `hashes/sha256/sha256Padded.zok:36-48`:
```
def main<N>(u8[N] input) -> u32[8] {
    u32 L = N * 8;
    bool[L] mut input_bits = [false; L];
    for u32 i in 0..N {
        bool[8] bits = u8_to_bits(input[i]);
        for u32 j in 0..8 {
            input_bits[i * 8 + j] = bits[j];
        }
    }
    return sha256Padded(input_bits);
}
``` -/
def sha256Bytes (N : ℕ) : Inst (ZMod p) where
  generics := [(9, N)]
  params := [0]
  body := [
    set 1 u32 (umul (uv 9) (ul 8)),
    set 2 (.array (N * 8) .bool) (.repeat_ .bool (N * 8) (.bval false) (uv 1)),
    .for_ 3 (ul 0) (uv 9) [
      call 4 (.array 8 .bool) kCast [.select (.uint .b8) (.ident 0 (.array N (.uint .b8))) (uv 3)],
      .for_ 5 (ul 0) (ul 8) [
        .simple (.definition (.select (.ident 2 (.array (N * 8) .bool)) (uadd (umul (uv 3) (ul 8)) (uv 5))) (.select .bool (bv 4 8) (uv 5)))]],
    call 6 (u32s 8) kShaPadded [bv 2 (N * 8)]]
  ret := uvs 6 8

/-! ### Fixed sizes -/

/-- `hashes/sha256/512bit.zok:7-9`: `return sha256([[...a, ...b]]);` -/
def sha512bit : Inst (ZMod p) where
  generics := []
  params := [0, 1]
  body := [call 10 (u32s 8) kSha [.array (u32s 16) 1 [.expr (.array u32 16 [.spread (uvs 0 8), .spread (uvs 1 8)])]]]
  ret := uvs 10 8

/-- `hashes/sha256/1024bit.zok:7-10`: `u32[8] res = sha256([[...a, ...b], [...c, ...d]]); return res;` -/
def sha1024bit : Inst (ZMod p) where
  generics := []
  params := [0, 1, 2, 3]
  body := [call 10 (u32s 8) kSha [.array (u32s 16) 2 [.expr (.array u32 16 [.spread (uvs 0 8), .spread (uvs 1 8)]), .expr (.array u32 16 [.spread (uvs 2 8), .spread (uvs 3 8)])]]]
  ret := uvs 10 8

/-- `hashes/sha256/1536bit.zok:7-10`: `u32[8] res = sha256([[...a, ...b], [...c, ...d], [...e, ...f]]); return res;` -/
def sha1536bit : Inst (ZMod p) where
  generics := []
  params := [0, 1, 2, 3, 4, 5]
  body := [call 10 (u32s 8) kSha [.array (u32s 16) 3 [.expr (.array u32 16 [.spread (uvs 0 8), .spread (uvs 1 8)]), .expr (.array u32 16 [.spread (uvs 2 8), .spread (uvs 3 8)]),
    .expr (.array u32 16 [.spread (uvs 4 8), .spread (uvs 5 8)])]]]
  ret := uvs 10 8

/-- `hashes/sha256/256bitPadded.zok:5-22`: one block with the padding. -/
def sha256bitPadded : Inst (ZMod p) where
  generics := []
  params := [0]
  body := [
    set 1 (u32s 8) (ulits [0x80000000, 0x00000000, 0x00000000, 0x00000000, 0x00000000, 0x00000000, 0x00000000, 0x00000100]),
    call 10 (u32s 8) kSha512 [uvs 0 8, uvs 1 8]]
  ret := uvs 10 8

/-- `hashes/sha256/512bitPadded.zok:5-32`: one block of padding. -/
def sha512bitPadded : Inst (ZMod p) where
  generics := []
  params := [0, 1]
  body := [
    set 2 (u32s 8) (ulits [0x80000000, 0x00000000, 0x00000000, 0x00000000, 0x00000000, 0x00000000, 0x00000000, 0x00000000]),
    set 3 (u32s 8) (ulits [0x00000000, 0x00000000, 0x00000000, 0x00000000, 0x00000000, 0x00000000, 0x00000000, 0x00000200]),
    call 10 (u32s 8) kSha1024 [uvs 0 8, uvs 1 8, uvs 2 8, uvs 3 8]]
  ret := uvs 10 8

/-- `hashes/sha256/1024bitPadded.zok:5-32`: one block of padding. -/
def sha1024bitPadded : Inst (ZMod p) where
  generics := []
  params := [0, 1, 2, 3]
  body := [
    set 4 (u32s 8) (ulits [0x80000000, 0x00000000, 0x00000000, 0x00000000, 0x00000000, 0x00000000, 0x00000000, 0x00000000]),
    set 5 (u32s 8) (ulits [0x00000000, 0x00000000, 0x00000000, 0x00000000, 0x00000000, 0x00000000, 0x00000000, 0x00000400]),
    call 10 (u32s 8) kSha1536 [uvs 0 8, uvs 1 8, uvs 2 8, uvs 3 8, uvs 4 8, uvs 5 8]]
  ret := uvs 10 8

/-- `hashes/sha256/512bitPacked.zok:8-20`:
```
def main(field[4] preimage) -> field[2] {
    u32[4] a_bits = unpack128(preimage[0]);
    u32[4] b_bits = unpack128(preimage[1]);
    u32[4] c_bits = unpack128(preimage[2]);
    u32[4] d_bits = unpack128(preimage[3]);
    u32[8] lhs = [...a_bits, ...b_bits];
    u32[8] rhs = [...c_bits, ...d_bits];
    u32[8] r = sha256(lhs, rhs);
    return [pack128(r[0..4]), pack128(r[4..8])];
}
```
`utils/pack/u32/pack128.zok:4-6` is inlined. -/
def sha512bitPacked : Inst (ZMod p) where
  generics := []
  params := [0]
  body := [
    call 1 (u32s 4) kUnpackU32 [fsel 0 4 0],
    call 2 (u32s 4) kUnpackU32 [fsel 0 4 1],
    call 3 (u32s 4) kUnpackU32 [fsel 0 4 2],
    call 4 (u32s 4) kUnpackU32 [fsel 0 4 3],
    set 5 (u32s 8) (.array u32 8 [.spread (uvs 1 4), .spread (uvs 2 4)]),
    set 6 (u32s 8) (.array u32 8 [.spread (uvs 3 4), .spread (uvs 4 4)]),
    call 7 (u32s 8) kSha512P [uvs 5 8, uvs 6 8],
    call 8 .field kPackU32 [.slice u32 4 (uvs 7 8) (ul 0) (ul 4)],
    call 9 .field kPackU32 [.slice u32 4 (uvs 7 8) (ul 4) (ul 8)]]
  ret := .array .field 2 [.expr (fv 8), .expr (fv 9)]

/-- `hashes/utils/256bitsDirectionHelper.zok:2-4`: `return selector ? [...rhs, ...lhs] : [...lhs, ...rhs];` -/
def directionHelper : Inst (ZMod p) where
  generics := []
  params := [0, 1, 2]
  body := []
  ret := .cond (u32s 16) (.ident 0 .bool) (.array u32 16 [.spread (uvs 2 8), .spread (uvs 1 8)]) (.array u32 16 [.spread (uvs 1 8), .spread (uvs 2 8)])

/-! ### The library -/

/-- The functions of `hashes/sha256`. -/
def sha : Program (ZMod p)
  | kRotr, [n], [.uint .b32], .uint .b32 => some (.here (rotr32 n))
  | kExtend, [], [.array 64 (.uint .b32), .uint .b32], .uint .b32 => some (.here shaExtend)
  | kTemp1, [], [.uint .b32, .uint .b32, .uint .b32, .uint .b32, .uint .b32, .uint .b32], .uint .b32 => some (.here shaTemp1)
  | kTemp2, [], [.uint .b32, .uint .b32, .uint .b32], .uint .b32 => some (.here shaTemp2)
  | kRound, [], [.array 16 (.uint .b32), .array 8 (.uint .b32)], .array 8 (.uint .b32) => some (.here shaRound)
  | kSha, [], [.array n (.array 16 (.uint .b32))], .array 8 (.uint .b32) => some (.here (sha256 n))
  | kPad, [], [.array l .bool], .array m (.array 16 (.uint .b32)) => some (.here (shaPad l m))
  | kShaPadded, [], [.array n .bool], .array 8 (.uint .b32) => some (.here (sha256Padded n))
  | kShaBytes, [], [.array n (.uint .b8)], .array 8 (.uint .b32) => some (.here (sha256Bytes n))
  | kSha512, [], [.array 8 (.uint .b32), .array 8 (.uint .b32)], .array 8 (.uint .b32) => some (.here sha512bit)
  | kSha1024, [], [.array 8 (.uint .b32), .array 8 (.uint .b32), .array 8 (.uint .b32), .array 8 (.uint .b32)], .array 8 (.uint .b32) => some (.here sha1024bit)
  | kSha1536, [], [.array 8 (.uint .b32), .array 8 (.uint .b32), .array 8 (.uint .b32), .array 8 (.uint .b32), .array 8 (.uint .b32), .array 8 (.uint .b32)], .array 8 (.uint .b32) => some (.here sha1536bit)
  | kSha256P, [], [.array 8 (.uint .b32)], .array 8 (.uint .b32) => some (.here sha256bitPadded)
  | kSha512P, [], [.array 8 (.uint .b32), .array 8 (.uint .b32)], .array 8 (.uint .b32) => some (.here sha512bitPadded)
  | kSha1024P, [], [.array 8 (.uint .b32), .array 8 (.uint .b32), .array 8 (.uint .b32), .array 8 (.uint .b32)], .array 8 (.uint .b32) => some (.here sha1024bitPadded)
  | kShaPacked, [], [.array 4 .field], .array 2 .field => some (.here sha512bitPacked)
  | kDirection, [], [.bool, .array 8 (.uint .b32), .array 8 (.uint .b32)], .array 16 (.uint .b32) => some (.here directionHelper)
  | _, _, _, _ => none

end Zok.Typed.Std
