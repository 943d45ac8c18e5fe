import Verif.Model.StdSha

/-
The standard library, `zokrates_stdlib/stdlib/hashes/keccak` and `hashes/sha3`, transliterated as in `Model/Stdlib.lean`. Constants are inlined.
-/

namespace Zok.Typed.Std
open Abi
variable {p : ℕ}

/-! ### Names of functions -/

/-- `rotl64` of `keccak`. -/
@[match_pattern] abbrev kRotl : ℕ := 60
/-- `swap_u64` of `keccak`. -/
@[match_pattern] abbrev kSwap : ℕ := 61
/-- `keccakf` of `keccak`. -/
@[match_pattern] abbrev kKeccakF : ℕ := 62
/-- `u64_from_u8_array` and `u64_to_u8_array` of `keccak`. -/
@[match_pattern] abbrev kLane : ℕ := 63
/-- `to_bytes` of `keccak`. -/
@[match_pattern] abbrev kToBytes : ℕ := 64
/-- `from_bytes` of `keccak`. -/
@[match_pattern] abbrev kFromBytes : ℕ := 65
/-- `hashes/keccak/keccak`. -/
@[match_pattern] abbrev kKeccak : ℕ := 66
/-- `hashes/keccak/224bit`, `256bit`, `384bit` and `512bit`. -/
@[match_pattern] abbrev kKeccakBits : ℕ := 67
/-- `hashes/sha3/224bit`, `256bit`, `384bit` and `512bit`. -/
@[match_pattern] abbrev kSha3Bits : ℕ := 68

/-- The type `u64`. -/
abbrev u64 : CType := .uint .b64
/-- The type `u8`. -/
abbrev u8 : CType := .uint .b8
/-- Variables, operators and elements of arrays of `u64`. -/
def lv (x : TId) : TExpr (ZMod p) := .ident x u64
def lbin (o : UOp) (l r : TExpr (ZMod p)) : TExpr (ZMod p) := .ubin .b64 o l r
def ll (n : ℕ) : TExpr (ZMod p) := .uval .b64 n
def lsel (x : TId) (n : ℕ) (i : TExpr (ZMod p)) : TExpr (ZMod p) := .select u64 (.ident x (.array n u64)) i
/-- The assignment of an element of an array. -/
def setAt (x : TId) (n : ℕ) (t : CType) (i e : TExpr (ZMod p)) : SStmt (ZMod p) := .simple (.definition (.select (.ident x (.array n t)) i) e)

/-- `hashes/keccak/keccak.zok:9-12` -/
def keccakRho : List ℕ := [
  1,  3,  6,  10, 15, 21, 28, 36, 45, 55, 2,  14,
  27, 41, 56, 8,  25, 43, 62, 18, 39, 61, 20, 44]

/-- `hashes/keccak/keccak.zok:14-17` -/
def keccakPi : List ℕ := [
  10, 7,  11, 17, 18, 3, 5,  16, 8,  21, 24, 4,
  15, 23, 19, 13, 12, 2, 20, 14, 22, 9,  6,  1]

/-- `hashes/keccak/keccak.zok:19-28` -/
def keccakRC : List ℕ := [
  0x0000000000000001, 0x0000000000008082, 0x800000000000808a,
  0x8000000080008000, 0x000000000000808b, 0x0000000080000001,
  0x8000000080008081, 0x8000000000008009, 0x000000000000008a,
  0x0000000000000088, 0x0000000080008009, 0x000000008000000a,
  0x000000008000808b, 0x800000000000008b, 0x8000000000008089,
  0x8000000000008003, 0x8000000000008002, 0x8000000000000080,
  0x000000000000800a, 0x800000008000000a, 0x8000000080008081,
  0x8000000000008080, 0x0000000080000001, 0x8000000080008008]

/-! ### The permutation -/

/-- `hashes/keccak/keccak.zok:31-33`:
```
def rotl64(u64 x, u32 n) -> u64 {
    return ((x << n) | (x >> (64 - n)));
}
``` -/
def rotl64 : Inst (ZMod p) where
  generics := []
  params := [0, 1]
  body := []
  ret := lbin .or (lbin .shl (lv 0) (uv 1)) (lbin .shr (lv 0) (usub (ul 64) (uv 1)))

/-- `hashes/keccak/keccak.zok:36-40`:
```
def swap_u64(u64 mut val) -> u64 {
    val = ((val << 8) & 0xFF00FF00FF00FF00) | ((val >> 8) & 0x00FF00FF00FF00FF);
    val = ((val << 16) & 0xFFFF0000FFFF0000) | ((val >> 16) & 0x0000FFFF0000FFFF);
    return (val << 32) | (val >> 32);
}
``` -/
def swapU64 : Inst (ZMod p) where
  generics := []
  params := [0]
  body := [
    set 0 u64 (lbin .or (lbin .and (lbin .shl (lv 0) (ul 8)) (ll 0xFF00FF00FF00FF00)) (lbin .and (lbin .shr (lv 0) (ul 8)) (ll 0x00FF00FF00FF00FF))),
    set 0 u64 (lbin .or (lbin .and (lbin .shl (lv 0) (ul 16)) (ll 0xFFFF0000FFFF0000)) (lbin .and (lbin .shr (lv 0) (ul 16)) (ll 0x0000FFFF0000FFFF)))]
  ret := lbin .or (lbin .shl (lv 0) (ul 32)) (lbin .shr (lv 0) (ul 32))

/-- The loops of `keccakf` which change the endianness: `for u32 i in 0..25 { st[i] = swap_u64(st[i]); }` -/
def swapLoop : SStmt (ZMod p) := .for_ 3 (ul 0) (ul 25) [.call (.select (.ident 0 (.array 25 u64)) (uv 3)) u64 kSwap [] [lsel 0 25 (uv 3)]]

/-- A round of `keccakf`, `hashes/keccak/keccak.zok:52-86`. -/
def keccakRound : List (SStmt (ZMod p)) := [
  .for_ 3 (ul 0) (ul 5) [
    setAt 1 5 u64 (uv 3) (lbin .xor (lbin .xor (lbin .xor (lbin .xor (lsel 0 25 (uv 3)) (lsel 0 25 (uadd (uv 3) (ul 5)))) (lsel 0 25 (uadd (uv 3) (ul 10)))) (lsel 0 25 (uadd (uv 3) (ul 15)))) (lsel 0 25 (uadd (uv 3) (ul 20))))],
  .for_ 3 (ul 0) (ul 5) [
    call 10 u64 kRotl [lsel 1 5 (.ubin .b32 .rem (uadd (uv 3) (ul 1)) (ul 5)), ul 1],
    set 2 u64 (lbin .xor (lsel 1 5 (.ubin .b32 .rem (uadd (uv 3) (ul 4)) (ul 5))) (lv 10)),
    .for_ 5 (ul 0) (ul 5) [
      setAt 0 25 u64 (uadd (umul (uv 5) (ul 5)) (uv 3)) (lbin .xor (lsel 0 25 (uadd (umul (uv 5) (ul 5)) (uv 3))) (lv 2))]],
  set 2 u64 (lsel 0 25 (ul 1)),
  .for_ 3 (ul 0) (ul 24) [
    set 5 u32 (.select u32 (ulits keccakPi) (uv 3)),
    setAt 1 5 u64 (ul 0) (lsel 0 25 (uv 5)),
    .call (.select (.ident 0 (.array 25 u64)) (uv 5)) u64 kRotl [] [lv 2, .select u32 (ulits keccakRho) (uv 3)],
    set 2 u64 (lsel 1 5 (ul 0))],
  .for_ 3 (ul 0) (ul 5) [
    .for_ 5 (ul 0) (ul 5) [
      setAt 1 5 u64 (uv 5) (lsel 0 25 (uadd (umul (uv 3) (ul 5)) (uv 5)))],
    .for_ 5 (ul 0) (ul 5) [
      set 6 u32 (uadd (umul (uv 3) (ul 5)) (uv 5)),
      setAt 0 25 u64 (uv 6) (lbin .xor (lsel 0 25 (uv 6)) (lbin .and (.unot .b64 (lsel 1 5 (.ubin .b32 .rem (uadd (uv 5) (ul 1)) (ul 5)))) (lsel 1 5 (.ubin .b32 .rem (uadd (uv 5) (ul 2)) (ul 5)))))]],
  setAt 0 25 u64 (ul 0) (lbin .xor (lsel 0 25 (ul 0)) (.select u64 (.array u64 24 (keccakRC.map fun n => .expr (ll n))) (uv 4)))]

/-- `hashes/keccak/keccak.zok:43-94`:
```
def keccakf(u64[25] mut st) -> u64[25] {
    u64[5] mut bc = [0; 5];
    u64 mut t = 0;
    for u32 i in 0..25 {
        st[i] = swap_u64(st[i]);
    }
    for u32 r in 0..24 {
        // theta
        for u32 i in 0..5 {
            bc[i] = st[i] ^ st[i + 5] ^ st[i + 10] ^ st[i + 15] ^ st[i + 20];
        }
        for u32 i in 0..5 {
            t = bc[(i + 4) % 5] ^ rotl64(bc[(i + 1) % 5], 1);
            for u32 j in 0..5 {
                st[(j * 5) + i] = st[(j * 5) + i] ^ t;
            }
        }
        t = st[1];
        // rho pi
        for u32 i in 0..24 {
            u32 j = PI[i];
            bc[0] = st[j];
            st[j] = rotl64(t, RHO[i]);
            t = bc[0];
        }
        // chi
        for u32 i in 0..5 {
            for u32 j in 0..5 {
                bc[j] = st[(i * 5) + j];
            }
            for u32 j in 0..5 {
                u32 p = (i * 5) + j;
                st[p] = st[p] ^ (!bc[(j + 1) % 5] & bc[(j + 2) % 5]);
            }
        }
        // iota
        st[0] = st[0] ^ RC[r];
    }
    for u32 i in 0..25 {
        st[i] = swap_u64(st[i]);
    }
    return st;
}
```
Variables: `st` 0, `bc` 1, `t` 2, `i` 3, `r` 4, `j` 5, `p` 6. -/
def keccakf : Inst (ZMod p) where
  generics := []
  params := [0]
  body := [
    set 1 (.array 5 u64) (.repeat_ u64 5 (ll 0) (ul 5)),
    set 2 u64 (ll 0),
    swapLoop,
    .for_ 4 (ul 0) (ul 24) keccakRound,
    swapLoop]
  ret := .ident 0 (.array 25 u64)

/-! ### Bytes

`u64_from_u8_array` and `u64_to_u8_array`, `hashes/keccak/keccak.zok:96-122`, are the instances `castCat .b8 .b64 8` and `castSplit .b8 .b64 8` of `Model/Stdlib.lean`: the functions `u8_to_bits`, `u8_from_bits`,
`u64_to_bits` and `u64_from_bits` of `utils/casts/`, which only call the functions of `EMBED` with these names, are inlined. -/

/-- `hashes/keccak/keccak.zok:124-133`:
```
def to_bytes(u64[25] input) -> u8[200] {
    u8[200] mut output = [0; 200];
    for u32 i in 0..25 {
        u8[8] t = u64_to_u8_array(input[i]);
        for u32 j in 0..8 {
            output[i * 8 + j] = t[j];
        }
    }
    return output;
}
``` -/
def keccakToBytes : Inst (ZMod p) where
  generics := []
  params := [0]
  body := [
    set 1 (.array 200 u8) (.repeat_ u8 200 (.uval .b8 0) (ul 200)),
    .for_ 2 (ul 0) (ul 25) [
      call 3 (.array 8 u8) kLane [lsel 0 25 (uv 2)],
      .for_ 4 (ul 0) (ul 8) [
        setAt 1 200 u8 (uadd (umul (uv 2) (ul 8)) (uv 4)) (.select u8 (.ident 3 (.array 8 u8)) (uv 4))]]]
  ret := .ident 1 (.array 200 u8)

/-- `hashes/keccak/keccak.zok:135-141`:
```
def from_bytes(u8[200] input) -> u64[25] {
    u64[25] mut output = [0; 25];
    for u32 i in 0..25 {
        output[i] = u64_from_u8_array(input[i*8..i*8+8]);
    }
    return output;
}
``` -/
def keccakFromBytes : Inst (ZMod p) where
  generics := []
  params := [0]
  body := [
    set 1 (.array 25 u64) (.repeat_ u64 25 (ll 0) (ul 25)),
    .for_ 2 (ul 0) (ul 25) [
      .call (.select (.ident 1 (.array 25 u64)) (uv 2)) u64 kLane [] [.slice u8 8 (.ident 0 (.array 200 u8)) (umul (uv 2) (ul 8)) (uadd (umul (uv 2) (ul 8)) (ul 8))]]]
  ret := .ident 1 (.array 25 u64)

/-! ### The sponge -/

/-- `hashes/keccak/keccak.zok:143-161`:
```
def main<N, W>(u8[N] mut input, u8 delim) -> u8[W] {
    u8[200] mut b = [0; 200];
    u32 rate = 200 - (2 * W);
    u32 mut pt = 0;
    // update
    for u32 i in 0..N {
        b[pt] = b[pt] ^ input[i];
        pt = (pt + 1) % rate;
        b = pt == 0 ? to_bytes(keccakf(from_bytes(b))) : b;
    }
    // finalize
    b[pt] = b[pt] ^ delim;
    b[rate - 1] = b[rate - 1] ^ 0x80;
    b = to_bytes(keccakf(from_bytes(b)));
    return b[..W];
}
```
The calls in the branch of the conditional are executed in any case, as in `Model/Reducer.lean`. Variables: `input` 0, `delim` 1, `b` 2, `rate` 3, `pt` 4, `i` 5. -/
def keccakMain (N W : ℕ) : Inst (ZMod p) where
  generics := [(8, N), (9, W)]
  params := [0, 1]
  body := [
    set 2 (.array 200 u8) (.repeat_ u8 200 (.uval .b8 0) (ul 200)),
    set 3 u32 (usub (ul 200) (umul (ul 2) (uv 9))),
    set 4 u32 (ul 0),
    .for_ 5 (ul 0) (uv 8) [
      setAt 2 200 u8 (uv 4) (.ubin .b8 .xor (.select u8 (.ident 2 (.array 200 u8)) (uv 4)) (.select u8 (.ident 0 (.array N u8)) (uv 5))),
      set 4 u32 (.ubin .b32 .rem (uadd (uv 4) (ul 1)) (uv 3)),
      call 10 (.array 25 u64) kFromBytes [.ident 2 (.array 200 u8)],
      call 11 (.array 25 u64) kKeccakF [.ident 10 (.array 25 u64)],
      call 12 (.array 200 u8) kToBytes [.ident 11 (.array 25 u64)],
      set 2 (.array 200 u8) (.cond (.array 200 u8) (.eq (uv 4) (ul 0)) (.ident 12 (.array 200 u8)) (.ident 2 (.array 200 u8)))],
    setAt 2 200 u8 (uv 4) (.ubin .b8 .xor (.select u8 (.ident 2 (.array 200 u8)) (uv 4)) (.ident 1 u8)),
    setAt 2 200 u8 (usub (uv 3) (ul 1)) (.ubin .b8 .xor (.select u8 (.ident 2 (.array 200 u8)) (usub (uv 3) (ul 1))) (.uval .b8 0x80)),
    call 10 (.array 25 u64) kFromBytes [.ident 2 (.array 200 u8)],
    call 11 (.array 25 u64) kKeccakF [.ident 10 (.array 25 u64)],
    call 2 (.array 200 u8) kToBytes [.ident 11 (.array 25 u64)]]
  ret := .slice u8 W (.ident 2 (.array 200 u8)) (ul 0) (uv 9)

/-- `hashes/keccak/224bit.zok:3-5`, `256bit.zok:3-5`, `384bit.zok:3-5`, `512bit.zok:3-5` (with `delim = 0x01`) and `hashes/sha3/224bit.zok:3-5`, `256bit.zok:3-5`, `384bit.zok:3-5`, `512bit.zok:3-5` (with `delim = 0x06`):
```
def main<N>(u8[N] input) -> u8[28] {
    return keccak::<_, 28>(input, 0x01);
}
```
The generic arguments of the call are given by the types of its argument and its result. -/
def keccakBits (delim W N : ℕ) : Inst (ZMod p) where
  generics := [(9, N)]
  params := [0]
  body := [call 10 (.array W u8) kKeccak [.ident 0 (.array N u8), .uval .b8 delim]]
  ret := .ident 10 (.array W u8)

/-! ### The library -/

/-- The functions of `hashes/keccak` and `hashes/sha3`. -/
def sha3 : Program (ZMod p)
  | kRotl, [], [.uint .b64, .uint .b32], .uint .b64 => some (.here rotl64)
  | kSwap, [], [.uint .b64], .uint .b64 => some (.here swapU64)
  | kKeccakF, [], [.array 25 (.uint .b64)], .array 25 (.uint .b64) => some (.here keccakf)
  | kLane, [], [.array 8 (.uint .b8)], .uint .b64 => some (.here (castCat .b8 .b64 8))
  | kLane, [], [.uint .b64], .array 8 (.uint .b8) => some (.here (castSplit .b8 .b64 8))
  | kToBytes, [], [.array 25 (.uint .b64)], .array 200 (.uint .b8) => some (.here keccakToBytes)
  | kFromBytes, [], [.array 200 (.uint .b8)], .array 25 (.uint .b64) => some (.here keccakFromBytes)
  | kKeccak, [], [.array n (.uint .b8), .uint .b8], .array w (.uint .b8) => some (.here (keccakMain n w))
  | kKeccakBits, [], [.array n (.uint .b8)], .array 28 (.uint .b8) => some (.here (keccakBits 0x01 28 n))
  | kKeccakBits, [], [.array n (.uint .b8)], .array 32 (.uint .b8) => some (.here (keccakBits 0x01 32 n))
  | kKeccakBits, [], [.array n (.uint .b8)], .array 48 (.uint .b8) => some (.here (keccakBits 0x01 48 n))
  | kKeccakBits, [], [.array n (.uint .b8)], .array 64 (.uint .b8) => some (.here (keccakBits 0x01 64 n))
  | kSha3Bits, [], [.array n (.uint .b8)], .array 28 (.uint .b8) => some (.here (keccakBits 0x06 28 n))
  | kSha3Bits, [], [.array n (.uint .b8)], .array 32 (.uint .b8) => some (.here (keccakBits 0x06 32 n))
  | kSha3Bits, [], [.array n (.uint .b8)], .array 48 (.uint .b8) => some (.here (keccakBits 0x06 48 n))
  | kSha3Bits, [], [.array n (.uint .b8)], .array 64 (.uint .b8) => some (.here (keccakBits 0x06 64 n))
  | _, _, _, _ => none

end Zok.Typed.Std
