import Verif.Model.StdMimc
import Verif.Model.StdPoseidonConst

/-
The standard library, `zokrates_stdlib/stdlib/hashes/poseidon`, transliterated as in `Model/Stdlib.lean`. Constants are inlined.
-/

namespace Zok.Typed.Std
open Abi
variable {p : ℕ}

/-- `ark` of `poseidon`. -/
@[match_pattern] abbrev kArk : ℕ := 90
/-- `sbox` of `poseidon`. -/
@[match_pattern] abbrev kSbox : ℕ := 91
/-- `mix` of `poseidon`. -/
@[match_pattern] abbrev kMix : ℕ := 92
/-- `hashes/poseidon/poseidon`. -/
@[match_pattern] abbrev kPoseidon : ℕ := 93

/-- `field[n]` -/
abbrev fields (n : ℕ) : CType := .array n .field
/-- An array of field elements. -/
def fvs (x : TId) (n : ℕ) : TExpr (ZMod p) := .ident x (fields n)
/-- `l / r`, `l ** 5` -/
def udiv (l r : TExpr (ZMod p)) : TExpr (ZMod p) := .ubin .b32 .div l r
def fpow5 (l : TExpr (ZMod p)) : TExpr (ZMod p) := .fubin .pow l (ul 5)

/-- `hashes/poseidon/poseidon.zok:5-10`:
```
def ark<N>(field[N] mut state, field[497] c, u32 it) -> field[N] {
    for u32 i in 0..N {
        state[i] = state[i] + c[it + i];
    }
    return state;
}
```
Variables: `state` 0, `c` 1, `it` 2, `i` 3. -/
def ark (N : ℕ) : Inst (ZMod p) where
  generics := [(9, N)]
  params := [0, 1, 2]
  body := [
    .for_ 3 (ul 0) (uv 9) [
      setAt 0 N .field (uv 3) (fadd (fselAt 0 N (uv 3)) (fselAt 1 497 (uadd (uv 2) (uv 3))))]]
  ret := fvs 0 N

/-- `hashes/poseidon/poseidon.zok:12-18`:
```
def sbox<N>(field[N] mut state, u32 f, u32 p, u32 r) -> field[N] {
    state[0] = state[0]**5;
    for u32 i in 1..N {
        state[i] = ((r < f/2) || (r >= f/2 + p)) ? state[i]**5 : state[i];
    }
    return state;
}
```
Variables: `state` 0, `f` 1, `p` 2, `r` 3, `i` 4. `a >= b` is `b <= a` in the typed program. -/
def sbox (N : ℕ) : Inst (ZMod p) where
  generics := [(9, N)]
  params := [0, 1, 2, 3]
  body := [
    setAt 0 N .field (ul 0) (fpow5 (fselAt 0 N (ul 0))),
    .for_ 4 (ul 1) (uv 9) [
      setAt 0 N .field (uv 4) (.cond .field (.bbin .or (.ucmp .lt (uv 3) (udiv (uv 1) (ul 2))) (.ucmp .le (uadd (udiv (uv 1) (ul 2)) (uv 2)) (uv 3))) (fpow5 (fselAt 0 N (uv 4))) (fselAt 0 N (uv 4)))]]
  ret := fvs 0 N

/-- `hashes/poseidon/poseidon.zok:20-30`:
```
def mix<N>(field[N] state, field[7][7] m) -> field[N] {
    field[N] mut out = [0; N];
    for u32 i in 0..N {
        field mut acc = 0;
        for u32 j in 0..N {
            acc = acc + (state[j] * m[i][j]);
        }
        out[i] = acc;
    }
    return out;
}
```
Variables: `state` 0, `m` 1, `out` 2, `i` 3, `acc` 4, `j` 5. -/
def mix (N : ℕ) : Inst (ZMod p) where
  generics := [(9, N)]
  params := [0, 1]
  body := [
    set 2 (fields N) (fzeros N (uv 9)),
    .for_ 3 (ul 0) (uv 9) [
      set 4 .field (.fval 0),
      .for_ 5 (ul 0) (uv 9) [
        set 4 .field (fadd (fv 4) (fmul (fselAt 0 N (uv 5)) (.select .field (.select (fields 7) (.ident 1 (.array 7 (fields 7))) (uv 3)) (uv 5))))],
      setAt 2 N .field (uv 3) (fv 4)]]
  ret := fvs 2 N

/-- `POSEIDON_C`, `POSEIDON_M` -/
def poseidonCe : TExpr (ZMod p) := .array (fields 497) 6 (poseidonC.map fun r => .expr (flits r))
def poseidonMe : TExpr (ZMod p) := .array (.array 7 (fields 7)) 6 (poseidonM.map fun m => .expr (.array (fields 7) 7 (m.map fun r => .expr (flits r))))

/-- `hashes/poseidon/poseidon.zok:32-61`:
```
def main<N>(field[N] inputs) -> field {
    assert(N > 0 && N <= 6); // max 6 inputs

    u32 t = N + 1;
    u32[8] rounds_p = [56, 57, 56, 60, 60, 63, 64, 63];

    u32 f = 8;
    u32 p = rounds_p[(t - 2)];

    field[497]  c = POSEIDON_C[t - 2];
    field[7][7] m = POSEIDON_M[t - 2];

    field[t] mut state = [0; t];
    for u32 i in 1..t {
        state[i] = inputs[i - 1];
    }

    for u32 r in 0..f+p {
        state = ark(state, c, r * t);
        state = sbox(state, f, p, r);
        state = mix(state, m);
    }

    return state[0];
}
```
Variables: `inputs` 0, `t` 1, `rounds_p` 2, `f` 3, `p` 4, `c` 5, `m` 6, `state` 7, `i` 8, `r` 10. `a > b` is `b < a` in the typed program. -/
def poseidon (N : ℕ) : Inst (ZMod p) where
  generics := [(9, N)]
  params := [0]
  body := [
    assert (.bbin .and (.ucmp .lt (ul 0) (uv 9)) (.ucmp .le (uv 9) (ul 6))),
    set 1 u32 (uadd (uv 9) (ul 1)),
    set 2 (u32s 8) (ulits [56, 57, 56, 60, 60, 63, 64, 63]),
    set 3 u32 (ul 8),
    set 4 u32 (usel 2 8 (usub (uv 1) (ul 2))),
    set 5 (fields 497) (.select (fields 497) poseidonCe (usub (uv 1) (ul 2))),
    set 6 (.array 7 (fields 7)) (.select (.array 7 (fields 7)) poseidonMe (usub (uv 1) (ul 2))),
    set 7 (fields (N + 1)) (fzeros (N + 1) (uv 1)),
    .for_ 8 (ul 1) (uv 1) [
      setAt 7 (N + 1) .field (uv 8) (fselAt 0 N (usub (uv 8) (ul 1)))],
    .for_ 10 (ul 0) (uadd (uv 3) (uv 4)) [
      call 7 (fields (N + 1)) kArk [fvs 7 (N + 1), fvs 5 497, umul (uv 10) (uv 1)],
      call 7 (fields (N + 1)) kSbox [fvs 7 (N + 1), uv 3, uv 4, uv 10],
      call 7 (fields (N + 1)) kMix [fvs 7 (N + 1), .ident 6 (.array 7 (fields 7))]]]
  ret := fselAt 7 (N + 1) (ul 0)

/-- The functions of `hashes/poseidon`. -/
def poseidonLib : Program (ZMod p)
  | kArk, [], [.array n .field, .array 497 .field, .uint .b32], .array n' .field => if n' = n then some (.here (ark n)) else none
  | kSbox, [], [.array n .field, .uint .b32, .uint .b32, .uint .b32], .array n' .field => if n' = n then some (.here (sbox n)) else none
  | kMix, [], [.array n .field, .array 7 (.array 7 .field)], .array n' .field => if n' = n then some (.here (mix n)) else none
  | kPoseidon, [], [.array n .field], .field => some (.here (poseidon n))
  | _, _, _, _ => none

end Zok.Typed.Std
