#!/usr/bin/env python3
"""Generates lean/Verif/Spec/Curves.lean from Pratt certificates (tools/pratt.json)."""
import json,os
here=os.path.dirname(os.path.abspath(__file__))
data=json.load(open(here+'/pratt.json'))
out=['''import Mathlib.NumberTheory.LucasPrimality
import Mathlib.Tactic.NormNum.Prime
import Mathlib.Algebra.Field.ZMod

/-
The moduli of the fields of ZoKrates (`zokrates_field/src/*.rs`: the scalar fields of the curves) are prime numbers, so that the
theorems about `ZMod p` apply to them. Generated by `tools/mkprimes.py`: Pratt certificates, checked by the kernel.
-/

namespace Zok

/-- `a ^ e % m` by squaring; `fuel` bounds the number of binary digits of `e`. -/
def powMod : ℕ → ℕ → ℕ → ℕ → ℕ
  | 0, _, _, m => 1 % m
  | fuel + 1, a, e, m => if e = 0 then 1 % m
    else let r := powMod fuel (a * a % m) (e / 2) m
      if e % 2 = 1 then r * a % m else r

theorem powMod_eq (fuel a e m : ℕ) (h : e < 2 ^ fuel) : powMod fuel a e m = a ^ e % m := by
  induction fuel generalizing a e with
  | zero =>
    have : e = 0 := by simpa using h
    subst this
    simp [powMod]
  | succ fuel ih =>
    rw [powMod]
    split
    · rename_i h0
      simp [h0]
    · have hr := ih (a * a % m) (e / 2) (by rw [pow_succ] at h; omega)
      simp only [hr]
      have hsq : (a * a % m) ^ (e / 2) % m = a ^ (2 * (e / 2)) % m := by
        rw [← Nat.pow_mod, pow_mul, pow_two]
      split
      · rename_i h1
        have he : e = 2 * (e / 2) + 1 := by omega
        conv_rhs => rw [he, pow_succ]
        rw [Nat.mul_mod, Nat.mod_mod, hsq, ← Nat.mul_mod]
      · have he : e = 2 * (e / 2) := by omega
        conv_rhs => rw [he]
        rw [hsq]

/-- A Pratt certificate: `a` generates the units and the prime factors of `n - 1` are `fs`, with multiplicities. -/
theorem prime_of_cert (n a : ℕ) (fs : List (ℕ × ℕ)) (hn : n - 1 = (fs.map fun f => f.1 ^ f.2).prod)
    (hf : ∀ f ∈ fs, Nat.Prime f.1) (hlt : n - 1 < 2 ^ 384) (h1 : powMod 384 a (n - 1) n = 1 % n) (h0 : 1 < n)
    (hd : fs.all (fun f => powMod 384 a ((n - 1) / f.1) n != 1 % n) = true) : Nat.Prime n := by
  have hz : ∀ e, e < 2 ^ 384 → ((a : ZMod n) ^ e = 1 ↔ powMod 384 a e n = 1 % n) := by
    intro e he
    rw [powMod_eq _ _ _ _ he]
    rw [← Nat.cast_pow, ← Nat.cast_one, ZMod.natCast_eq_natCast_iff]
    rfl
  refine lucas_primality n (a : ZMod n) ((hz _ hlt).2 h1) fun q hq hqd => ?_
  have : ∃ f ∈ fs, q = f.1 := by
    rw [hn] at hqd
    obtain ⟨x, hx, hqx⟩ := (Prime.dvd_prod_iff hq.prime).1 hqd
    obtain ⟨f, hff, rfl⟩ := List.mem_map.1 hx
    exact ⟨f, hff, (Nat.prime_dvd_prime_iff_eq hq (hf f hff)).1 (hq.dvd_of_dvd_pow hqx)⟩
  obtain ⟨f, hff, rfl⟩ := this
  intro hc
  have hle : (n - 1) / f.1 < 2 ^ 384 := lt_of_le_of_lt (Nat.div_le_self _ _) hlt
  have hb := List.all_eq_true.1 hd f hff
  rw [(hz _ hle).1 hc] at hb
  simp at hb

''']
done=set()
def name(n): return f"prime_{n}"
names={'bn128':('Bn128','bn128.rs'),'bls381':('Bls12_381','bls12_381.rs'),'bls377':('Bls12_377','bls12_377.rs'),'bw6':('Bw6_761','bw6_761.rs'),'pallas':('Pallas','pallas.rs'),'vesta':('Vesta','vesta.rs')}
for c,d in data.items():
    for n,(a,fs) in d['certs'].items():
        if n in done: continue
        done.add(n)
        lst=", ".join(f"({q}, {e})" for q,e in fs)
        prfs="".join(f"\n  · {'exact '+name(q) if str(q) in done else 'norm_num'}" for q,e in fs)
        out.append(f'''private theorem {name(n)} : Nat.Prime {n} := by
  refine prime_of_cert _ {a} [{lst}] (by decide +kernel) ?_ (by decide +kernel) (by decide +kernel) (by decide +kernel) (by decide +kernel)
  intro f hf
  simp only [List.mem_cons, List.not_mem_nil, or_false] at hf
  rcases hf with {' | '.join(['rfl']*len(fs))}{prfs}

''')
    nm,file=names[c]
    out.append(f'''/-- The modulus of the scalar field of `{nm}`, `zokrates_field/src/{file}` (the parameters are those of the crate `ark`). -/
abbrev {nm} : ℕ := {d['n']}

instance : Fact (Nat.Prime {nm}) := ⟨{name(d['n'])}⟩

''')
out.append("end Zok\n")
open(here+'/../lean/Verif/Spec/Curves.lean','w').write("".join(out))
