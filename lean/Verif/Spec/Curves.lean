import Mathlib.NumberTheory.LucasPrimality
import Mathlib.Tactic.NormNum.Prime
import Mathlib.Algebra.Field.ZMod

/-
The moduli of the fields of ZoKrates (`zokrates_field/src/*.rs`: the scalar fields of the curves) are prime numbers, so that the
theorems about `ZMod p` apply to them. Generated by `tools/mkprimes.py`: Pratt certificates, checked by the kernel.
-/

namespace Zok

/-- `a ^ e % m` by squaring; `fuel` bounds the number of binary digits of `e`. -/
def powMod : ℕ → ℕ → ℕ → ℕ → ℕ
  | 0, _, _, m => 1 % m
  | fuel + 1, a, e, m => if e = 0 then 1 % m
    else let r := powMod fuel (a * a % m) (e / 2) m
      if e % 2 = 1 then r * a % m else r

theorem powMod_eq (fuel a e m : ℕ) (h : e < 2 ^ fuel) : powMod fuel a e m = a ^ e % m := by
  induction fuel generalizing a e with
  | zero =>
    have : e = 0 := by simpa using h
    subst this
    simp [powMod]
  | succ fuel ih =>
    rw [powMod]
    split
    · rename_i h0
      simp [h0]
    · have hr := ih (a * a % m) (e / 2) (by rw [pow_succ] at h; omega)
      simp only [hr]
      have hsq : (a * a % m) ^ (e / 2) % m = a ^ (2 * (e / 2)) % m := by
        rw [← Nat.pow_mod, pow_mul, pow_two]
      split
      · rename_i h1
        have he : e = 2 * (e / 2) + 1 := by omega
        conv_rhs => rw [he, pow_succ]
        rw [Nat.mul_mod, Nat.mod_mod, hsq, ← Nat.mul_mod]
      · have he : e = 2 * (e / 2) := by omega
        conv_rhs => rw [he]
        rw [hsq]

/-- A Pratt certificate: `a` generates the units and the prime factors of `n - 1` are `fs`, with multiplicities. -/
theorem prime_of_cert (n a : ℕ) (fs : List (ℕ × ℕ)) (hn : n - 1 = (fs.map fun f => f.1 ^ f.2).prod)
    (hf : ∀ f ∈ fs, Nat.Prime f.1) (hlt : n - 1 < 2 ^ 384) (h1 : powMod 384 a (n - 1) n = 1 % n) (h0 : 1 < n)
    (hd : fs.all (fun f => powMod 384 a ((n - 1) / f.1) n != 1 % n) = true) : Nat.Prime n := by
  have hz : ∀ e, e < 2 ^ 384 → ((a : ZMod n) ^ e = 1 ↔ powMod 384 a e n = 1 % n) := by
    intro e he
    rw [powMod_eq _ _ _ _ he]
    rw [← Nat.cast_pow, ← Nat.cast_one, ZMod.natCast_eq_natCast_iff]
    rfl
  refine lucas_primality n (a : ZMod n) ((hz _ hlt).2 h1) fun q hq hqd => ?_
  have : ∃ f ∈ fs, q = f.1 := by
    rw [hn] at hqd
    obtain ⟨x, hx, hqx⟩ := (Prime.dvd_prod_iff hq.prime).1 hqd
    obtain ⟨f, hff, rfl⟩ := List.mem_map.1 hx
    exact ⟨f, hff, (Nat.prime_dvd_prime_iff_eq hq (hf f hff)).1 (hq.dvd_of_dvd_pow hqx)⟩
  obtain ⟨f, hff, rfl⟩ := this
  intro hc
  have hle : (n - 1) / f.1 < 2 ^ 384 := lt_of_le_of_lt (Nat.div_le_self _ _) hlt
  have hb := List.all_eq_true.1 hd f hff
  rw [(hz _ hle).1 hc] at hb
  simp at hb

private theorem prime_5501 : Nat.Prime 5501 := by
  refine prime_of_cert _ 2 [(2, 2), (5, 3), (11, 1)] (by decide +kernel) ?_ (by decide +kernel) (by decide +kernel) (by decide +kernel) (by decide +kernel)
  intro f hf
  simp only [List.mem_cons, List.not_mem_nil, or_false] at hf
  rcases hf with rfl | rfl | rfl
  · norm_num
  · norm_num
  · norm_num

private theorem prime_11003 : Nat.Prime 11003 := by
  refine prime_of_cert _ 2 [(2, 1), (5501, 1)] (by decide +kernel) ?_ (by decide +kernel) (by decide +kernel) (by decide +kernel) (by decide +kernel)
  intro f hf
  simp only [List.mem_cons, List.not_mem_nil, or_false] at hf
  rcases hf with rfl | rfl
  · norm_num
  · exact prime_5501

private theorem prime_237073 : Nat.Prime 237073 := by
  refine prime_of_cert _ 15 [(2, 4), (3, 1), (11, 1), (449, 1)] (by decide +kernel) ?_ (by decide +kernel) (by decide +kernel) (by decide +kernel) (by decide +kernel)
  intro f hf
  simp only [List.mem_cons, List.not_mem_nil, or_false] at hf
  rcases hf with rfl | rfl | rfl | rfl
  · norm_num
  · norm_num
  · norm_num
  · norm_num

private theorem prime_3691 : Nat.Prime 3691 := by
  refine prime_of_cert _ 2 [(2, 1), (3, 2), (5, 1), (41, 1)] (by decide +kernel) ?_ (by decide +kernel) (by decide +kernel) (by decide +kernel) (by decide +kernel)
  intro f hf
  simp only [List.mem_cons, List.not_mem_nil, or_false] at hf
  rcases hf with rfl | rfl | rfl | rfl
  · norm_num
  · norm_num
  · norm_num
  · norm_num

private theorem prime_4999 : Nat.Prime 4999 := by
  refine prime_of_cert _ 3 [(2, 1), (3, 1), (7, 2), (17, 1)] (by decide +kernel) ?_ (by decide +kernel) (by decide +kernel) (by decide +kernel) (by decide +kernel)
  intro f hf
  simp only [List.mem_cons, List.not_mem_nil, or_false] at hf
  rcases hf with rfl | rfl | rfl | rfl
  · norm_num
  · norm_num
  · norm_num
  · norm_num

private theorem prime_405928799 : Nat.Prime 405928799 := by
  refine prime_of_cert _ 22 [(2, 1), (11, 1), (3691, 1), (4999, 1)] (by decide +kernel) ?_ (by decide +kernel) (by decide +kernel) (by decide +kernel) (by decide +kernel)
  intro f hf
  simp only [List.mem_cons, List.not_mem_nil, or_false] at hf
  rcases hf with rfl | rfl | rfl | rfl
  · norm_num
  · norm_num
  · exact prime_3691
  · exact prime_4999

private theorem prime_93001 : Nat.Prime 93001 := by
  refine prime_of_cert _ 14 [(2, 3), (3, 1), (5, 3), (31, 1)] (by decide +kernel) ?_ (by decide +kernel) (by decide +kernel) (by decide +kernel) (by decide +kernel)
  intro f hf
  simp only [List.mem_cons, List.not_mem_nil, or_false] at hf
  rcases hf with rfl | rfl | rfl | rfl
  · norm_num
  · norm_num
  · norm_num
  · norm_num

private theorem prime_12048837557 : Nat.Prime 12048837557 := by
  refine prime_of_cert _ 2 [(2, 2), (7, 2), (661, 1), (93001, 1)] (by decide +kernel) ?_ (by decide +kernel) (by decide +kernel) (by decide +kernel) (by decide +kernel)
  intro f hf
  simp only [List.mem_cons, List.not_mem_nil, or_false] at hf
  rcases hf with rfl | rfl | rfl | rfl
  · norm_num
  · norm_num
  · norm_num
  · exact prime_93001

private theorem prime_5156902474397 : Nat.Prime 5156902474397 := by
  refine prime_of_cert _ 2 [(2, 2), (107, 1), (12048837557, 1)] (by decide +kernel) ?_ (by decide +kernel) (by decide +kernel) (by decide +kernel) (by decide +kernel)
  intro f hf
  simp only [List.mem_cons, List.not_mem_nil, or_false] at hf
  rcases hf with rfl | rfl | rfl
  · norm_num
  · norm_num
  · exact prime_12048837557

private theorem prime_1670836401704629 : Nat.Prime 1670836401704629 := by
  refine prime_of_cert _ 2 [(2, 2), (3, 4), (5156902474397, 1)] (by decide +kernel) ?_ (by decide +kernel) (by decide +kernel) (by decide +kernel) (by decide +kernel)
  intro f hf
  simp only [List.mem_cons, List.not_mem_nil, or_false] at hf
  rcases hf with rfl | rfl | rfl
  · norm_num
  · norm_num
  · exact prime_5156902474397

private theorem prime_20963 : Nat.Prime 20963 := by
  refine prime_of_cert _ 2 [(2, 1), (47, 1), (223, 1)] (by decide +kernel) ?_ (by decide +kernel) (by decide +kernel) (by decide +kernel) (by decide +kernel)
  intro f hf
  simp only [List.mem_cons, List.not_mem_nil, or_false] at hf
  rcases hf with rfl | rfl | rfl
  · norm_num
  · norm_num
  · norm_num

private theorem prime_41927 : Nat.Prime 41927 := by
  refine prime_of_cert _ 5 [(2, 1), (20963, 1)] (by decide +kernel) ?_ (by decide +kernel) (by decide +kernel) (by decide +kernel) (by decide +kernel)
  intro f hf
  simp only [List.mem_cons, List.not_mem_nil, or_false] at hf
  rcases hf with rfl | rfl
  · norm_num
  · exact prime_20963

private theorem prime_1593227 : Nat.Prime 1593227 := by
  refine prime_of_cert _ 2 [(2, 1), (19, 1), (41927, 1)] (by decide +kernel) ?_ (by decide +kernel) (by decide +kernel) (by decide +kernel) (by decide +kernel)
  intro f hf
  simp only [List.mem_cons, List.not_mem_nil, or_false] at hf
  rcases hf with rfl | rfl | rfl
  · norm_num
  · norm_num
  · exact prime_41927

private theorem prime_1637 : Nat.Prime 1637 := by
  refine prime_of_cert _ 2 [(2, 2), (409, 1)] (by decide +kernel) ?_ (by decide +kernel) (by decide +kernel) (by decide +kernel) (by decide +kernel)
  intro f hf
  simp only [List.mem_cons, List.not_mem_nil, or_false] at hf
  rcases hf with rfl | rfl
  · norm_num
  · norm_num

private theorem prime_639533339 : Nat.Prime 639533339 := by
  refine prime_of_cert _ 2 [(2, 1), (229, 1), (853, 1), (1637, 1)] (by decide +kernel) ?_ (by decide +kernel) (by decide +kernel) (by decide +kernel) (by decide +kernel)
  intro f hf
  simp only [List.mem_cons, List.not_mem_nil, or_false] at hf
  rcases hf with rfl | rfl | rfl | rfl
  · norm_num
  · norm_num
  · norm_num
  · exact prime_1637

private theorem prime_65865678001877903 : Nat.Prime 65865678001877903 := by
  refine prime_of_cert _ 5 [(2, 1), (83, 1), (379, 1), (1637, 1), (639533339, 1)] (by decide +kernel) ?_ (by decide +kernel) (by decide +kernel) (by decide +kernel) (by decide +kernel)
  intro f hf
  simp only [List.mem_cons, List.not_mem_nil, or_false] at hf
  rcases hf with rfl | rfl | rfl | rfl | rfl
  · norm_num
  · norm_num
  · norm_num
  · exact prime_1637
  · exact prime_639533339

private theorem prime_13818364434197438864469338081 : Nat.Prime 13818364434197438864469338081 := by
  refine prime_of_cert _ 3 [(2, 5), (5, 1), (823, 1), (1593227, 1), (65865678001877903, 1)] (by decide +kernel) ?_ (by decide +kernel) (by decide +kernel) (by decide +kernel) (by decide +kernel)
  intro f hf
  simp only [List.mem_cons, List.not_mem_nil, or_false] at hf
  rcases hf with rfl | rfl | rfl | rfl | rfl
  · norm_num
  · norm_num
  · norm_num
  · exact prime_1593227
  · exact prime_65865678001877903

private theorem prime_21888242871839275222246405745257275088548364400416034343698204186575808495617 : Nat.Prime 21888242871839275222246405745257275088548364400416034343698204186575808495617 := by
  refine prime_of_cert _ 5 [(2, 28), (3, 2), (13, 1), (29, 1), (983, 1), (11003, 1), (237073, 1), (405928799, 1), (1670836401704629, 1), (13818364434197438864469338081, 1)] (by decide +kernel) ?_ (by decide +kernel) (by decide +kernel) (by decide +kernel) (by decide +kernel)
  intro f hf
  simp only [List.mem_cons, List.not_mem_nil, or_false] at hf
  rcases hf with rfl | rfl | rfl | rfl | rfl | rfl | rfl | rfl | rfl | rfl
  · norm_num
  · norm_num
  · norm_num
  · norm_num
  · norm_num
  · exact prime_11003
  · exact prime_237073
  · exact prime_405928799
  · exact prime_1670836401704629
  · exact prime_13818364434197438864469338081

/-- The modulus of the scalar field of `Bn128`, `zokrates_field/src/bn128.rs` (the parameters are those of the crate `ark`). -/
abbrev Bn128 : ℕ := 21888242871839275222246405745257275088548364400416034343698204186575808495617

instance : Fact (Nat.Prime Bn128) := ⟨prime_21888242871839275222246405745257275088548364400416034343698204186575808495617⟩

private theorem prime_10177 : Nat.Prime 10177 := by
  refine prime_of_cert _ 7 [(2, 6), (3, 1), (53, 1)] (by decide +kernel) ?_ (by decide +kernel) (by decide +kernel) (by decide +kernel) (by decide +kernel)
  intro f hf
  simp only [List.mem_cons, List.not_mem_nil, or_false] at hf
  rcases hf with rfl | rfl | rfl
  · norm_num
  · norm_num
  · norm_num

private theorem prime_20921 : Nat.Prime 20921 := by
  refine prime_of_cert _ 3 [(2, 3), (5, 1), (523, 1)] (by decide +kernel) ?_ (by decide +kernel) (by decide +kernel) (by decide +kernel) (by decide +kernel)
  intro f hf
  simp only [List.mem_cons, List.not_mem_nil, or_false] at hf
  rcases hf with rfl | rfl | rfl
  · norm_num
  · norm_num
  · norm_num

private theorem prime_125527 : Nat.Prime 125527 := by
  refine prime_of_cert _ 5 [(2, 1), (3, 1), (20921, 1)] (by decide +kernel) ?_ (by decide +kernel) (by decide +kernel) (by decide +kernel) (by decide +kernel)
  intro f hf
  simp only [List.mem_cons, List.not_mem_nil, or_false] at hf
  rcases hf with rfl | rfl | rfl
  · norm_num
  · norm_num
  · exact prime_20921

private theorem prime_47737 : Nat.Prime 47737 := by
  refine prime_of_cert _ 5 [(2, 3), (3, 3), (13, 1), (17, 1)] (by decide +kernel) ?_ (by decide +kernel) (by decide +kernel) (by decide +kernel) (by decide +kernel)
  intro f hf
  simp only [List.mem_cons, List.not_mem_nil, or_false] at hf
  rcases hf with rfl | rfl | rfl | rfl
  · norm_num
  · norm_num
  · norm_num
  · norm_num

private theorem prime_859267 : Nat.Prime 859267 := by
  refine prime_of_cert _ 2 [(2, 1), (3, 2), (47737, 1)] (by decide +kernel) ?_ (by decide +kernel) (by decide +kernel) (by decide +kernel) (by decide +kernel)
  intro f hf
  simp only [List.mem_cons, List.not_mem_nil, or_false] at hf
  rcases hf with rfl | rfl | rfl
  · norm_num
  · norm_num
  · exact prime_47737

private theorem prime_1607 : Nat.Prime 1607 := by
  refine prime_of_cert _ 5 [(2, 1), (11, 1), (73, 1)] (by decide +kernel) ?_ (by decide +kernel) (by decide +kernel) (by decide +kernel) (by decide +kernel)
  intro f hf
  simp only [List.mem_cons, List.not_mem_nil, or_false] at hf
  rcases hf with rfl | rfl | rfl
  · norm_num
  · norm_num
  · norm_num

private theorem prime_906349 : Nat.Prime 906349 := by
  refine prime_of_cert _ 2 [(2, 2), (3, 1), (47, 1), (1607, 1)] (by decide +kernel) ?_ (by decide +kernel) (by decide +kernel) (by decide +kernel) (by decide +kernel)
  intro f hf
  simp only [List.mem_cons, List.not_mem_nil, or_false] at hf
  rcases hf with rfl | rfl | rfl | rfl
  · norm_num
  · norm_num
  · norm_num
  · exact prime_1607

private theorem prime_2508409 : Nat.Prime 2508409 := by
  refine prime_of_cert _ 11 [(2, 3), (3, 4), (7, 2), (79, 1)] (by decide +kernel) ?_ (by decide +kernel) (by decide +kernel) (by decide +kernel) (by decide +kernel)
  intro f hf
  simp only [List.mem_cons, List.not_mem_nil, or_false] at hf
  rcases hf with rfl | rfl | rfl | rfl
  · norm_num
  · norm_num
  · norm_num
  · norm_num

private theorem prime_18329 : Nat.Prime 18329 := by
  refine prime_of_cert _ 3 [(2, 3), (29, 1), (79, 1)] (by decide +kernel) ?_ (by decide +kernel) (by decide +kernel) (by decide +kernel) (by decide +kernel)
  intro f hf
  simp only [List.mem_cons, List.not_mem_nil, or_false] at hf
  rcases hf with rfl | rfl | rfl
  · norm_num
  · norm_num
  · norm_num

private theorem prime_2529403 : Nat.Prime 2529403 := by
  refine prime_of_cert _ 2 [(2, 1), (3, 1), (23, 1), (18329, 1)] (by decide +kernel) ?_ (by decide +kernel) (by decide +kernel) (by decide +kernel) (by decide +kernel)
  intro f hf
  simp only [List.mem_cons, List.not_mem_nil, or_false] at hf
  rcases hf with rfl | rfl | rfl | rfl
  · norm_num
  · norm_num
  · norm_num
  · exact prime_18329

private theorem prime_609743 : Nat.Prime 609743 := by
  refine prime_of_cert _ 5 [(2, 1), (7, 1), (97, 1), (449, 1)] (by decide +kernel) ?_ (by decide +kernel) (by decide +kernel) (by decide +kernel) (by decide +kernel)
  intro f hf
  simp only [List.mem_cons, List.not_mem_nil, or_false] at hf
  rcases hf with rfl | rfl | rfl | rfl
  · norm_num
  · norm_num
  · norm_num
  · norm_num

private theorem prime_52437899 : Nat.Prime 52437899 := by
  refine prime_of_cert _ 2 [(2, 1), (43, 1), (609743, 1)] (by decide +kernel) ?_ (by decide +kernel) (by decide +kernel) (by decide +kernel) (by decide +kernel)
  intro f hf
  simp only [List.mem_cons, List.not_mem_nil, or_false] at hf
  rcases hf with rfl | rfl | rfl
  · norm_num
  · norm_num
  · exact prime_609743

private theorem prime_110573 : Nat.Prime 110573 := by
  refine prime_of_cert _ 3 [(2, 2), (7, 1), (11, 1), (359, 1)] (by decide +kernel) ?_ (by decide +kernel) (by decide +kernel) (by decide +kernel) (by decide +kernel)
  intro f hf
  simp only [List.mem_cons, List.not_mem_nil, or_false] at hf
  rcases hf with rfl | rfl | rfl | rfl
  · norm_num
  · norm_num
  · norm_num
  · norm_num

private theorem prime_2653753 : Nat.Prime 2653753 := by
  refine prime_of_cert _ 5 [(2, 3), (3, 1), (110573, 1)] (by decide +kernel) ?_ (by decide +kernel) (by decide +kernel) (by decide +kernel) (by decide +kernel)
  intro f hf
  simp only [List.mem_cons, List.not_mem_nil, or_false] at hf
  rcases hf with rfl | rfl | rfl
  · norm_num
  · norm_num
  · exact prime_110573

private theorem prime_63690073 : Nat.Prime 63690073 := by
  refine prime_of_cert _ 7 [(2, 3), (3, 1), (2653753, 1)] (by decide +kernel) ?_ (by decide +kernel) (by decide +kernel) (by decide +kernel) (by decide +kernel)
  intro f hf
  simp only [List.mem_cons, List.not_mem_nil, or_false] at hf
  rcases hf with rfl | rfl | rfl
  · norm_num
  · norm_num
  · exact prime_2653753

private theorem prime_254760293 : Nat.Prime 254760293 := by
  refine prime_of_cert _ 2 [(2, 2), (63690073, 1)] (by decide +kernel) ?_ (by decide +kernel) (by decide +kernel) (by decide +kernel) (by decide +kernel)
  intro f hf
  simp only [List.mem_cons, List.not_mem_nil, or_false] at hf
  rcases hf with rfl | rfl
  · norm_num
  · exact prime_63690073

private theorem prime_52435875175126190479447740508185965837690552500527637822603658699938581184513 : Nat.Prime 52435875175126190479447740508185965837690552500527637822603658699938581184513 := by
  refine prime_of_cert _ 7 [(2, 32), (3, 1), (11, 1), (19, 1), (10177, 1), (125527, 1), (859267, 1), (906349, 2), (2508409, 1), (2529403, 1), (52437899, 1), (254760293, 2)] (by decide +kernel) ?_ (by decide +kernel) (by decide +kernel) (by decide +kernel) (by decide +kernel)
  intro f hf
  simp only [List.mem_cons, List.not_mem_nil, or_false] at hf
  rcases hf with rfl | rfl | rfl | rfl | rfl | rfl | rfl | rfl | rfl | rfl | rfl | rfl
  · norm_num
  · norm_num
  · norm_num
  · norm_num
  · exact prime_10177
  · exact prime_125527
  · exact prime_859267
  · exact prime_906349
  · exact prime_2508409
  · exact prime_2529403
  · exact prime_52437899
  · exact prime_254760293

/-- The modulus of the scalar field of `Bls12_381`, `zokrates_field/src/bls12_381.rs` (the parameters are those of the crate `ark`). -/
abbrev Bls12_381 : ℕ := 52435875175126190479447740508185965837690552500527637822603658699938581184513

instance : Fact (Nat.Prime Bls12_381) := ⟨prime_52435875175126190479447740508185965837690552500527637822603658699938581184513⟩

private theorem prime_3511 : Nat.Prime 3511 := by
  refine prime_of_cert _ 7 [(2, 1), (3, 3), (5, 1), (13, 1)] (by decide +kernel) ?_ (by decide +kernel) (by decide +kernel) (by decide +kernel) (by decide +kernel)
  intro f hf
  simp only [List.mem_cons, List.not_mem_nil, or_false] at hf
  rcases hf with rfl | rfl | rfl | rfl
  · norm_num
  · norm_num
  · norm_num
  · norm_num

private theorem prime_126397 : Nat.Prime 126397 := by
  refine prime_of_cert _ 5 [(2, 2), (3, 2), (3511, 1)] (by decide +kernel) ?_ (by decide +kernel) (by decide +kernel) (by decide +kernel) (by decide +kernel)
  intro f hf
  simp only [List.mem_cons, List.not_mem_nil, or_false] at hf
  rcases hf with rfl | rfl | rfl
  · norm_num
  · norm_num
  · exact prime_3511

private theorem prime_1832756501 : Nat.Prime 1832756501 := by
  refine prime_of_cert _ 2 [(2, 2), (5, 3), (29, 1), (126397, 1)] (by decide +kernel) ?_ (by decide +kernel) (by decide +kernel) (by decide +kernel) (by decide +kernel)
  intro f hf
  simp only [List.mem_cons, List.not_mem_nil, or_false] at hf
  rcases hf with rfl | rfl | rfl | rfl
  · norm_num
  · norm_num
  · norm_num
  · exact prime_126397

private theorem prime_49484425527001 : Nat.Prime 49484425527001 := by
  refine prime_of_cert _ 14 [(2, 3), (3, 3), (5, 3), (1832756501, 1)] (by decide +kernel) ?_ (by decide +kernel) (by decide +kernel) (by decide +kernel) (by decide +kernel)
  intro f hf
  simp only [List.mem_cons, List.not_mem_nil, or_false] at hf
  rcases hf with rfl | rfl | rfl | rfl
  · norm_num
  · norm_num
  · norm_num
  · exact prime_1832756501

private theorem prime_958612291309063373 : Nat.Prime 958612291309063373 := by
  refine prime_of_cert _ 2 [(2, 2), (29, 1), (167, 1), (49484425527001, 1)] (by decide +kernel) ?_ (by decide +kernel) (by decide +kernel) (by decide +kernel) (by decide +kernel)
  intro f hf
  simp only [List.mem_cons, List.not_mem_nil, or_false] at hf
  rcases hf with rfl | rfl | rfl | rfl
  · norm_num
  · norm_num
  · norm_num
  · exact prime_49484425527001

private theorem prime_9586122913090633729 : Nat.Prime 9586122913090633729 := by
  refine prime_of_cert _ 11 [(2, 46), (3, 1), (7, 1), (13, 1), (499, 1)] (by decide +kernel) ?_ (by decide +kernel) (by decide +kernel) (by decide +kernel) (by decide +kernel)
  intro f hf
  simp only [List.mem_cons, List.not_mem_nil, or_false] at hf
  rcases hf with rfl | rfl | rfl | rfl | rfl
  · norm_num
  · norm_num
  · norm_num
  · norm_num
  · norm_num

private theorem prime_8444461749428370424248824938781546531375899335154063827935233455917409239041 : Nat.Prime 8444461749428370424248824938781546531375899335154063827935233455917409239041 := by
  refine prime_of_cert _ 22 [(2, 47), (3, 1), (5, 1), (7, 1), (13, 1), (499, 1), (958612291309063373, 1), (9586122913090633729, 2)] (by decide +kernel) ?_ (by decide +kernel) (by decide +kernel) (by decide +kernel) (by decide +kernel)
  intro f hf
  simp only [List.mem_cons, List.not_mem_nil, or_false] at hf
  rcases hf with rfl | rfl | rfl | rfl | rfl | rfl | rfl | rfl
  · norm_num
  · norm_num
  · norm_num
  · norm_num
  · norm_num
  · norm_num
  · exact prime_958612291309063373
  · exact prime_9586122913090633729

/-- The modulus of the scalar field of `Bls12_377`, `zokrates_field/src/bls12_377.rs` (the parameters are those of the crate `ark`). -/
abbrev Bls12_377 : ℕ := 8444461749428370424248824938781546531375899335154063827935233455917409239041

instance : Fact (Nat.Prime Bls12_377) := ⟨prime_8444461749428370424248824938781546531375899335154063827935233455917409239041⟩

private theorem prime_14923 : Nat.Prime 14923 := by
  refine prime_of_cert _ 2 [(2, 1), (3, 2), (829, 1)] (by decide +kernel) ?_ (by decide +kernel) (by decide +kernel) (by decide +kernel) (by decide +kernel)
  intro f hf
  simp only [List.mem_cons, List.not_mem_nil, or_false] at hf
  rcases hf with rfl | rfl | rfl
  · norm_num
  · norm_num
  · norm_num

private theorem prime_1973 : Nat.Prime 1973 := by
  refine prime_of_cert _ 2 [(2, 2), (17, 1), (29, 1)] (by decide +kernel) ?_ (by decide +kernel) (by decide +kernel) (by decide +kernel) (by decide +kernel)
  intro f hf
  simp only [List.mem_cons, List.not_mem_nil, or_false] at hf
  rcases hf with rfl | rfl | rfl
  · norm_num
  · norm_num
  · norm_num

private theorem prime_6229 : Nat.Prime 6229 := by
  refine prime_of_cert _ 2 [(2, 2), (3, 2), (173, 1)] (by decide +kernel) ?_ (by decide +kernel) (by decide +kernel) (by decide +kernel) (by decide +kernel)
  intro f hf
  simp only [List.mem_cons, List.not_mem_nil, or_false] at hf
  rcases hf with rfl | rfl | rfl
  · norm_num
  · norm_num
  · norm_num

private theorem prime_24917 : Nat.Prime 24917 := by
  refine prime_of_cert _ 2 [(2, 2), (6229, 1)] (by decide +kernel) ?_ (by decide +kernel) (by decide +kernel) (by decide +kernel) (by decide +kernel)
  intro f hf
  simp only [List.mem_cons, List.not_mem_nil, or_false] at hf
  rcases hf with rfl | rfl
  · norm_num
  · exact prime_6229

private theorem prime_149503 : Nat.Prime 149503 := by
  refine prime_of_cert _ 3 [(2, 1), (3, 1), (24917, 1)] (by decide +kernel) ?_ (by decide +kernel) (by decide +kernel) (by decide +kernel) (by decide +kernel)
  intro f hf
  simp only [List.mem_cons, List.not_mem_nil, or_false] at hf
  rcases hf with rfl | rfl | rfl
  · norm_num
  · norm_num
  · exact prime_24917

private theorem prime_897019 : Nat.Prime 897019 := by
  refine prime_of_cert _ 2 [(2, 1), (3, 1), (149503, 1)] (by decide +kernel) ?_ (by decide +kernel) (by decide +kernel) (by decide +kernel) (by decide +kernel)
  intro f hf
  simp only [List.mem_cons, List.not_mem_nil, or_false] at hf
  rcases hf with rfl | rfl | rfl
  · norm_num
  · norm_num
  · exact prime_149503

private theorem prime_417677162933 : Nat.Prime 417677162933 := by
  refine prime_of_cert _ 2 [(2, 2), (59, 1), (1973, 1), (897019, 1)] (by decide +kernel) ?_ (by decide +kernel) (by decide +kernel) (by decide +kernel) (by decide +kernel)
  intro f hf
  simp only [List.mem_cons, List.not_mem_nil, or_false] at hf
  rcases hf with rfl | rfl | rfl | rfl
  · norm_num
  · norm_num
  · exact prime_1973
  · exact prime_897019

private theorem prime_539204044132271846773 : Nat.Prime 539204044132271846773 := by
  refine prime_of_cert _ 5 [(2, 2), (3, 5), (89, 1), (14923, 1), (417677162933, 1)] (by decide +kernel) ?_ (by decide +kernel) (by decide +kernel) (by decide +kernel) (by decide +kernel)
  intro f hf
  simp only [List.mem_cons, List.not_mem_nil, or_false] at hf
  rcases hf with rfl | rfl | rfl | rfl | rfl
  · norm_num
  · norm_num
  · norm_num
  · exact prime_14923
  · exact prime_417677162933

private theorem prime_2531 : Nat.Prime 2531 := by
  refine prime_of_cert _ 2 [(2, 1), (5, 1), (11, 1), (23, 1)] (by decide +kernel) ?_ (by decide +kernel) (by decide +kernel) (by decide +kernel) (by decide +kernel)
  intro f hf
  simp only [List.mem_cons, List.not_mem_nil, or_false] at hf
  rcases hf with rfl | rfl | rfl | rfl
  · norm_num
  · norm_num
  · norm_num
  · norm_num

private theorem prime_19267 : Nat.Prime 19267 := by
  refine prime_of_cert _ 3 [(2, 1), (3, 1), (13, 2), (19, 1)] (by decide +kernel) ?_ (by decide +kernel) (by decide +kernel) (by decide +kernel) (by decide +kernel)
  intro f hf
  simp only [List.mem_cons, List.not_mem_nil, or_false] at hf
  rcases hf with rfl | rfl | rfl | rfl
  · norm_num
  · norm_num
  · norm_num
  · norm_num

private theorem prime_115603 : Nat.Prime 115603 := by
  refine prime_of_cert _ 2 [(2, 1), (3, 1), (19267, 1)] (by decide +kernel) ?_ (by decide +kernel) (by decide +kernel) (by decide +kernel) (by decide +kernel)
  intro f hf
  simp only [List.mem_cons, List.not_mem_nil, or_false] at hf
  rcases hf with rfl | rfl | rfl
  · norm_num
  · norm_num
  · exact prime_19267

private theorem prime_3767 : Nat.Prime 3767 := by
  refine prime_of_cert _ 5 [(2, 1), (7, 1), (269, 1)] (by decide +kernel) ?_ (by decide +kernel) (by decide +kernel) (by decide +kernel) (by decide +kernel)
  intro f hf
  simp only [List.mem_cons, List.not_mem_nil, or_false] at hf
  rcases hf with rfl | rfl | rfl
  · norm_num
  · norm_num
  · norm_num

private theorem prime_1197907 : Nat.Prime 1197907 := by
  refine prime_of_cert _ 3 [(2, 1), (3, 1), (53, 1), (3767, 1)] (by decide +kernel) ?_ (by decide +kernel) (by decide +kernel) (by decide +kernel) (by decide +kernel)
  intro f hf
  simp only [List.mem_cons, List.not_mem_nil, or_false] at hf
  rcases hf with rfl | rfl | rfl | rfl
  · norm_num
  · norm_num
  · norm_num
  · exact prime_3767

private theorem prime_6942563 : Nat.Prime 6942563 := by
  refine prime_of_cert _ 2 [(2, 1), (11, 1), (17, 1), (19, 1), (977, 1)] (by decide +kernel) ?_ (by decide +kernel) (by decide +kernel) (by decide +kernel) (by decide +kernel)
  intro f hf
  simp only [List.mem_cons, List.not_mem_nil, or_false] at hf
  rcases hf with rfl | rfl | rfl | rfl | rfl
  · norm_num
  · norm_num
  · norm_num
  · norm_num
  · norm_num

private theorem prime_41655379 : Nat.Prime 41655379 := by
  refine prime_of_cert _ 2 [(2, 1), (3, 1), (6942563, 1)] (by decide +kernel) ?_ (by decide +kernel) (by decide +kernel) (by decide +kernel) (by decide +kernel)
  intro f hf
  simp only [List.mem_cons, List.not_mem_nil, or_false] at hf
  rcases hf with rfl | rfl | rfl
  · norm_num
  · norm_num
  · exact prime_6942563

private theorem prime_22160661629 : Nat.Prime 22160661629 := by
  refine prime_of_cert _ 3 [(2, 2), (7, 1), (19, 1), (41655379, 1)] (by decide +kernel) ?_ (by decide +kernel) (by decide +kernel) (by decide +kernel) (by decide +kernel)
  intro f hf
  simp only [List.mem_cons, List.not_mem_nil, or_false] at hf
  rcases hf with rfl | rfl | rfl | rfl
  · norm_num
  · norm_num
  · norm_num
  · exact prime_41655379

private theorem prime_413527 : Nat.Prime 413527 := by
  refine prime_of_cert _ 3 [(2, 1), (3, 1), (41, 3)] (by decide +kernel) ?_ (by decide +kernel) (by decide +kernel) (by decide +kernel) (by decide +kernel)
  intro f hf
  simp only [List.mem_cons, List.not_mem_nil, or_false] at hf
  rcases hf with rfl | rfl | rfl
  · norm_num
  · norm_num
  · norm_num

private theorem prime_25741 : Nat.Prime 25741 := by
  refine prime_of_cert _ 6 [(2, 2), (3, 2), (5, 1), (11, 1), (13, 1)] (by decide +kernel) ?_ (by decide +kernel) (by decide +kernel) (by decide +kernel) (by decide +kernel)
  intro f hf
  simp only [List.mem_cons, List.not_mem_nil, or_false] at hf
  rcases hf with rfl | rfl | rfl | rfl | rfl
  · norm_num
  · norm_num
  · norm_num
  · norm_num
  · norm_num

private theorem prime_772231 : Nat.Prime 772231 := by
  refine prime_of_cert _ 6 [(2, 1), (3, 1), (5, 1), (25741, 1)] (by decide +kernel) ?_ (by decide +kernel) (by decide +kernel) (by decide +kernel) (by decide +kernel)
  intro f hf
  simp only [List.mem_cons, List.not_mem_nil, or_false] at hf
  rcases hf with rfl | rfl | rfl | rfl
  · norm_num
  · norm_num
  · norm_num
  · exact prime_25741

private theorem prime_325086459374267 : Nat.Prime 325086459374267 := by
  refine prime_of_cert _ 2 [(2, 1), (509, 1), (413527, 1), (772231, 1)] (by decide +kernel) ?_ (by decide +kernel) (by decide +kernel) (by decide +kernel) (by decide +kernel)
  intro f hf
  simp only [List.mem_cons, List.not_mem_nil, or_false] at hf
  rcases hf with rfl | rfl | rfl | rfl
  · norm_num
  · norm_num
  · exact prime_413527
  · exact prime_772231

private theorem prime_8999194758858563409123804352480028797519453 : Nat.Prime 8999194758858563409123804352480028797519453 := by
  refine prime_of_cert _ 2 [(2, 2), (3, 4), (11, 1), (2531, 1), (115603, 1), (1197907, 1), (22160661629, 1), (325086459374267, 1)] (by decide +kernel) ?_ (by decide +kernel) (by decide +kernel) (by decide +kernel) (by decide +kernel)
  intro f hf
  simp only [List.mem_cons, List.not_mem_nil, or_false] at hf
  rcases hf with rfl | rfl | rfl | rfl | rfl | rfl | rfl | rfl
  · norm_num
  · norm_num
  · norm_num
  · exact prime_2531
  · exact prime_115603
  · exact prime_1197907
  · exact prime_22160661629
  · exact prime_325086459374267

private theorem prime_28948022309329048855892746252171976963363056481941560715954676764349967630337 : Nat.Prime 28948022309329048855892746252171976963363056481941560715954676764349967630337 := by
  refine prime_of_cert _ 5 [(2, 32), (3, 1), (463, 1), (539204044132271846773, 1), (8999194758858563409123804352480028797519453, 1)] (by decide +kernel) ?_ (by decide +kernel) (by decide +kernel) (by decide +kernel) (by decide +kernel)
  intro f hf
  simp only [List.mem_cons, List.not_mem_nil, or_false] at hf
  rcases hf with rfl | rfl | rfl | rfl | rfl
  · norm_num
  · norm_num
  · norm_num
  · exact prime_539204044132271846773
  · exact prime_8999194758858563409123804352480028797519453

/-- The modulus of the scalar field of `Pallas`, `zokrates_field/src/pallas.rs` (the parameters are those of the crate `ark`). -/
abbrev Pallas : ℕ := 28948022309329048855892746252171976963363056481941560715954676764349967630337

instance : Fact (Nat.Prime Pallas) := ⟨prime_28948022309329048855892746252171976963363056481941560715954676764349967630337⟩

end Zok
