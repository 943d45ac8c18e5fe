import Verif.Lemmas.StdEcc
import Verif.Lemmas.StdAll
import Verif.Lemmas.BabyJubJub
import Verif.Props.StdPack

/-
C60: elliptic curves in the standard library (`zokrates_stdlib/stdlib/ecc`). The specification of the group is in `Spec/Edwards.lean`.
-/

namespace Zok.Typed.Std
open Abi
variable {p : ℕ} {Z : Type} [Fact p.Prime] {O : Oracle p Z} {P : Program (ZMod p)} {E : Edwards (ZMod p)} {c : Params p}

/-- C60: `edwardsAdd` is the addition of the group of the curve, and never divides by zero on points of the curve. -/
theorem C60_add (hc : c.For E) (Q R : E.Pt) : CallsTo O P edwardsAdd [ptV Q, ptV R, c.val] (.ok (ptV (Q + R))) :=
  add_spec hc Q R

/-- C60: on arbitrary field elements, `edwardsAdd` evaluates the addition law, and fails if one of the denominators is zero. -/
theorem C60_add_any (hc : c.For E) (u1 v1 u2 v2 : ZMod p) : CallsTo O P edwardsAdd [fieldsV [u1, v1], fieldsV [u2, v2], c.val]
    (if 1 + E.d * u1 * u2 * v1 * v2 = 0 ∨ 1 - E.d * u1 * u2 * v1 * v2 = 0 then .error .divZero else
      .ok (fieldsV [(u1 * v2 + v1 * u2) / (1 + E.d * u1 * u2 * v1 * v2), (v1 * v2 - E.a * u1 * u2) / (1 - E.d * u1 * u2 * v1 * v2)])) := by
  rw [← hc.a, ← hc.d]
  exact edwardsAdd_spec (by rw [hc.inf]; rfl)

/-- C60: `edwardsNegate` is the inverse of the group. -/
theorem C60_negate (Q : E.Pt) : CallsTo O P edwardsNegate [ptV Q] (.ok (ptV (-Q))) :=
  negate_spec Q

/-- C60: `edwardsOnCurve` returns true on the points of the curve, and fails elsewhere: it never returns false. -/
theorem C60_onCurve (hc : c.For E) (u v : ZMod p) :
    CallsTo O P edwardsOnCurve [fieldsV [u, v], c.val] (if E.a * u ^ 2 + v ^ 2 = 1 + E.d * u ^ 2 * v ^ 2 then .ok (.bool true) else .error .assertionFailed) := by
  have := onCurve_spec (O := O) (P := P) hc (u := u) (v := v)
  simp only [Edwards.On] at this
  convert this using 1
  split <;> simp_all

/-- C60: `edwardsOrderCheck` returns whether the point is not one of the points whose order divides the cofactor 8. -/
theorem C60_orderCheck (hP : Imports P ecc) (hc : c.For E) (h8 : c.C = 8) (Q : E.Pt) :
    CallsTo O P edwardsOrderCheck [ptV Q, c.val] (.ok (.bool (open Classical in decide (8 • Q ≠ 0)))) := by
  have := orderCheck_spec (O := O) hP hc h8 Q
  convert this
  simp

/-- C60: it fails for all other cofactors. -/
theorem C60_orderCheck_cofactor (hc : c.For E) (h8 : c.C ≠ 8) (u v : ZMod p) : CallsTo O P edwardsOrderCheck [fieldsV [u, v], c.val] (.error .assertionFailed) :=
  orderCheck_cofactor (by rw [hc.inf]; rfl) h8 u v

/-- C60: `edwardsScalarMult` returns the multiple of the point by the number which the bits represent, and never fails on points of the curve. -/
theorem C60_scalarMult (hP : Imports P ecc) (hc : c.For E) {bl : List Bool} (hl : bl.length = 256) (Q : E.Pt) :
    CallsTo O P edwardsScalarMult [boolsV bl, ptV Q, c.val] (.ok (ptV (natBE bl • Q))) :=
  scalarMult_spec hP hc hl Q

/-- The scalars which a prover can use for a field element. -/
def Scalar (x : ZMod p) (k : ℕ) : Prop := k < 2 ^ 254 ∧ (k : ZMod p) = x

theorem any_iff {n : ℕ} {x : ZMod p} {bl : List Bool} : (Oracle.any p Z).unpack n x bl ↔ bl.length = n ∧ ((natBE bl : ℕ) : ZMod p) = x := Iff.rfl

theorem exists_scalar {x : ZMod p} {C : ℕ → List Bool → Prop} :
    (∃ bl, (Oracle.any p Z).unpack 254 x bl ∧ C (natBE bl) bl) ↔ ∃ k, Scalar x k ∧ C k (bitsBE 254 k) := by
  constructor
  · rintro ⟨bl, ⟨h1, h2⟩, h3⟩
    refine ⟨natBE bl, ⟨by rw [← h1]; exact natBE_lt bl, h2⟩, ?_⟩
    rwa [← h1, bitsBE_natBE]
  · rintro ⟨k, ⟨h1, h2⟩, h3⟩
    have := natBE_bitsBE_of_lt h1
    exact ⟨bitsBE 254 k, ⟨by simp, by rw [this]; exact h2⟩, by rwa [this]⟩

/-- C60: `proofOfOwnership` returns true exactly if the public key is the multiple of the generator by some number the prover may use for the secret key: any number smaller than `2 ^ 254`
which is congruent to it modulo the order of the field. -/
theorem C60_ownership (hP : Imports P ecc) (hU : Imports P utils) (hc : c.For E) {G : E.Pt} (hu : c.Gu = G.u) (hv : c.Gv = G.v) (a b sk : ZMod p) (r : AVal (ZMod p)) :
    Calls (Oracle.any p Z) P proofOfOwnership [fieldsV [a, b], .field sk, c.val] (.ok r) ↔
      ∃ k, Scalar sk k ∧ r = .bool (open Classical in decide ((k • G).u = a ∧ (k • G).v = b)) := by
  rw [ownership_spec hP hU (fun n x bl h => h) hc hu hv, exists_scalar (C := fun k _ => r = .bool (open Classical in decide (ptV (k • G) = fieldsV [a, b])))]
  simp [ptV, fieldsV]

/-- C60: the number is not unique: if the secret key plus the order of the field is smaller than `2 ^ 254`, then it has two public keys, and the prover can let the function return true or false
for each of them. -/
theorem C60_ownership_two_keys (hP : Imports P ecc) (hU : Imports P utils) (hc : c.For E) {G : E.Pt} (hu : c.Gu = G.u) (hv : c.Gv = G.v) (sk : ZMod p) (hlt : sk.val + p < 2 ^ 254) (hG : p • G ≠ 0) :
    ∃ pk pk' : E.Pt, pk ≠ pk' ∧ ∀ b, Calls (Oracle.any p Z) P proofOfOwnership [ptV pk, .field sk, c.val] (.ok (.bool b)) ∧
      Calls (Oracle.any p Z) P proofOfOwnership [ptV pk', .field sk, c.val] (.ok (.bool b)) := by
  have hne : sk.val • G ≠ (sk.val + p) • G := by
    rw [add_smul]
    intro h
    exact hG (left_eq_add.1 h)
  have h1 : Scalar sk sk.val := ⟨by omega, by simp⟩
  have h2 : Scalar sk (sk.val + p) := ⟨hlt, by simp⟩
  refine ⟨sk.val • G, (sk.val + p) • G, hne, ?_⟩
  have hiff : ∀ Q R : E.Pt, (Q.u = R.u ∧ Q.v = R.v) ↔ Q = R := fun Q R => ⟨fun h => Edwards.Pt.ext h.1 h.2, fun h => by rw [h]; exact ⟨rfl, rfl⟩⟩
  intro b
  constructor
  · refine (C60_ownership hP hU hc hu hv _ _ _ _).2 ?_
    cases b
    · exact ⟨_, h2, by simp [hiff, hne.symm]⟩
    · exact ⟨_, h1, by simp⟩
  · refine (C60_ownership hP hU hc hu hv _ _ _ _).2 ?_
    cases b
    · exact ⟨_, h1, by simp [hiff, hne]⟩
    · exact ⟨_, h2, by simp⟩

theorem getLastD_testBit {bx : List Bool} (h : 0 < bx.length) : bx.getLastD false = (natBE bx).testBit 0 := by
  obtain ⟨b, x, rfl⟩ : ∃ b x, bx = b ++ [x] := ⟨bx.dropLast, bx.getLast (by rintro rfl; simp at h), (List.dropLast_append_getLast _).symm⟩
  simp only [natBE_append, natBE, List.getLastD_concat, List.length_singleton, Nat.testBit_zero]
  cases x <;> simp

/-- C60: `edwardsCompress` returns the `v` coordinate, with the parity of the `u` coordinate as the highest bit, where the prover chooses the representatives of both. -/
theorem C60_compress (hU : Imports P utils) (u v : ZMod p) (r : AVal (ZMod p)) :
    Calls (Oracle.any p Z) P edwardsCompress [fieldsV [u, v]] (.ok r) ↔ ∃ k, Scalar u k ∧ ∃ l, Scalar v l ∧ r = boolsV (bitsBE 256 (k % 2 * 2 ^ 255 + l)) := by
  rw [compress_spec hU (fun n x bl h => h)]
  have hlast : ∀ {bx : List Bool}, bx.length = 254 → bx.getLastD false = (natBE bx).testBit 0 := fun h => getLastD_testBit (by omega)
  have hb : ∀ k l, l < 2 ^ 254 → bitsBE 256 (k % 2 * 2 ^ 255 + l) = k.testBit 0 :: false :: bitsBE 254 l := by
    intro k l hl
    refine natBE_inj (by simp) ?_
    rw [natBE_bitsBE_of_lt (by have := Nat.mod_lt k (show 0 < 2 by omega); have : k % 2 ≤ 1 := by omega
                               have : k % 2 * 2 ^ 255 ≤ 1 * 2 ^ 255 := Nat.mul_le_mul_right _ this
                               omega), natBE, natBE, natBE_bitsBE_of_lt hl, Nat.testBit_zero]
    rcases Nat.mod_two_eq_zero_or_one k with h | h <;> simp [h]
  have h2 : ∀ s, (∃ bly, (Oracle.any p Z).unpack 254 v bly ∧ r = boolsV (s :: false :: bly)) ↔ ∃ l, Scalar v l ∧ r = boolsV (s :: false :: bitsBE 254 l) := fun s =>
    exists_scalar (C := fun _ bly => r = boolsV (s :: false :: bly))
  constructor
  · rintro ⟨bx, ⟨h1, h3⟩, h4⟩
    obtain ⟨l, h5, h6⟩ := (h2 _).1 h4
    refine ⟨natBE bx, ⟨by rw [← h1]; exact natBE_lt bx, h3⟩, l, h5, ?_⟩
    rw [hb _ _ h5.1, ← hlast h1, h6]
  · rintro ⟨k, ⟨h1, h3⟩, l, h5, h6⟩
    have hk := natBE_bitsBE_of_lt h1
    refine ⟨bitsBE 254 k, ⟨by simp, by rw [hk]; exact h3⟩, (h2 _).2 ⟨l, h5, ?_⟩⟩
    rw [hlast (by simp), hk, h6, hb _ _ h5.1]

/-- C60: the two points with the same `v` coordinate can be compressed to the same bits, if the `u` coordinate of one of them is small. -/
theorem C60_compress_collision (hU : Imports P utils) (hp : p ≠ 2) (h254 : p < 2 ^ 254) (Q : E.Pt) (hQ : Q.u ≠ 0) (hlt : Q.u.val + p < 2 ^ 254) :
    Q ≠ -Q ∧ ∃ r, Calls (Oracle.any p Z) P edwardsCompress [ptV Q] (.ok r) ∧ Calls (Oracle.any p Z) P edwardsCompress [ptV (-Q)] (.ok r) := by
  have hodd : p % 2 = 1 := (Fact.out : p.Prime).eq_two_or_odd.resolve_left hp
  have hneg : (-Q.u).val = p - Q.u.val := by rw [ZMod.neg_val, if_neg hQ]
  have hqlt := ZMod.val_lt Q.u
  refine ⟨fun h => ?_, boolsV (bitsBE 256 ((Q.u.val + p) % 2 * 2 ^ 255 + Q.v.val)), ?_, ?_⟩
  · have h1 := congrArg Edwards.Pt.u h
    rw [Edwards.neg_u] at h1
    have h2 := congrArg ZMod.val h1
    rw [hneg] at h2
    omega
  · exact (C60_compress hU _ _ _).2 ⟨_, ⟨hlt, by simp⟩, _, ⟨lt_trans (ZMod.val_lt _) h254, by simp⟩, rfl⟩
  · refine (C60_compress hU _ _ _).2 ⟨(-Q.u).val, ⟨lt_trans (ZMod.val_lt _) h254, by simp [Edwards.neg_u]⟩, Q.v.val, ⟨lt_trans (ZMod.val_lt _) h254, by simp [Edwards.neg_v]⟩, ?_⟩
    rw [hneg]
    have : (p - Q.u.val) % 2 = (Q.u.val + p) % 2 := by omega
    rw [this]

/-- C60: if the prover only uses the binary representations of field elements, then the compression is injective. -/
theorem C60_compress_injective (hU : Imports P utils) (hO : ∀ n x bl, O.unpack n x bl ↔ ZMod.val x < 2 ^ n ∧ bl = bitsBE n (ZMod.val x)) (hp : p ≠ 2) {Q R : E.Pt} {r : AVal (ZMod p)}
    (h1 : Calls O P edwardsCompress [ptV Q] (.ok r)) (h2 : Calls O P edwardsCompress [ptV R] (.ok r)) : Q = R := by
  have hodd : p % 2 = 1 := (Fact.out : p.Prime).eq_two_or_odd.resolve_left hp
  have hU' : Unpacks O := fun n x bl h => by
    obtain ⟨h1, rfl⟩ := (hO n x bl).1 h
    exact ⟨by simp, by rw [natBE_bitsBE_of_lt h1]; simp⟩
  obtain ⟨bx, h3', bly, h4', rfl⟩ := (compress_spec hU hU').1 h1
  obtain ⟨bx', h5', bly', h6', h7⟩ := (compress_spec hU hU').1 h2
  obtain ⟨h3, rfl⟩ := (hO _ _ _).1 h3'
  obtain ⟨h4, rfl⟩ := (hO _ _ _).1 h4'
  obtain ⟨h5, rfl⟩ := (hO _ _ _).1 h5'
  obtain ⟨h6, rfl⟩ := (hO _ _ _).1 h6'
  have h7 : (bitsBE 254 Q.u.val).getLastD false :: false :: bitsBE 254 Q.v.val = (bitsBE 254 R.u.val).getLastD false :: false :: bitsBE 254 R.v.val := by
    simp only [boolsV, AVal.array.injEq] at h7
    exact (List.map_inj_right fun a b h => by simpa using h).1 h7
  simp only [List.cons.injEq, true_and] at h7
  obtain ⟨h7, h8⟩ := h7
  have hv : Q.v = R.v := by
    have := congrArg natBE h8
    rw [natBE_bitsBE_of_lt h4, natBE_bitsBE_of_lt h6] at this
    exact ZMod.val_injective p this
  have hpar : Q.u.val % 2 = R.u.val % 2 := by
    have hl : ∀ n, n < 2 ^ 254 → (bitsBE 254 n).getLastD false = n.testBit 0 := by
      intro n hn
      rw [getLastD_testBit (by simp), natBE_bitsBE_of_lt hn]
    rw [hl _ h3, hl _ h5, Nat.testBit_zero, Nat.testBit_zero, decide_eq_decide] at h7
    omega
  have hQ := Q.on
  have hR := R.on
  rw [Edwards.On] at hQ hR
  rw [← hv] at hR
  have hne : E.a - E.d * Q.v ^ 2 ≠ 0 := by
    intro h0
    by_cases hv0 : Q.v = 0
    · rw [hv0] at h0 hQ
      have : E.a = 0 := by linear_combination h0
      rw [this] at hQ
      simp at hQ
    · obtain ⟨s, hs⟩ := E.sq
      refine E.nsq ⟨s / Q.v, ?_⟩
      field_simp
      linear_combination hs - h0
  have hsq : (Q.u - R.u) * (Q.u + R.u) = 0 := by
    have : (E.a - E.d * Q.v ^ 2) * ((Q.u - R.u) * (Q.u + R.u)) = 0 := by linear_combination hQ - hR
    exact (mul_eq_zero.1 this).resolve_left hne
  refine Edwards.Pt.ext ?_ hv
  rcases mul_eq_zero.1 hsq with h | h
  · exact sub_eq_zero.1 h
  · have hu : Q.u = -R.u := eq_neg_of_add_eq_zero_left h
    by_cases h0 : R.u = 0
    · rw [hu, h0, neg_zero]
    · have hval := congrArg ZMod.val hu
      rw [ZMod.neg_val, if_neg h0] at hval
      have := ZMod.val_lt R.u
      omega

/-! ### Baby Jubjub -/

/-- C60: the parameters of the library are those of a complete curve over the field of Bn128, so that the theorems above apply to them, and the generator is a point of it. -/
theorem C60_babyJubJub : (babyJubJub : Params Bn128).For babyJubJubCurve ∧ (babyJubJub : Params Bn128).C = 8 ∧ (babyJubJub : Params Bn128).Gu = babyG.u ∧ (babyJubJub : Params Bn128).Gv = babyG.v :=
  ⟨⟨rfl, rfl, rfl⟩, rfl, by simp [babyJubJub, babyG, babyGu], by simp [babyJubJub, babyG, babyGv]⟩

/-- C60: with the parameters of the library, the secret key 5 has two public keys. -/
theorem C60_two_keys_bn128 : ∃ pk pk' : babyJubJubCurve.Pt, pk ≠ pk' ∧ ∀ b, Calls (Oracle.any Bn128 Unit) stdlib proofOfOwnership [ptV pk, .field 5, babyJubJub.val] (.ok (.bool b)) ∧
    Calls (Oracle.any Bn128 Unit) stdlib proofOfOwnership [ptV pk', .field 5, babyJubJub.val] (.ok (.bool b)) := by
  obtain ⟨h1, -, h2, h3⟩ := C60_babyJubJub
  refine C60_ownership_two_keys imports_ecc imports_stdlib_utils h1 h2 h3 5 ?_ babyG_modulus
  have : (5 : ZMod Bn128).val = 5 := by
    rw [show (5 : ZMod Bn128) = ((5 : ℕ) : ZMod Bn128) by norm_cast, ZMod.val_natCast_of_lt (by decide +kernel)]
  rw [this]
  decide +kernel

/-- C60: with the parameters of the library, the generator and its inverse can be compressed to the same bits. -/
theorem C60_compress_collision_bn128 : babyG ≠ -babyG ∧ ∃ r, Calls (Oracle.any Bn128 Unit) stdlib edwardsCompress [ptV babyG] (.ok r) ∧ Calls (Oracle.any Bn128 Unit) stdlib edwardsCompress [ptV (-babyG)] (.ok r) := by
  have hu : (-babyG).u = ((Bn128 - babyGu : ℕ) : ZMod Bn128) := by
    rw [Nat.cast_sub (by decide +kernel), ZMod.natCast_self, zero_sub]
    rfl
  have hval : (-babyG).u.val = Bn128 - babyGu := by rw [hu, ZMod.val_natCast_of_lt (by decide +kernel)]
  obtain ⟨h1, r, h2, h3⟩ := C60_compress_collision (Z := Unit) (P := stdlib) imports_stdlib_utils (by decide +kernel) (by decide +kernel) (-babyG)
    (fun h => by rw [h, ZMod.val_zero] at hval; exact absurd hval (by decide +kernel)) (by rw [hval]; decide +kernel)
  rw [neg_neg] at h1 h3
  exact ⟨h1.symm, r, h3, h2⟩

/-- The hypotheses of the theorems on the group are met. -/
example : CallsTo (Oracle.any Bn128 Unit) stdlib edwardsScalarMult [boolsV (bitsBE 256 12), ptV babyG, babyJubJub.val] (.ok (ptV (12 • babyG))) := by
  have := C60_scalarMult (O := Oracle.any Bn128 Unit) imports_ecc C60_babyJubJub.1 (bl := bitsBE 256 12) (by simp) babyG
  rwa [natBE_bitsBE_of_lt (by norm_num)] at this

/-- The order of the generator is not 1, 2, 4 or 8. -/
example : CallsTo (Oracle.any Bn128 Unit) stdlib edwardsOrderCheck [ptV babyG, babyJubJub.val] (.ok (.bool true)) := by
  have := C60_orderCheck (O := Oracle.any Bn128 Unit) imports_ecc C60_babyJubJub.1 C60_babyJubJub.2.1 babyG
  have h : 8 • babyG ≠ 0 := Edwards.proj_ne_zero (babyG_smul (by decide +kernel)) (by decide +kernel)
  simpa [h] using this

end Zok.Typed.Std
