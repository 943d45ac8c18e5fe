import Verif.Props.StdEcc
import Verif.Lemmas.StdEddsa

/-
C62: EdDSA signatures in the standard library (`zokrates_stdlib/stdlib/signatures/verifyEddsa`).
-/

namespace Zok.Typed.Std
open Abi Sha256
variable {p : ℕ} {Z : Type} [Fact p.Prime] {O : Oracle p Z} {P : Program (ZMod p)} {E : Edwards (ZMod p)} {c : Params p}

/-- The hash of a signature as a number, where the first coordinates of the points are represented by the numbers `kR` and `kA` of 254 bits: SHA-256 of 1024 bits. -/
def challenge (kR kA : ℕ) (m0 m1 : List Word) : ℕ := natBE (wordBits (Sha256.sha256 (bitsBE 256 kR ++ bitsBE 256 kA ++ wordBits m0 ++ wordBits m1)))

/-- The equation of a signature. -/
def Verifies (G R A : E.Pt) (s : ℕ) (h : ℕ) : Prop := s • G = R + h • A

theorem challenge_eq {kR kA : ℕ} (hR : kR < 2 ^ 254) (hA : kA < 2 ^ 254) (m0 m1 : List Word) :
    hashNat ((false :: false :: bitsBE 254 kR) ++ (false :: false :: bitsBE 254 kA) ++ (wordBits m0 ++ wordBits m1)) = challenge kR kA m0 m1 := by
  have h : ∀ k, k < 2 ^ 254 → bitsBE 256 k = false :: false :: bitsBE 254 k := fun k hk => bitsBE_pad (w := 256) (w' := 254) hk (by omega)
  rw [challenge, hashNat, h kR hR, h kA hA, List.append_assoc _ (wordBits m0)]

/-- C62: what `verifyEddsa` can return on a public key of the curve: it fails unless `R` is a point of the curve whose order does not divide the cofactor, and else returns whether the equation of the signature holds,
where the prover chooses the representatives of the scalar and of the two coordinates which are hashed: any numbers smaller than `2 ^ 254` which are congruent to them modulo the order of the field. -/
theorem C62_verify (hE : Imports P ecc) (hU : Imports P utils) (hS : Imports P sha) (hG : Imports P signatures) (hc : c.For E) (h8 : c.C = 8) {G : E.Pt} (hu : c.Gu = G.u) (hv : c.Gv = G.v)
    (u v s : ZMod p) (A : E.Pt) {m0 m1 : List Word} (h0 : m0.length = 8) (h1 : m1.length = 8) (r : AVal (ZMod p)) :
    Calls (Oracle.any p Z) P verifyEddsa [fieldsV [u, v], .field s, ptV A, wordsV m0, wordsV m1, c.val] (.ok r) ↔
      ∃ R : E.Pt, R.u = u ∧ R.v = v ∧ 8 • R ≠ 0 ∧ ∃ kR, Scalar u kR ∧ ∃ kA, Scalar A.u kA ∧ ∃ k, Scalar s k ∧
        r = .bool (open Classical in decide (Verifies G R A k (challenge kR kA m0 m1))) := by
  rw [verifyEddsa_spec hE hU hS hG (fun n x bl h => h) hc h8 hu hv h0 h1]
  refine exists_congr fun R => and_congr_right fun _ => and_congr_right fun _ => and_congr_right fun _ => ?_
  rw [exists_scalar (C := fun _ bR => ∃ bA, (Oracle.any p Z).unpack 254 A.u bA ∧ ∃ bS, (Oracle.any p Z).unpack 254 s bS ∧
        r = .bool (open Classical in decide (natBE bS • G = R + hashNat ((false :: false :: bR) ++ (false :: false :: bA) ++ (wordBits m0 ++ wordBits m1)) • A)))]
  refine exists_congr fun kR => and_congr_right fun hR => ?_
  rw [exists_scalar (C := fun _ bA => ∃ bS, (Oracle.any p Z).unpack 254 s bS ∧
        r = .bool (open Classical in decide (natBE bS • G = R + hashNat ((false :: false :: bitsBE 254 kR) ++ (false :: false :: bA) ++ (wordBits m0 ++ wordBits m1)) • A)))]
  refine exists_congr fun kA => and_congr_right fun hA => ?_
  rw [exists_scalar (C := fun k _ => r = .bool (open Classical in decide (k • G = R + hashNat ((false :: false :: bitsBE 254 kR) ++ (false :: false :: bitsBE 254 kA) ++ (wordBits m0 ++ wordBits m1)) • A))),
    challenge_eq hR.1 hA.1]
  rfl

/-- C62: if the prover only uses the binary representations of field elements, as the interpreter does, then a signature is accepted exactly if the equation holds. -/
theorem C62_verify_canonical (hE : Imports P ecc) (hU : Imports P utils) (hS : Imports P sha) (hG : Imports P signatures) (hc : c.For E) (h8 : c.C = 8) {G : E.Pt} (hu : c.Gu = G.u) (hv : c.Gv = G.v)
    (hO : ∀ n x bl, O.unpack n x bl ↔ ZMod.val x < 2 ^ n ∧ bl = bitsBE n (ZMod.val x)) (hp : p < 2 ^ 254)
    (R A : E.Pt) (hR : 8 • R ≠ 0) (s : ZMod p) {m0 m1 : List Word} (h0 : m0.length = 8) (h1 : m1.length = 8) (r : AVal (ZMod p)) :
    Calls O P verifyEddsa [ptV R, .field s, ptV A, wordsV m0, wordsV m1, c.val] (.ok r) ↔
      r = .bool (open Classical in decide (Verifies G R A s.val (challenge R.u.val A.u.val m0 m1))) := by
  have hlt : ∀ x : ZMod p, x.val < 2 ^ 254 := fun x => lt_trans (ZMod.val_lt x) hp
  rw [ptV, verifyEddsa_spec hE hU hS hG ?_ hc h8 hu hv h0 h1]
  · constructor
    · rintro ⟨R', h2, h3, -, bR, h4, bA, h5, bS, h6, h7⟩
      obtain rfl : R' = R := Edwards.Pt.ext h2 h3
      rw [((hO _ _ _).1 h4).2, ((hO _ _ _).1 h5).2, ((hO _ _ _).1 h6).2, challenge_eq (hlt _) (hlt _), natBE_bitsBE_of_lt (hlt _)] at h7
      exact h7
    · rintro rfl
      refine ⟨R, rfl, rfl, hR, _, (hO _ _ _).2 ⟨hlt _, rfl⟩, _, (hO _ _ _).2 ⟨hlt _, rfl⟩, _, (hO _ _ _).2 ⟨hlt _, rfl⟩, ?_⟩
      rw [challenge_eq (hlt _) (hlt _), natBE_bitsBE_of_lt (hlt _)]
      rfl
  · intro n x bl h
    obtain ⟨h1, rfl⟩ := (hO n x bl).1 h
    exact ⟨length_bitsBE _ _, by rw [natBE_bitsBE_of_lt h1]; exact ZMod.natCast_zmod_val x⟩

/-- C62: soundness: if it returns true, then the equation holds for some representatives. -/
theorem C62_sound (hE : Imports P ecc) (hU : Imports P utils) (hS : Imports P sha) (hG : Imports P signatures) (hc : c.For E) (h8 : c.C = 8) {G : E.Pt} (hu : c.Gu = G.u) (hv : c.Gv = G.v)
    {u v s : ZMod p} {A : E.Pt} {m0 m1 : List Word} (h0 : m0.length = 8) (h1 : m1.length = 8)
    (h : Calls (Oracle.any p Z) P verifyEddsa [fieldsV [u, v], .field s, ptV A, wordsV m0, wordsV m1, c.val] (.ok (.bool true))) :
    ∃ R : E.Pt, R.u = u ∧ R.v = v ∧ 8 • R ≠ 0 ∧ ∃ kR kA k, Scalar u kR ∧ Scalar A.u kA ∧ Scalar s k ∧ Verifies G R A k (challenge kR kA m0 m1) := by
  obtain ⟨R, h2, h3, h4, kR, h5, kA, h6, k, h7, h8⟩ := (C62_verify hE hU hS hG hc h8 hu hv u v s A h0 h1 _).1 h
  refine ⟨R, h2, h3, h4, kR, kA, k, h5, h6, h7, ?_⟩
  simpa using h8

/-- C62: completeness: a signature made with the key `a` (`A = a • G`, `R = r • G` and `s = r + h a` modulo the order of `G`) can be verified. -/
theorem C62_complete (hE : Imports P ecc) (hU : Imports P utils) (hS : Imports P sha) (hG : Imports P signatures) (hc : c.For E) (h8 : c.C = 8) {G : E.Pt} (hu : c.Gu = G.u) (hv : c.Gv = G.v) (hp : p < 2 ^ 254)
    {l : ℕ} (hl : l • G = 0) (a r : ℕ) (hr : 8 • (r • G) ≠ 0) {s : ZMod p} {m0 m1 : List Word} (h0 : m0.length = 8) (h1 : m1.length = 8)
    (hs : s.val % l = (r + challenge (r • G).u.val (a • G).u.val m0 m1 * a) % l) :
    Calls (Oracle.any p Z) P verifyEddsa [ptV (r • G), .field s, ptV (a • G), wordsV m0, wordsV m1, c.val] (.ok (.bool true)) := by
  have hlt : ∀ x : ZMod p, x.val < 2 ^ 254 := fun x => lt_trans (ZMod.val_lt x) hp
  have hmod : ∀ n : ℕ, n • G = (n % l) • G := by
    intro n
    conv_lhs => rw [← Nat.mod_add_div n l, add_smul, mul_comm, mul_smul, hl, smul_zero, add_zero]
  refine (C62_verify hE hU hS hG hc h8 hu hv _ _ s _ h0 h1 _).2 ⟨r • G, rfl, rfl, hr, (r • G).u.val, ⟨hlt _, by simp⟩, (a • G).u.val, ⟨hlt _, by simp⟩, s.val, ⟨hlt _, by simp⟩, ?_⟩
  suffices h : Verifies G (r • G) (a • G) s.val (challenge (r • G).u.val (a • G).u.val m0 m1) by simp [h]
  rw [Verifies, hmod, hs, ← hmod, add_smul, mul_smul]

/-- C62: it fails if `R` is not a point of the curve, or if its order divides the cofactor. -/
theorem C62_reject (hE : Imports P ecc) (hU : Imports P utils) (hS : Imports P sha) (hG : Imports P signatures) (hc : c.For E) (h8 : c.C = 8) {G : E.Pt} (hu : c.Gu = G.u) (hv : c.Gv = G.v)
    {u v s : ZMod p} {A : E.Pt} {m0 m1 : List Word} (h0 : m0.length = 8) (h1 : m1.length = 8) (hR : ∀ R : E.Pt, R.u = u → R.v = v → 8 • R = 0) (r : AVal (ZMod p)) :
    ¬ Calls (Oracle.any p Z) P verifyEddsa [fieldsV [u, v], .field s, ptV A, wordsV m0, wordsV m1, c.val] (.ok r) := by
  rw [C62_verify hE hU hS hG hc h8 hu hv u v s A h0 h1]
  rintro ⟨R, h2, h3, h4, -⟩
  exact h4 (hR R h2 h3)

/-- C62: the result is not unique: if the scalar plus the order of the field is smaller than `2 ^ 254`, then a prover can let the function return false on a signature on which it can also return true. -/
theorem C62_not_unique (hE : Imports P ecc) (hU : Imports P utils) (hS : Imports P sha) (hG : Imports P signatures) (hc : c.For E) (h8 : c.C = 8) {G : E.Pt} (hu : c.Gu = G.u) (hv : c.Gv = G.v)
    {u v s : ZMod p} {A : E.Pt} {m0 m1 : List Word} (h0 : m0.length = 8) (h1 : m1.length = 8) (hlt : s.val + p < 2 ^ 254) (hpG : p • G ≠ 0)
    (h : Calls (Oracle.any p Z) P verifyEddsa [fieldsV [u, v], .field s, ptV A, wordsV m0, wordsV m1, c.val] (.ok (.bool true))) :
    Calls (Oracle.any p Z) P verifyEddsa [fieldsV [u, v], .field s, ptV A, wordsV m0, wordsV m1, c.val] (.ok (.bool false)) := by
  obtain ⟨R, h2, h3, h4, kR, kA, k, h5, h6, h7, hver⟩ := C62_sound hE hU hS hG hc h8 hu hv h0 h1 h
  have s1 : Scalar s s.val := ⟨by omega, by simp⟩
  have s2 : Scalar s (s.val + p) := ⟨hlt, by simp⟩
  have hne : s.val • G ≠ (s.val + p) • G := by
    rw [add_smul]
    intro h
    exact hpG (left_eq_add.1 h)
  obtain ⟨k', hk', hn⟩ : ∃ k', Scalar s k' ∧ k' • G ≠ k • G := by
    by_cases hk : s.val • G = k • G
    · exact ⟨_, s2, fun h => hne (hk.trans h.symm)⟩
    · exact ⟨_, s1, hk⟩
  refine (C62_verify hE hU hS hG hc h8 hu hv u v s A h0 h1 _).2 ⟨R, h2, h3, h4, kR, h5, kA, h6, k', hk', ?_⟩
  have : ¬ Verifies G R A k' (challenge kR kA m0 m1) := fun hv' => hn (hv'.trans hver.symm)
  simp [this]

/-! ### Baby Jubjub -/

/-- C62: with the parameters of the library, the signatures with `s < 2 ^ 250` of a message which can be verified can also be rejected by the prover. -/
theorem C62_not_unique_bn128 {u v s : ZMod Bn128} {A : babyJubJubCurve.Pt} {m0 m1 : List Word} (h0 : m0.length = 8) (h1 : m1.length = 8) (hs : s.val < 2 ^ 250)
    (h : Calls (Oracle.any Bn128 Unit) stdlib verifyEddsa [fieldsV [u, v], .field s, ptV A, wordsV m0, wordsV m1, babyJubJub.val] (.ok (.bool true))) :
    Calls (Oracle.any Bn128 Unit) stdlib verifyEddsa [fieldsV [u, v], .field s, ptV A, wordsV m0, wordsV m1, babyJubJub.val] (.ok (.bool false)) := by
  obtain ⟨h2, h3, h4, h5⟩ := C60_babyJubJub
  refine C62_not_unique imports_ecc imports_stdlib_utils imports_sha imports_signatures h2 h3 h4 h5 h0 h1 (lt_of_lt_of_le (Nat.add_lt_add_right hs _) (by decide +kernel)) babyG_modulus h

/-- A signature of any message by the key 3 with the nonce 5 can be verified. -/
example {m0 m1 : List Word} (h0 : m0.length = 8) (h1 : m1.length = 8) :
    ∃ s, Calls (Oracle.any Bn128 Unit) stdlib verifyEddsa [ptV (5 • babyG), .field s, ptV (3 • babyG), wordsV m0, wordsV m1, babyJubJub.val] (.ok (.bool true)) := by
  obtain ⟨h2, h3, h4, h5⟩ := C60_babyJubJub
  have hr : 8 • (5 • babyG) ≠ 0 := by
    rw [← mul_smul]
    exact Edwards.proj_ne_zero (babyG_smul (k := 8 * 5) (by decide +kernel)) (by decide +kernel)
  refine ⟨_, C62_complete imports_ecc imports_stdlib_utils imports_sha imports_signatures h2 h3 h4 h5 (by decide +kernel) babyG_order 3 5 hr
    (s := (((5 + challenge (5 • babyG).u.val (3 • babyG).u.val m0 m1 * 3) % 2736030358979909402780800718157159386076813972158567259200215660948447373041 : ℕ) : ZMod Bn128)) h0 h1 ?_⟩
  generalize 5 + challenge (5 • babyG).u.val (3 • babyG).u.val m0 m1 * 3 = n
  have hn : n % 2736030358979909402780800718157159386076813972158567259200215660948447373041 < 2736030358979909402780800718157159386076813972158567259200215660948447373041 := Nat.mod_lt _ (by norm_num)
  rw [ZMod.val_natCast_of_lt (lt_trans hn (by decide +kernel)), Nat.mod_mod]

end Zok.Typed.Std
