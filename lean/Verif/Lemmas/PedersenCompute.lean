import Verif.Model.StdPedersen
import Verif.Spec.Pedersen

/-
The tables of `hashes/pedersen/512bitBool` hold the multiples 1, ..., 4 of the base points times powers of 16.
-/

namespace Zok.Typed.Std
open Edwards Pedersen

/-- The addition on Baby Jubjub. -/
def pjAdd (P Q : ℕ × ℕ × ℕ) : ℕ × ℕ × ℕ := projAdd Bn128 168700 168696 P Q

/-- `x` and `y` are the coordinates of the point. -/
def pjIs (P : ℕ × ℕ × ℕ) (x y : ℕ) : Bool := P.1 % Bn128 == x * P.2.2 % Bn128 && P.2.1 % Bn128 == y * P.2.2 % Bn128

/-- The check of a round: the entries are multiples of the first one, and 16 times the first one is the first entry of the next round. -/
def pedCheck (k : ℕ) : Bool :=
  let t := pedTable.getD k ([], [])
  let P1 := (t.1.getD 0 0, t.2.getD 0 0, 1)
  let P2 := pjAdd P1 P1
  let P3 := pjAdd P2 P1
  let P4 := pjAdd P2 P2
  let P8 := pjAdd P4 P4
  let t' := pedTable.getD (k + 1) ([], [])
  t.1.length == 4 && t.2.length == 4 && pjIs P2 (t.1.getD 1 0) (t.2.getD 1 0) && pjIs P3 (t.1.getD 2 0) (t.2.getD 2 0) && pjIs P4 (t.1.getD 3 0) (t.2.getD 3 0) &&
    (k % 62 == 61 || k == 170 || pjIs (pjAdd P8 P8) (t'.1.getD 0 0) (t'.2.getD 0 0))

set_option maxRecDepth 100000 in
theorem pedCheck_all : (List.range 171).all pedCheck = true := by decide +kernel

theorem pjAdd_proj {P Q : ℕ × ℕ × ℕ} {R S : babyJubJubCurve.Pt} (h1 : Proj P R) (h2 : Proj Q S) : Proj (pjAdd P Q) (R + S) :=
  proj_add (by simp [babyJubJubCurve]) (by simp [babyJubJubCurve]) h1 h2

/-- The point has the coordinates `x` and `y`. -/
def At (R : babyJubJubCurve.Pt) (x y : ℕ) : Prop := R.u = (x : ZMod Bn128) ∧ R.v = (y : ZMod Bn128)

theorem at_proj {R : babyJubJubCurve.Pt} {x y : ℕ} (h : At R x y) : Proj (x, y, 1) R := by
  simp [Proj, h.1, h.2]

theorem proj_at {P : ℕ × ℕ × ℕ} {R : babyJubJubCurve.Pt} {x y : ℕ} (h : Proj P R) (h' : pjIs P x y = true) : At R x y := by
  simp only [pjIs, Bool.and_eq_true, beq_iff_eq] at h'
  obtain ⟨h1, h2, h3⟩ := h
  constructor
  · refine mul_right_cancel₀ h1 ?_
    rw [h2, ← Nat.cast_mul, ZMod.natCast_eq_natCast_iff]
    exact h'.1
  · refine mul_right_cancel₀ h1 ?_
    rw [h3, ← Nat.cast_mul, ZMod.natCast_eq_natCast_iff]
    exact h'.2

/-- The tables of a round. -/
def tabX (k : ℕ) : List ℕ := (pedTable.getD k ([], [])).1
def tabY (k : ℕ) : List ℕ := (pedTable.getD k ([], [])).2

theorem pedCheck_spec {k : ℕ} (hk : k < 171) {R : babyJubJubCurve.Pt} (h : At R ((tabX k).getD 0 0) ((tabY k).getD 0 0)) :
    (tabX k).length = 4 ∧ (tabY k).length = 4 ∧ (∀ j < 4, At ((j + 1) • R) ((tabX k).getD j 0) ((tabY k).getD j 0)) ∧
      (k % 62 = 61 ∨ k = 170 ∨ At (16 • R) ((tabX (k + 1)).getD 0 0) ((tabY (k + 1)).getD 0 0)) := by
  have hc := List.all_eq_true.1 pedCheck_all k (List.mem_range.2 hk)
  simp only [pedCheck, Bool.and_eq_true, beq_iff_eq, Bool.or_eq_true] at hc
  obtain ⟨⟨⟨⟨⟨h1, h2⟩, h3⟩, h4⟩, h5⟩, h6⟩ := hc
  have p1 := at_proj h
  have p2 := pjAdd_proj p1 p1
  have p3 := pjAdd_proj p2 p1
  have p4 := pjAdd_proj p2 p2
  have p8 := pjAdd_proj p4 p4
  have p16 := pjAdd_proj p8 p8
  refine ⟨h1, h2, ?_, ?_⟩
  · have e2 := proj_at p2 h3
    have e3 := proj_at p3 h4
    have e4 := proj_at p4 h5
    intro j hj
    match j, hj with
    | 0, _ => simpa using h
    | 1, _ => rwa [show R + R = (1 + 1) • R by abel] at e2
    | 2, _ => rwa [show R + R + R = (2 + 1) • R by abel] at e3
    | 3, _ => rwa [show R + R + (R + R) = (3 + 1) • R by abel] at e4
  · rcases h6 with (h6 | h6) | h6
    · exact .inl h6
    · exact .inr (.inl h6)
    · have := proj_at p16 h6
      rw [show R + R + (R + R) + (R + R + (R + R)) + (R + R + (R + R) + (R + R + (R + R))) = 16 • R by abel] at this
      exact .inr (.inr this)

theorem base_at (s : ℕ) (hs : s < 3) : At (base s) ((tabX (62 * s)).getD 0 0) ((tabY (62 * s)).getD 0 0) := by
  have : ∀ s < 3, (tabX (62 * s)).getD 0 0 = [13418723823902222986275588345615650707197303761863176429873001977640541977977, 11749872627669176692285695179399857264465143297451429569602068921530882657945, 11201877561392804928547433284377926158320532448010089457664943460838007583898].getD s 0 ∧
    (tabY (62 * s)).getD 0 0 = [15255921313433251341520743036334816584226787412845488772781699434149539664639, 2495745987765795949478491016197984302943511277003077751830848242972604164102, 17554707027223374526818340909253875671094356182527312776837442099008513816809].getD s 0 := by decide +kernel
  rw [(this s hs).1, (this s hs).2]
  match s, hs with
  | 0, _ => exact ⟨rfl, rfl⟩
  | 1, _ => exact ⟨rfl, rfl⟩
  | 2, _ => exact ⟨rfl, rfl⟩

/-- The base point of a round. -/
def gen (k : ℕ) : babyJubJubCurve.Pt := 16 ^ (k % 62) • base (k / 62)

theorem gen_at {k : ℕ} (hk : k < 171) : At (gen k) ((tabX k).getD 0 0) ((tabY k).getD 0 0) := by
  have : ∀ i, i < 62 → ∀ s, s < 3 → 62 * s + i < 171 → At (16 ^ i • base s) ((tabX (62 * s + i)).getD 0 0) ((tabY (62 * s + i)).getD 0 0) := by
    intro i
    induction i with
    | zero =>
      intro _ s hs _
      simpa using base_at s hs
    | succ i ih =>
      intro h1 s hs h2
      have := (pedCheck_spec (k := 62 * s + i) (by omega) (ih (by omega) s hs (by omega))).2.2.2
      rcases this with h | h | h
      · omega
      · omega
      · rwa [smul_smul, ← pow_succ'] at h
  have := this (k % 62) (Nat.mod_lt _ (by omega)) (k / 62) (by omega) (by omega)
  rwa [Nat.div_add_mod] at this

theorem tab_len {k : ℕ} (hk : k < 171) : (tabX k).length = 4 ∧ (tabY k).length = 4 := by
  have := pedCheck_spec hk (gen_at hk)
  exact ⟨this.1, this.2.1⟩

theorem tab_at {k j : ℕ} (hk : k < 171) (hj : j < 4) : At ((j + 1) • gen k) ((tabX k).getD j 0) ((tabY k).getD j 0) :=
  (pedCheck_spec hk (gen_at hk)).2.2.1 j hj

end Zok.Typed.Std
