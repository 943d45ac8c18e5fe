import Verif.Lemmas.PanicStmt
import Verif.Props.EndToEnd

/-
C44: the extraction of panics. `hx z b` is what the pass makes of the hint `z` when `b` are the panics not yet emitted.
-/

set_option linter.unusedSectionVars false

namespace Zok
open Px
variable {p : ℕ} {Z : Type} [Fact p.Prime] {O : Oracle p Z} {hx : Z → List (ZStmt (ZMod p) Z) → Z} {f : ZFun (ZMod p) Z}

/-- **C44** (results). The assertions in front of the statements never change what a function returns: it returns the same
values on the same arguments, and the signature is the same. -/
theorem C44_results (hp : 2 < p) (hO : ∀ z, O.hint (hx z []) = O.hint z) (hf : ZStmt.ExtractableL f.body) :
    (extractPanics hx f).params = f.params ∧ (extractPanics hx f).returnCount = f.returnCount ∧
    ∀ ins outs, Returns O (extractPanics hx f) ins outs ↔ Returns O f ins outs := by
  refine ⟨rfl, rfl, fun ins outs => ?_⟩
  have h := exStmts_same (O := O) hp hO f.body hf
  unfold Returns
  have hi : ∀ vs : List (ZVal p), initState (extractPanics hx f) vs = initState f vs := fun vs => rfl
  simp only [hi, show (extractPanics hx f).params = f.params from rfl, show (extractPanics hx f).body = exStmts hx f.body from rfl]
  constructor
  · rintro ⟨vs, σ, rs, h1, h2, h3⟩
    exact ⟨vs, σ, rs, h1, (h.ok _ _).1 h2, h3⟩
  · rintro ⟨vs, σ, rs, h1, h2, h3⟩
    exact ⟨vs, σ, rs, h1, (h.ok _ _).2 h2, h3⟩

/-- **C44** (failures). The function fails on the same arguments as before. -/
theorem C44_failures (hp : 2 < p) (hO : ∀ z, O.hint (hx z []) = O.hint z) (hf : ZStmt.ExtractableL f.body)
    (ins : List (ZMod p)) : (∃ e, Faults O (extractPanics hx f) ins e) ↔ ∃ e, Faults O f ins e := by
  have h := exStmts_same (O := O) hp hO f.body hf
  unfold Faults
  constructor
  · rintro ⟨e, vs, h1, h2⟩
    obtain ⟨e', h3⟩ := (h.fails _).1 ⟨e, h2⟩
    exact ⟨e', vs, h1, h3⟩
  · rintro ⟨e, vs, h1, h2⟩
    obtain ⟨e', h3⟩ := (h.fails _).2 ⟨e, h2⟩
    exact ⟨e', vs, h1, h3⟩

/-- **C44** (division by zero). After the pass no execution gets as far as dividing a field element by zero: an assertion
before it fails. -/
theorem C44_no_division_by_zero (hp : 2 < p) (hO : ∀ z, O.hint (hx z []) = O.hint z) (hf : ZStmt.ExtractableL f.body)
    (ins : List (ZMod p)) : ¬ Faults O (extractPanics hx f) ins .divZero := by
  rintro ⟨vs, h1, h2⟩
  exact (exStmts_same (O := O) hp hO f.body hf).noDiv _ h2

/-- **C44** (comparisons). When both assertions in front of a comparison `l < r` of two non-constants hold, the operands have
values `x` and `y` with `0 < 2^(bits-2) + x - y < 2^(bits-1)`, that is `|x - y| < 2^(bits-2)`. -/
theorem C44_comparison_guards (hp : 2 < p) {σ : ZState p} {l r : FExpr (ZMod p)} (hl : isValueF l = false) (hr : isValueF r = false) :
    (∃ gs, (exB (.fieldLt l r) ([] : Buf p Z)).2 = gs ++ [ltGuardMax l r, ltGuardMin l r]) ∧
    (Exec O σ (ltGuardMax l r) (.ok σ) → Exec O σ (ltGuardMin l r) (.ok σ) →
      ∃ x y, evalF σ.env l = .ok x ∧ evalF σ.env r = .ok y ∧
        0 < (2 ^ (Fld.requiredBits p - 2) + (x - y) : ZMod p).val ∧
        (2 ^ (Fld.requiredBits p - 2) + (x - y) : ZMod p).val < 2 ^ (Fld.requiredBits p - 1)) := by
  constructor
  · refine ⟨gF Z l ++ gF Z r, ?_⟩
    have := gB_lt (Z := Z) l r
    rw [hl, hr] at this
    simpa [gB] using this
  · intro h1 h2
    obtain ⟨x, y, h3, h4, h5, h6⟩ := lt_guards_mean h1 h2
    have hb : Fld.requiredBits p - 2 + 1 = Fld.requiredBits p - 1 := by
      have := Fld.requiredBits_ge_two (p := p)
      omega
    have hm : (ltMax p).val = 2 ^ (Fld.requiredBits p - 1) := by
      have h7 : ltMax p = ((2 ^ (Fld.requiredBits p - 1) : ℕ) : ZMod p) := by rw [ltMax, hb]; push_cast; rfl
      rw [h7, ZMod.val_cast_of_lt (Fld.two_pow_lt (by omega))]
    refine ⟨x, y, h3, h4, ?_, ?_⟩
    · rw [Nat.pos_iff_ne_zero, Ne, ZMod.val_eq_zero]
      intro h
      apply h6
      have : (2 : ZMod p) ^ (Fld.requiredBits p - 2) = y - x := by linear_combination h
      rw [ltOffset, this]
    · rw [← hm]; exact h5

end Zok
