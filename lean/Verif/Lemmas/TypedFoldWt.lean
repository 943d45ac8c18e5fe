import Verif.Lemmas.TypedFoldData

/-
Constant propagation on typed programs: folding an operator keeps its type, and adds no variables.
-/

set_option linter.unusedSectionVars false
set_option linter.unusedSimpArgs false

namespace Zok.Typed
open Abi
variable {p : ℕ} [Fact p.Prime]

/-- `e` is well-typed, of type `t`, with variables among `vs`. -/
def Typ (e : TExpr (ZMod p)) (t : CType) (vs : List TId) : Prop := e.ty = t ∧ e.Wt ∧ ∀ y ∈ e.vars, y ∈ vs

theorem Typ.mono {e : TExpr (ZMod p)} {t : CType} {vs vs' : List TId} (h : Typ e t vs) (hs : ∀ y ∈ vs, y ∈ vs') : Typ e t vs' := ⟨h.1, h.2.1, fun y hy => hs y (h.2.2 y hy)⟩
theorem typ_fval {n : ZMod p} {vs : List TId} : Typ (.fval n) .field vs := ⟨rfl, trivial, by simp [TExpr.vars]⟩
theorem typ_bval {n : Bool} {vs : List TId} : Typ (p := p) (.bval n) .bool vs := ⟨rfl, trivial, by simp [TExpr.vars]⟩
theorem typ_uval {w : UW} {n : ℕ} {vs : List TId} (h : n < 2 ^ w.bits) : Typ (p := p) (.uval w n) (.uint w) vs := ⟨rfl, h, by simp [TExpr.vars]⟩
theorem Typ.left {e : TExpr (ZMod p)} {t : CType} {a b : List TId} (h : Typ e t a) : Typ e t (a ++ b) := h.mono fun y hy => List.mem_append_left _ hy
theorem Typ.right {e : TExpr (ZMod p)} {t : CType} {a b : List TId} (h : Typ e t b) : Typ e t (a ++ b) := h.mono fun y hy => List.mem_append_right _ hy

variable {l r e : TExpr (ZMod p)} {a b : List TId}

theorem typ_sub (h1 : ∀ y ∈ l.vars, y ∈ a) (h2 : ∀ y ∈ r.vars, y ∈ b) : ∀ y ∈ l.vars ++ r.vars, y ∈ a ++ b := by
  intro y hy
  rcases List.mem_append.1 hy with h | h
  · exact List.mem_append_left _ (h1 y h)
  · exact List.mem_append_right _ (h2 y h)

theorem ofNat_typed {n : ℕ} (h : ofNat? n = .ok e) {vs : List TId} : Typ e .field vs := by
  unfold ofNat? at h
  split at h
  · cases h; exact typ_fval
  · cases h

theorem foldF_typed {op : FOp} (hl : Typ l .field a) (hr : Typ r .field b) (h : foldF op l r = .ok e) : Typ e .field (a ++ b) := by
  have hn : ∀ op, Typ (.fbin op l r) .field (a ++ b) := fun op => ⟨rfl, ⟨hl.1, hr.1, hl.2.1, hr.2.1⟩, by simp only [TExpr.vars]; exact typ_sub hl.2.2 hr.2.2⟩
  cases op <;> simp only [foldF] at h <;> repeat' split at h
  all_goals first
    | (cases h; done)
    | (cases h; first | exact typ_fval | exact hn _ | exact hl.left | exact hr.right)
    | exact ofNat_typed h

theorem foldFU_typed {op : FUOp} (hl : Typ l .field a) (hr : Typ r (.uint .b32) b) (h : foldFU op l r = .ok e) : Typ e .field (a ++ b) := by
  have hn : ∀ op, Typ (.fubin op l r) .field (a ++ b) := fun op => ⟨rfl, ⟨hl.1, hr.1, hl.2.1, hr.2.1⟩, by simp only [TExpr.vars]; exact typ_sub hl.2.2 hr.2.2⟩
  cases op <;> simp only [foldFU] at h <;> repeat' split at h
  all_goals first
    | (cases h; done)
    | (cases h; first | exact typ_fval | exact hn _ | exact hl.left | exact hr.right)
    | exact ofNat_typed h

theorem foldFneg_typed (h : Typ l .field a) : Typ (foldFneg l) .field a := by
  unfold foldFneg
  split
  · exact typ_fval
  · exact ⟨rfl, ⟨h.1, h.2.1⟩, by simp only [TExpr.vars]; exact h.2.2⟩
theorem foldFpos_typed (h : Typ l .field a) : Typ (foldFpos l) .field a := by
  unfold foldFpos
  split
  · exact typ_fval
  · exact ⟨rfl, ⟨h.1, h.2.1⟩, by simp only [TExpr.vars]; exact h.2.2⟩

theorem lit_lt {w : UW} {n : ℕ} (h : Typ l (.uint w) a) (hn : l.litU = some n) : n < 2 ^ w.bits := by
  obtain ⟨w', rfl⟩ := litU_some hn
  have := h.1
  simp only [TExpr.ty, CType.uint.injEq] at this
  subst this
  exact h.2.1

theorem foldU_typed {w : UW} {op : UOp} (hl : Typ l (.uint w) a) (hr : Typ r (.uint (op.rightWidth w)) b) (h : foldU w op l r = .ok e) : Typ e (.uint w) (a ++ b) := by
  have h0 : 0 < 2 ^ w.bits := by positivity
  have hn : Typ (.ubin w op l r) (.uint w) (a ++ b) := ⟨rfl, ⟨hl.1, hr.1, hl.2.1, hr.2.1⟩, by simp only [TExpr.vars]; exact typ_sub hl.2.2 hr.2.2⟩
  have hlt : ∀ {v}, op.rightWidth w = w → r.litU = some v → Typ (.ubin w op l (.uval w v)) (.uint w) (a ++ b) := fun {v} ho hv =>
    ⟨rfl, ⟨hl.1, by rw [ho]; rfl, hl.2.1, lit_lt (by rw [ho] at hr; exact hr) hv⟩, by
      simp only [TExpr.vars, List.append_nil]; exact fun y hy => List.mem_append_left _ (hl.2.2 y hy)⟩
  have hlr : ∀ {v}, op.rightWidth w = w → l.litU = some v → Typ (.ubin w op r (.uval w v)) (.uint w) (a ++ b) := fun {v} ho hv =>
    ⟨rfl, ⟨by rw [ho] at hr; exact hr.1, by rw [ho]; rfl, hr.2.1, lit_lt hl hv⟩, by
      simp only [TExpr.vars, List.append_nil]; exact fun y hy => List.mem_append_right _ (hr.2.2 y hy)⟩
  have hr' : op.rightWidth w = w → Typ r (.uint w) (a ++ b) := fun ho => by rw [ho] at hr; exact hr.right
  cases op <;> simp only [foldU] at h <;> cases h1 : l.litU <;> cases h2 : r.litU <;> (try simp only [h1, h2] at h) <;> (repeat' split at h)
  all_goals first
    | (cases h; done)
    | (cases h; exact hn)
    | (cases h; exact hl.left)
    | (cases h; exact hr' rfl)
    | (cases h; exact hlt rfl h2)
    | (cases h; exact hlr rfl h1)
    | (cases h; exact typ_uval h0)
    | (cases h; exact typ_uval (Nat.mod_lt _ h0))
    | (cases h; exact typ_uval (lt_of_le_of_lt (Nat.div_le_self _ _) (lit_lt hl h1)))
    | (cases h; exact typ_uval (lt_of_le_of_lt Nat.and_le_left (lit_lt hl h1)))
    | (cases h; rw [land_mask]; exact typ_uval (Nat.mod_lt _ h0))
    | (cases h; exact typ_uval (Nat.xor_lt_two_pow (lit_lt hl h1) (lit_lt hr h2)))

theorem foldUnot_typed {w : UW} (h : Typ l (.uint w) a) : Typ (foldUnot w l) (.uint w) a := by
  unfold foldUnot
  split
  · rw [land_mask]; exact typ_uval (Nat.mod_lt _ (by positivity))
  · exact ⟨rfl, ⟨h.1, h.2.1⟩, by simp only [TExpr.vars]; exact h.2.2⟩
theorem foldUneg_typed {w : UW} (h : Typ l (.uint w) a) : Typ (foldUneg w l) (.uint w) a := by
  unfold foldUneg
  split
  · exact typ_uval (Nat.mod_lt _ (by positivity))
  · exact ⟨rfl, ⟨h.1, h.2.1⟩, by simp only [TExpr.vars]; exact h.2.2⟩
theorem foldUpos_typed {w : UW} (h : Typ l (.uint w) a) : Typ (foldUpos w l) (.uint w) a := by
  unfold foldUpos
  split
  · rename_i hn; exact typ_uval (lit_lt h hn)
  · exact ⟨rfl, ⟨h.1, h.2.1⟩, by simp only [TExpr.vars]; exact h.2.2⟩

theorem foldB_typed {op : BOp} (hl : Typ l .bool a) (hr : Typ r .bool b) : Typ (foldB op l r) .bool (a ++ b) := by
  have hn : ∀ op, Typ (.bbin op l r) .bool (a ++ b) := fun op => ⟨rfl, ⟨hl.1, hr.1, hl.2.1, hr.2.1⟩, by simp only [TExpr.vars]; exact typ_sub hl.2.2 hr.2.2⟩
  cases op <;> simp only [foldB] <;> repeat' split
  all_goals first | exact typ_bval | exact hn _ | exact hl.left | exact hr.right

theorem foldNot_typed (h : Typ l .bool a) : Typ (foldNot l) .bool a := by
  unfold foldNot
  split
  · exact typ_bval
  · exact ⟨rfl, ⟨h.1, h.2.1⟩, by simp only [TExpr.vars]; exact h.2.2⟩

theorem foldFcmp_typed {op : COp} (hl : Typ l .field a) (hr : Typ r .field b) : Typ (foldFcmp op l r) .bool (a ++ b) := by
  unfold foldFcmp
  split
  · exact typ_bval
  · exact ⟨rfl, ⟨hl.1, hr.1, hl.2.1, hr.2.1⟩, by simp only [TExpr.vars]; exact typ_sub hl.2.2 hr.2.2⟩
theorem foldUcmp_typed {op : COp} {w : UW} (hl : Typ l (.uint w) a) (hr : Typ r (.uint w) b) : Typ (foldUcmp op l r) .bool (a ++ b) := by
  unfold foldUcmp
  split
  · exact typ_bval
  · exact ⟨rfl, ⟨⟨w, hl.1, hr.1⟩, hl.2.1, hr.2.1⟩, by simp only [TExpr.vars]; exact typ_sub hl.2.2 hr.2.2⟩

theorem foldEq_typed {t : CType} (ht : TypeOk t) (hl : Typ l t a) (hr : Typ r t b) (h : foldEq l r = .ok e) : Typ e .bool (a ++ b) := by
  unfold foldEq at h
  split at h
  · cases h
  · split at h
    · cases h; exact typ_bval
    · split at h
      · obtain ⟨_, _, h⟩ := pbind_ok h
        obtain ⟨_, _, h⟩ := pbind_ok h
        cases h; exact typ_bval
      · cases h
        exact ⟨rfl, ⟨by rw [hl.1, hr.1], by rw [hl.1]; exact ht, hl.2.1, hr.2.1⟩, by simp only [TExpr.vars]; exact typ_sub hl.2.2 hr.2.2⟩

theorem foldCond_typed {t : CType} {c : TExpr (ZMod p)} {vc : List TId} (hc : Typ c .bool vc) (hl : Typ l t a) (hr : Typ r t b) : Typ (foldCond t c l r) t (vc ++ a ++ b) := by
  unfold foldCond
  split
  · exact hl.right.left
  · refine ⟨rfl, ⟨hc.1, hl.1, hr.1, hc.2.1, hl.2.1, hr.2.1⟩, fun y hy => ?_⟩
    simp only [TExpr.vars, List.mem_append] at hy ⊢
    exact hy.imp (fun h => h.imp (hc.2.2 y) (hl.2.2 y)) (hr.2.2 y)

end Zok.Typed
