import Verif.Model.PanicExtractor
import Verif.Spec.ZirExec

/-
Lemmas on the extraction of panics: the fold returns the expression unchanged and appends to the buffer.
-/

set_option linter.unusedSectionVars false
set_option linter.unusedSimpArgs false
set_option linter.unusedVariables false

namespace Zok.Px
variable {p : ℕ} {Z : Type} [Fact p.Prime]

theorem condGuard_append (c : BExpr (ZMod p)) (pt pe b : Buf p Z) : condGuard c pt pe b = b ++ condGuard c pt pe [] := by
  unfold condGuard
  split <;> simp

mutual
theorem exF_eq : ∀ (e : FExpr (ZMod p)) (b : Buf p Z), exF e b = (e, b ++ (exF e ([] : Buf p Z)).2)
  | .value _, b => by simp [exF]
  | .ident _, b => by simp [exF]
  | .select es i, b => by
    simp only [exF]
    rw [exFs_eq es b, exU_eq i, exU_eq i (exFs es ([] : Buf p Z)).2, exFs_eq es ([] : Buf p Z)]
    simp [List.append_assoc]
  | .add l r, b => by
    simp only [exF]
    rw [exF_eq l b, exF_eq r, exF_eq r (exF l ([] : Buf p Z)).2, exF_eq l ([] : Buf p Z)]
    simp [List.append_assoc]
  | .sub l r, b => by
    simp only [exF]
    rw [exF_eq l b, exF_eq r, exF_eq r (exF l ([] : Buf p Z)).2, exF_eq l ([] : Buf p Z)]
    simp [List.append_assoc]
  | .mult l r, b => by
    simp only [exF]
    rw [exF_eq l b, exF_eq r, exF_eq r (exF l ([] : Buf p Z)).2, exF_eq l ([] : Buf p Z)]
    simp [List.append_assoc]
  | .div l r, b => by
    simp only [exF]
    rw [exF_eq l b, exF_eq r, exF_eq r (exF l ([] : Buf p Z)).2, exF_eq l ([] : Buf p Z)]
    simp [List.append_assoc]
  | .pow l r, b => by
    simp only [exF]
    rw [exF_eq l b, exU_eq r, exU_eq r (exF l ([] : Buf p Z)).2, exF_eq l ([] : Buf p Z)]
    simp [List.append_assoc]
  | .and l r, b => by
    simp only [exF]
    rw [exF_eq l b, exF_eq r, exF_eq r (exF l ([] : Buf p Z)).2, exF_eq l ([] : Buf p Z)]
    simp [List.append_assoc]
  | .or l r, b => by
    simp only [exF]
    rw [exF_eq l b, exF_eq r, exF_eq r (exF l ([] : Buf p Z)).2, exF_eq l ([] : Buf p Z)]
    simp [List.append_assoc]
  | .xor l r, b => by
    simp only [exF]
    rw [exF_eq l b, exF_eq r, exF_eq r (exF l ([] : Buf p Z)).2, exF_eq l ([] : Buf p Z)]
    simp [List.append_assoc]
  | .leftShift l r, b => by
    simp only [exF]
    rw [exF_eq l b, exU_eq r, exU_eq r (exF l ([] : Buf p Z)).2, exF_eq l ([] : Buf p Z)]
    simp [List.append_assoc]
  | .rightShift l r, b => by
    simp only [exF]
    rw [exF_eq l b, exU_eq r, exU_eq r (exF l ([] : Buf p Z)).2, exF_eq l ([] : Buf p Z)]
    simp [List.append_assoc]
  | .cond c t e, b => by
    simp only [exF]
    rw [exB_eq c b, exF_eq t ([] : Buf p Z), exF_eq e ([] : Buf p Z), exB_eq c ([] : Buf p Z), condGuard_append _ _ _ (b ++ _),
      condGuard_append _ _ _ ([] ++ _)]
    simp [List.append_assoc]
theorem exFs_eq : ∀ (es : List (FExpr (ZMod p))) (b : Buf p Z), exFs es b = (es, b ++ (exFs es ([] : Buf p Z)).2)
  | [], b => by simp [exFs]
  | e :: es, b => by
    simp only [exFs]
    rw [exF_eq e b, exFs_eq es, exFs_eq es (exF e ([] : Buf p Z)).2, exF_eq e ([] : Buf p Z)]
    simp [List.append_assoc]
theorem exB_eq : ∀ (e : BExpr (ZMod p)) (b : Buf p Z), exB e b = (e, b ++ (exB e ([] : Buf p Z)).2)
  | .value _, b => by simp [exB]
  | .ident _, b => by simp [exB]
  | .select es i, b => by
    simp only [exB]
    rw [exBs_eq es b, exU_eq i, exU_eq i (exBs es ([] : Buf p Z)).2, exBs_eq es ([] : Buf p Z)]
    simp [List.append_assoc]
  | .fieldLe l r, b => by
    simp only [exB]
    rw [exF_eq l b, exF_eq r, exF_eq r (exF l ([] : Buf p Z)).2, exF_eq l ([] : Buf p Z)]
    simp [List.append_assoc]
  | .fieldEq l r, b => by
    simp only [exB]
    rw [exF_eq l b, exF_eq r, exF_eq r (exF l ([] : Buf p Z)).2, exF_eq l ([] : Buf p Z)]
    simp [List.append_assoc]
  | .uintLt l r, b => by
    simp only [exB]
    rw [exU_eq l b, exU_eq r, exU_eq r (exU l ([] : Buf p Z)).2, exU_eq l ([] : Buf p Z)]
    simp [List.append_assoc]
  | .uintLe l r, b => by
    simp only [exB]
    rw [exU_eq l b, exU_eq r, exU_eq r (exU l ([] : Buf p Z)).2, exU_eq l ([] : Buf p Z)]
    simp [List.append_assoc]
  | .uintEq l r, b => by
    simp only [exB]
    rw [exU_eq l b, exU_eq r, exU_eq r (exU l ([] : Buf p Z)).2, exU_eq l ([] : Buf p Z)]
    simp [List.append_assoc]
  | .boolEq l r, b => by
    simp only [exB]
    rw [exB_eq l b, exB_eq r, exB_eq r (exB l ([] : Buf p Z)).2, exB_eq l ([] : Buf p Z)]
    simp [List.append_assoc]
  | .or l r, b => by
    simp only [exB]
    rw [exB_eq l b, exB_eq r, exB_eq r (exB l ([] : Buf p Z)).2, exB_eq l ([] : Buf p Z)]
    simp [List.append_assoc]
  | .and l r, b => by
    simp only [exB]
    rw [exB_eq l b, exB_eq r, exB_eq r (exB l ([] : Buf p Z)).2, exB_eq l ([] : Buf p Z)]
    simp [List.append_assoc]
  | .fieldLt l r, b => by
    simp only [exB]
    split
    all_goals
      rw [exF_eq l b, exF_eq r, exF_eq r (exF l ([] : Buf p Z)).2, exF_eq l ([] : Buf p Z)]
      simp [List.append_assoc]
  | .not e, b => by
    simp only [exB]
    rw [exB_eq e b]
  | .cond c t e, b => by
    simp only [exB]
    rw [exB_eq c b, exB_eq t ([] : Buf p Z), exB_eq e ([] : Buf p Z), exB_eq c ([] : Buf p Z), condGuard_append _ _ _ (b ++ _),
      condGuard_append _ _ _ ([] ++ _)]
    simp [List.append_assoc]
theorem exBs_eq : ∀ (es : List (BExpr (ZMod p))) (b : Buf p Z), exBs es b = (es, b ++ (exBs es ([] : Buf p Z)).2)
  | [], b => by simp [exBs]
  | e :: es, b => by
    simp only [exBs]
    rw [exB_eq e b, exBs_eq es, exBs_eq es (exB e ([] : Buf p Z)).2, exB_eq e ([] : Buf p Z)]
    simp [List.append_assoc]
theorem exU_eq : ∀ (e : UExpr (ZMod p)) (b : Buf p Z), exU e b = (e, b ++ (exU e ([] : Buf p Z)).2)
  | .mk w m i, b => by
    simp only [exU]
    rw [exUI_eq w i b]
theorem exUs_eq : ∀ (es : List (UExpr (ZMod p))) (b : Buf p Z), exUs es b = (es, b ++ (exUs es ([] : Buf p Z)).2)
  | [], b => by simp [exUs]
  | e :: es, b => by
    simp only [exUs]
    rw [exU_eq e b, exUs_eq es, exUs_eq es (exU e ([] : Buf p Z)).2, exU_eq e ([] : Buf p Z)]
    simp [List.append_assoc]
theorem exUI_eq (w : ℕ) : ∀ (e : UInner (ZMod p)) (b : Buf p Z), exUI w e b = (e, b ++ (exUI w e ([] : Buf p Z)).2)
  | .value _, b => by simp [exUI]
  | .ident _, b => by simp [exUI]
  | .select es i, b => by
    simp only [exUI]
    rw [exUs_eq es b, exU_eq i, exU_eq i (exUs es ([] : Buf p Z)).2, exUs_eq es ([] : Buf p Z)]
    simp [List.append_assoc]
  | .add l r, b => by
    simp only [exUI]
    rw [exU_eq l b, exU_eq r, exU_eq r (exU l ([] : Buf p Z)).2, exU_eq l ([] : Buf p Z)]
    simp [List.append_assoc]
  | .sub l r, b => by
    simp only [exUI]
    rw [exU_eq l b, exU_eq r, exU_eq r (exU l ([] : Buf p Z)).2, exU_eq l ([] : Buf p Z)]
    simp [List.append_assoc]
  | .mult l r, b => by
    simp only [exUI]
    rw [exU_eq l b, exU_eq r, exU_eq r (exU l ([] : Buf p Z)).2, exU_eq l ([] : Buf p Z)]
    simp [List.append_assoc]
  | .div l r, b => by
    simp only [exUI]
    rw [exU_eq l b, exU_eq r, exU_eq r (exU l ([] : Buf p Z)).2, exU_eq l ([] : Buf p Z)]
    simp [List.append_assoc]
  | .rem l r, b => by
    simp only [exUI]
    rw [exU_eq l b, exU_eq r, exU_eq r (exU l ([] : Buf p Z)).2, exU_eq l ([] : Buf p Z)]
    simp [List.append_assoc]
  | .xor l r, b => by
    simp only [exUI]
    rw [exU_eq l b, exU_eq r, exU_eq r (exU l ([] : Buf p Z)).2, exU_eq l ([] : Buf p Z)]
    simp [List.append_assoc]
  | .and l r, b => by
    simp only [exUI]
    rw [exU_eq l b, exU_eq r, exU_eq r (exU l ([] : Buf p Z)).2, exU_eq l ([] : Buf p Z)]
    simp [List.append_assoc]
  | .or l r, b => by
    simp only [exUI]
    rw [exU_eq l b, exU_eq r, exU_eq r (exU l ([] : Buf p Z)).2, exU_eq l ([] : Buf p Z)]
    simp [List.append_assoc]
  | .leftShift l r, b => by
    simp only [exUI]
    rw [exU_eq l b, exU_eq r, exU_eq r (exU l ([] : Buf p Z)).2, exU_eq l ([] : Buf p Z)]
    simp [List.append_assoc]
  | .rightShift l r, b => by
    simp only [exUI]
    rw [exU_eq l b, exU_eq r, exU_eq r (exU l ([] : Buf p Z)).2, exU_eq l ([] : Buf p Z)]
    simp [List.append_assoc]
  | .not e, b => by
    simp only [exUI]
    rw [exU_eq e b]
  | .cond c t e, b => by
    simp only [exUI]
    rw [exB_eq c b, exU_eq t ([] : Buf p Z), exU_eq e ([] : Buf p Z), exB_eq c ([] : Buf p Z), condGuard_append _ _ _ (b ++ _),
      condGuard_append _ _ _ ([] ++ _)]
    simp [List.append_assoc]
end

theorem exZ_eq (e : ZExpr (ZMod p)) (b : Buf p Z) : exZ e b = (e, b ++ (exZ e ([] : Buf p Z)).2) := by
  cases e with
  | field e => simp only [exZ]; rw [exF_eq e b]
  | bool e => simp only [exZ]; rw [exB_eq e b]
  | uint e => simp only [exZ]; rw [exU_eq e b]

theorem exZs_eq (es : List (ZExpr (ZMod p))) (b : Buf p Z) : exZs es b = (es, b ++ (exZs es ([] : Buf p Z)).2) := by
  induction es generalizing b with
  | nil => simp [exZs]
  | cons e es ih =>
    simp only [exZs]
    rw [exZ_eq e b, ih, ih (exZ e ([] : Buf p Z)).2]
    simp [List.append_assoc]

theorem exZss_eq (es : List (List (ZExpr (ZMod p)))) (b : Buf p Z) :
    exZss es b = (es, b ++ (exZs es.flatten ([] : Buf p Z)).2) := by
  induction es generalizing b with
  | nil => simp [exZss, exZs]
  | cons e es ih =>
    have key : ∀ (l m : List (ZExpr (ZMod p))) (b : Buf p Z),
        (exZs (l ++ m) b).2 = (exZs m (exZs l b).2).2 := by
      intro l
      induction l with
      | nil => intro m b; simp [exZs]
      | cons x l ihl => intro m b; simp only [List.cons_append, exZs]; exact ihl m _
    simp only [exZss, List.flatten_cons, key]
    rw [exZs_eq e b, ih, exZs_eq es.flatten (exZs e ([] : Buf p Z)).2]
    simp [List.append_assoc]

/-- The guards of an expression. -/
def gF (Z : Type) (e : FExpr (ZMod p)) : Buf p Z := (exF e ([] : Buf p Z)).2
def gFs (Z : Type) (e : List (FExpr (ZMod p))) : Buf p Z := (exFs e ([] : Buf p Z)).2
def gB (Z : Type) (e : BExpr (ZMod p)) : Buf p Z := (exB e ([] : Buf p Z)).2
def gBs (Z : Type) (e : List (BExpr (ZMod p))) : Buf p Z := (exBs e ([] : Buf p Z)).2
def gU (Z : Type) (e : UExpr (ZMod p)) : Buf p Z := (exU e ([] : Buf p Z)).2
def gUs (Z : Type) (e : List (UExpr (ZMod p))) : Buf p Z := (exUs e ([] : Buf p Z)).2
def gUI (Z : Type) (w : ℕ) (e : UInner (ZMod p)) : Buf p Z := (exUI w e ([] : Buf p Z)).2
def gZ (Z : Type) (e : ZExpr (ZMod p)) : Buf p Z := (exZ e ([] : Buf p Z)).2
def gZs (Z : Type) (e : List (ZExpr (ZMod p))) : Buf p Z := (exZs e ([] : Buf p Z)).2

theorem gF_select (es : List (FExpr (ZMod p))) (i : UExpr (ZMod p)) : gF Z (.select es i) = gFs Z es ++ gU Z i := by
  simp only [gF, gFs, gB, gBs, gU, gUs, gUI, exF]
  rw [exU_eq i]
theorem gF_add (l : FExpr (ZMod p)) (r : FExpr (ZMod p)) : gF Z (.add l r) = gF Z l ++ gF Z r := by
  simp only [gF, gFs, gB, gBs, gU, gUs, gUI, exF]
  rw [exF_eq r]
theorem gF_sub (l : FExpr (ZMod p)) (r : FExpr (ZMod p)) : gF Z (.sub l r) = gF Z l ++ gF Z r := by
  simp only [gF, gFs, gB, gBs, gU, gUs, gUI, exF]
  rw [exF_eq r]
theorem gF_mult (l : FExpr (ZMod p)) (r : FExpr (ZMod p)) : gF Z (.mult l r) = gF Z l ++ gF Z r := by
  simp only [gF, gFs, gB, gBs, gU, gUs, gUI, exF]
  rw [exF_eq r]
theorem gF_div (l : FExpr (ZMod p)) (r : FExpr (ZMod p)) : gF Z (.div l r) = gF Z l ++ gF Z r ++ [fieldDivGuard r] := by
  simp only [gF, gFs, gB, gBs, gU, gUs, gUI, exF]
  rw [exF_eq r]
theorem gF_pow (l : FExpr (ZMod p)) (r : UExpr (ZMod p)) : gF Z (.pow l r) = gF Z l ++ gU Z r := by
  simp only [gF, gFs, gB, gBs, gU, gUs, gUI, exF]
  rw [exU_eq r]
theorem gF_and (l : FExpr (ZMod p)) (r : FExpr (ZMod p)) : gF Z (.and l r) = gF Z l ++ gF Z r := by
  simp only [gF, gFs, gB, gBs, gU, gUs, gUI, exF]
  rw [exF_eq r]
theorem gF_or (l : FExpr (ZMod p)) (r : FExpr (ZMod p)) : gF Z (.or l r) = gF Z l ++ gF Z r := by
  simp only [gF, gFs, gB, gBs, gU, gUs, gUI, exF]
  rw [exF_eq r]
theorem gF_xor (l : FExpr (ZMod p)) (r : FExpr (ZMod p)) : gF Z (.xor l r) = gF Z l ++ gF Z r := by
  simp only [gF, gFs, gB, gBs, gU, gUs, gUI, exF]
  rw [exF_eq r]
theorem gF_leftShift (l : FExpr (ZMod p)) (r : UExpr (ZMod p)) : gF Z (.leftShift l r) = gF Z l ++ gU Z r := by
  simp only [gF, gFs, gB, gBs, gU, gUs, gUI, exF]
  rw [exU_eq r]
theorem gF_rightShift (l : FExpr (ZMod p)) (r : UExpr (ZMod p)) : gF Z (.rightShift l r) = gF Z l ++ gU Z r := by
  simp only [gF, gFs, gB, gBs, gU, gUs, gUI, exF]
  rw [exU_eq r]
theorem gF_cond (c : BExpr (ZMod p)) (t e : FExpr (ZMod p)) : gF Z (.cond c t e) = gB Z c ++ condGuard c (gF Z t) (gF Z e) [] := by
  simp only [gF, gFs, gB, gBs, gU, gUs, gUI, exF]
  rw [condGuard_append, exB_eq c, List.nil_append]
theorem gB_select (es : List (BExpr (ZMod p))) (i : UExpr (ZMod p)) : gB Z (.select es i) = gBs Z es ++ gU Z i := by
  simp only [gF, gFs, gB, gBs, gU, gUs, gUI, exB]
  rw [exU_eq i]
theorem gB_fieldLe (l : FExpr (ZMod p)) (r : FExpr (ZMod p)) : gB Z (.fieldLe l r) = gF Z l ++ gF Z r := by
  simp only [gF, gFs, gB, gBs, gU, gUs, gUI, exB]
  rw [exF_eq r]
theorem gB_fieldEq (l : FExpr (ZMod p)) (r : FExpr (ZMod p)) : gB Z (.fieldEq l r) = gF Z l ++ gF Z r := by
  simp only [gF, gFs, gB, gBs, gU, gUs, gUI, exB]
  rw [exF_eq r]
theorem gB_uintLt (l : UExpr (ZMod p)) (r : UExpr (ZMod p)) : gB Z (.uintLt l r) = gU Z l ++ gU Z r := by
  simp only [gF, gFs, gB, gBs, gU, gUs, gUI, exB]
  rw [exU_eq r]
theorem gB_uintLe (l : UExpr (ZMod p)) (r : UExpr (ZMod p)) : gB Z (.uintLe l r) = gU Z l ++ gU Z r := by
  simp only [gF, gFs, gB, gBs, gU, gUs, gUI, exB]
  rw [exU_eq r]
theorem gB_uintEq (l : UExpr (ZMod p)) (r : UExpr (ZMod p)) : gB Z (.uintEq l r) = gU Z l ++ gU Z r := by
  simp only [gF, gFs, gB, gBs, gU, gUs, gUI, exB]
  rw [exU_eq r]
theorem gB_boolEq (l : BExpr (ZMod p)) (r : BExpr (ZMod p)) : gB Z (.boolEq l r) = gB Z l ++ gB Z r := by
  simp only [gF, gFs, gB, gBs, gU, gUs, gUI, exB]
  rw [exB_eq r]
theorem gB_or (l : BExpr (ZMod p)) (r : BExpr (ZMod p)) : gB Z (.or l r) = gB Z l ++ gB Z r := by
  simp only [gF, gFs, gB, gBs, gU, gUs, gUI, exB]
  rw [exB_eq r]
theorem gB_and (l : BExpr (ZMod p)) (r : BExpr (ZMod p)) : gB Z (.and l r) = gB Z l ++ gB Z r := by
  simp only [gF, gFs, gB, gBs, gU, gUs, gUI, exB]
  rw [exB_eq r]
theorem gB_not (e : BExpr (ZMod p)) : gB Z (.not e) = gB Z e := by
  simp only [gF, gFs, gB, gBs, gU, gUs, gUI, exB]
theorem gB_cond (c : BExpr (ZMod p)) (t e : BExpr (ZMod p)) : gB Z (.cond c t e) = gB Z c ++ condGuard c (gB Z t) (gB Z e) [] := by
  simp only [gF, gFs, gB, gBs, gU, gUs, gUI, exB]
  rw [condGuard_append, exB_eq c, List.nil_append]
theorem gB_lt (l r : FExpr (ZMod p)) : gB Z (.fieldLt l r) =
    if isValueF l || isValueF r then gF Z l ++ gF Z r else gF Z l ++ gF Z r ++ [ltGuardMax l r] ++ [ltGuardMin l r] := by
  simp only [gF, gB, exB]
  have hl : (exF l ([] : Buf p Z)).1 = l := by rw [exF_eq l]
  split
  all_goals
    rw [exF_eq r]
    try simp only [hl]
theorem gUI_select (w : ℕ) (es : List (UExpr (ZMod p))) (i : UExpr (ZMod p)) : gUI Z w (.select es i) = gUs Z es ++ gU Z i := by
  simp only [gF, gFs, gB, gBs, gU, gUs, gUI, exUI]
  rw [exU_eq i]
theorem gUI_add (w : ℕ) (l : UExpr (ZMod p)) (r : UExpr (ZMod p)) : gUI Z w (.add l r) = gU Z l ++ gU Z r := by
  simp only [gF, gFs, gB, gBs, gU, gUs, gUI, exUI]
  rw [exU_eq r]
theorem gUI_sub (w : ℕ) (l : UExpr (ZMod p)) (r : UExpr (ZMod p)) : gUI Z w (.sub l r) = gU Z l ++ gU Z r := by
  simp only [gF, gFs, gB, gBs, gU, gUs, gUI, exUI]
  rw [exU_eq r]
theorem gUI_mult (w : ℕ) (l : UExpr (ZMod p)) (r : UExpr (ZMod p)) : gUI Z w (.mult l r) = gU Z l ++ gU Z r := by
  simp only [gF, gFs, gB, gBs, gU, gUs, gUI, exUI]
  rw [exU_eq r]
theorem gUI_div (w : ℕ) (l : UExpr (ZMod p)) (r : UExpr (ZMod p)) : gUI Z w (.div l r) = gU Z l ++ gU Z r ++ [uintDivGuard w r] := by
  simp only [gF, gFs, gB, gBs, gU, gUs, gUI, exUI]
  rw [exU_eq r]
theorem gUI_rem (w : ℕ) (l : UExpr (ZMod p)) (r : UExpr (ZMod p)) : gUI Z w (.rem l r) = gU Z l ++ gU Z r := by
  simp only [gF, gFs, gB, gBs, gU, gUs, gUI, exUI]
  rw [exU_eq r]
theorem gUI_xor (w : ℕ) (l : UExpr (ZMod p)) (r : UExpr (ZMod p)) : gUI Z w (.xor l r) = gU Z l ++ gU Z r := by
  simp only [gF, gFs, gB, gBs, gU, gUs, gUI, exUI]
  rw [exU_eq r]
theorem gUI_and (w : ℕ) (l : UExpr (ZMod p)) (r : UExpr (ZMod p)) : gUI Z w (.and l r) = gU Z l ++ gU Z r := by
  simp only [gF, gFs, gB, gBs, gU, gUs, gUI, exUI]
  rw [exU_eq r]
theorem gUI_or (w : ℕ) (l : UExpr (ZMod p)) (r : UExpr (ZMod p)) : gUI Z w (.or l r) = gU Z l ++ gU Z r := by
  simp only [gF, gFs, gB, gBs, gU, gUs, gUI, exUI]
  rw [exU_eq r]
theorem gUI_leftShift (w : ℕ) (l : UExpr (ZMod p)) (r : UExpr (ZMod p)) : gUI Z w (.leftShift l r) = gU Z l ++ gU Z r := by
  simp only [gF, gFs, gB, gBs, gU, gUs, gUI, exUI]
  rw [exU_eq r]
theorem gUI_rightShift (w : ℕ) (l : UExpr (ZMod p)) (r : UExpr (ZMod p)) : gUI Z w (.rightShift l r) = gU Z l ++ gU Z r := by
  simp only [gF, gFs, gB, gBs, gU, gUs, gUI, exUI]
  rw [exU_eq r]
theorem gUI_not (w : ℕ) (e : UExpr (ZMod p)) : gUI Z w (.not e) = gU Z e := by
  simp only [gF, gFs, gB, gBs, gU, gUs, gUI, exUI]
theorem gUI_cond (w : ℕ) (c : BExpr (ZMod p)) (t e : UExpr (ZMod p)) : gUI Z w (.cond c t e) = gB Z c ++ condGuard c (gU Z t) (gU Z e) [] := by
  simp only [gF, gFs, gB, gBs, gU, gUs, gUI, exUI]
  rw [condGuard_append, exB_eq c, List.nil_append]
theorem gFs_cons (e : FExpr (ZMod p)) (es : List (FExpr (ZMod p))) : gFs Z (e :: es) = gF Z e ++ gFs Z es := by
  simp only [gFs, gF, exFs]
  rw [exFs_eq es]
theorem gBs_cons (e : BExpr (ZMod p)) (es : List (BExpr (ZMod p))) : gBs Z (e :: es) = gB Z e ++ gBs Z es := by
  simp only [gBs, gB, exBs]
  rw [exBs_eq es]
theorem gUs_cons (e : UExpr (ZMod p)) (es : List (UExpr (ZMod p))) : gUs Z (e :: es) = gU Z e ++ gUs Z es := by
  simp only [gUs, gU, exUs]
  rw [exUs_eq es]
theorem gZs_cons (e : ZExpr (ZMod p)) (es : List (ZExpr (ZMod p))) : gZs Z (e :: es) = gZ Z e ++ gZs Z es := by
  simp only [gZs, gZ, exZs]
  rw [exZs_eq es]

end Zok.Px
