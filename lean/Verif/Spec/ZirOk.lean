import Verif.Spec.ZirEval

/-
Well-typed and correctly annotated ZIR expressions: the expressions the flattener is meant to be run on. The
conditions on unsigned integers say that the maximum annotated on a node is at least what the maxima of its operands
imply, that operands of bitwise operators, divisions and comparisons are marked for reduction, and that no maximum
reaches `2^(bits - 1)`, where `bits` is the bit length of the modulus.
-/

namespace Zok

/-- What is known of a variable: its type and, for an unsigned integer, an upper bound on the (not necessarily reduced)
field element representing it. -/
inductive Kind where
  | field
  | bool
  | uint (w mx : ℕ)
deriving DecidableEq, Repr

/-- Typing contexts. -/
abbrev Ctx := ZId → Option Kind

variable {p : ℕ}

/-- The expression is marked for reduction. -/
def UExpr.Reduced (e : UExpr (ZMod p)) : Prop := ∃ m, e.info = some m ∧ m.shouldReduce = .yes

/-- The annotated maximum. -/
def UExpr.amax (e : UExpr (ZMod p)) : ℕ := match e.info with
  | some m => m.max.val
  | none => 0

/-- Upper bound on the field element an annotated expression is represented by: the annotated maximum, or the largest
value of the type if the expression is reduced. -/
def UExpr.emax (e : UExpr (ZMod p)) : ℕ := match e.info with
  | some m => if m.shouldReduce = .yes then min (2 ^ e.width - 1) m.max.val else m.max.val
  | none => 0

mutual
/-- Well-formed field expressions. -/
def OkF (Γ : Ctx) : FExpr (ZMod p) → Prop
  | .value _ => True
  | .ident x => Γ x = some .field
  | .select es i => OkFs Γ es ∧ es.length ≤ 2 ^ 32 ∧ OkU Γ i ∧ i.width = 32 ∧ i.Reduced
  | .add l r => OkF Γ l ∧ OkF Γ r
  | .sub l r => OkF Γ l ∧ OkF Γ r
  | .mult l r => OkF Γ l ∧ OkF Γ r
  | .div l r => OkF Γ l ∧ OkF Γ r
  | .pow b e => OkF Γ b ∧ ∃ w m n, e = .mk w m (.value n) ∧ n < 2 ^ 128
  | .cond c t e => OkB Γ c ∧ OkF Γ t ∧ OkF Γ e
  | .and _ _ | .or _ _ | .xor _ _ | .leftShift _ _ | .rightShift _ _ => False
/-- Lists of well-formed field expressions. -/
def OkFs (Γ : Ctx) : List (FExpr (ZMod p)) → Prop
  | [] => True
  | e :: es => OkF Γ e ∧ OkFs Γ es
/-- Well-formed boolean expressions. -/
def OkB (Γ : Ctx) : BExpr (ZMod p) → Prop
  | .value _ => True
  | .ident x => Γ x = some .bool
  | .select es i => OkBs Γ es ∧ es.length ≤ 2 ^ 32 ∧ OkU Γ i ∧ i.width = 32 ∧ i.Reduced
  | .fieldLt l r => OkF Γ l ∧ OkF Γ r
  | .fieldLe l r => OkF Γ l ∧ OkF Γ r
  | .fieldEq l r => OkF Γ l ∧ OkF Γ r
  | .uintLt l r => OkU Γ l ∧ OkU Γ r ∧ l.width = r.width ∧ l.Reduced ∧ r.Reduced
  | .uintLe l r => OkU Γ l ∧ OkU Γ r ∧ l.width = r.width ∧ l.Reduced ∧ r.Reduced
  | .uintEq l r => OkU Γ l ∧ OkU Γ r ∧ l.width = r.width ∧ l.Reduced ∧ r.Reduced
  | .boolEq l r => OkB Γ l ∧ OkB Γ r
  | .or l r => OkB Γ l ∧ OkB Γ r
  | .and l r => OkB Γ l ∧ OkB Γ r
  | .not e => OkB Γ e
  | .cond c t e => OkB Γ c ∧ OkB Γ t ∧ OkB Γ e
/-- Lists of well-formed boolean expressions. -/
def OkBs (Γ : Ctx) : List (BExpr (ZMod p)) → Prop
  | [] => True
  | e :: es => OkB Γ e ∧ OkBs Γ es
/-- Well-formed unsigned integer expressions: the metadata is known, the maximum and the width are small enough. -/
def OkU (Γ : Ctx) : UExpr (ZMod p) → Prop
  | .mk w m i => (∃ m', m = some m' ∧ m'.max.val < 2 ^ (Fld.requiredBits p - 1)) ∧ 1 ≤ w ∧
      2 * w + 2 ≤ Fld.requiredBits p ∧ OkUI Γ w (UExpr.amax (.mk w m i)) i
/-- Lists of well-formed unsigned integer expressions of width `w` bounded by `mx`. -/
def OkUs (Γ : Ctx) (w mx : ℕ) : List (UExpr (ZMod p)) → Prop
  | [] => True
  | e :: es => (OkU Γ e ∧ e.width = w ∧ e.emax ≤ mx) ∧ OkUs Γ w mx es
/-- Well-formed unsigned integer expressions of width `w` with annotated maximum `mx`. -/
def OkUI (Γ : Ctx) (w mx : ℕ) : UInner (ZMod p) → Prop
  | .value n => n < 2 ^ w ∧ n ≤ mx
  | .ident x => ∃ k, Γ x = some (.uint w k) ∧ k ≤ mx
  | .select es i => OkUs Γ w mx es ∧ es.length ≤ 2 ^ 32 ∧ OkU Γ i ∧ i.width = 32 ∧ i.Reduced
  | .add l r => OkU Γ l ∧ OkU Γ r ∧ l.width = w ∧ r.width = w ∧ l.emax + r.emax ≤ mx
  | .sub l r => OkU Γ l ∧ OkU Γ r ∧ l.width = w ∧ r.width = w ∧
      l.emax + 2 ^ (max (Fld.bits (p := p) ((r.info.map UMeta.max).getD 0)) w) ≤ mx
  | .mult l r => OkU Γ l ∧ OkU Γ r ∧ l.width = w ∧ r.width = w ∧ l.emax * r.emax ≤ mx
  | .div l r => OkU Γ l ∧ OkU Γ r ∧ l.width = w ∧ r.width = w ∧ l.Reduced ∧ r.Reduced ∧ 2 ^ w - 1 ≤ mx
  | .rem l r => OkU Γ l ∧ OkU Γ r ∧ l.width = w ∧ r.width = w ∧ l.Reduced ∧ r.Reduced ∧ 2 ^ w - 1 ≤ mx
  | .xor l r => OkU Γ l ∧ OkU Γ r ∧ l.width = w ∧ r.width = w ∧ l.Reduced ∧ r.Reduced ∧ 2 ^ w - 1 ≤ mx
  | .and l r => OkU Γ l ∧ OkU Γ r ∧ l.width = w ∧ r.width = w ∧ l.Reduced ∧ r.Reduced ∧ 2 ^ w - 1 ≤ mx
  | .or l r => OkU Γ l ∧ OkU Γ r ∧ l.width = w ∧ r.width = w ∧ l.Reduced ∧ r.Reduced ∧ 2 ^ w - 1 ≤ mx
  | .leftShift e b => OkU Γ e ∧ e.width = w ∧ e.Reduced ∧ ∃ wb mb k, b = .mk wb mb (.value k) ∧ k < 2 ^ 32 ∧
      ∀ n, n < 2 ^ w → n ≤ e.amax → (n * 2 ^ k) % 2 ^ w ≤ mx
  | .rightShift e b => OkU Γ e ∧ e.width = w ∧ e.Reduced ∧ ∃ wb mb k, b = .mk wb mb (.value k) ∧ k < 2 ^ 32 ∧
      ∀ n, n < 2 ^ w → n ≤ e.amax → n / 2 ^ k ≤ mx
  | .not e => OkU Γ e ∧ e.width = w ∧ e.Reduced ∧ 2 ^ w - 1 ≤ mx
  | .cond c t e => OkB Γ c ∧ OkU Γ t ∧ OkU Γ e ∧ t.width = w ∧ e.width = w ∧ t.emax ≤ mx ∧ e.emax ≤ mx
end

end Zok
