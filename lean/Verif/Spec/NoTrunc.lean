import Verif.Model.FlattenerStmt

/-
Specification: programs in which the flattener decomposes numbers only as a whole. These are the programs without
wrap-around: every unsigned integer that is reduced is known, from its annotated maximum, to fit its width. Programs on
field elements and booleans, with integers as indices, are examples.
-/

namespace Zok
variable {p : ℕ} {Z : Type}

/-- A node of width `w` that is reduced has a maximum of at most `w` bits. -/
def UMeta.fits (w : ℕ) (m : Option (UMeta (ZMod p))) : Prop :=
  ∀ i, m = some i → i.shouldReduce = .yes → Fld.bits i.max ≤ w

mutual
/-- Field expressions without wrap-around. -/
def FExpr.NoWrap : FExpr (ZMod p) → Prop
  | .value _ | .ident _ => True
  | .select es i => FExpr.NoWrapL es ∧ i.NoWrap
  | .add l r | .sub l r | .mult l r | .div l r | .and l r | .or l r | .xor l r => l.NoWrap ∧ r.NoWrap
  | .pow b _ => b.NoWrap
  | .leftShift b e | .rightShift b e => b.NoWrap ∧ e.NoWrap
  | .cond c t e => c.NoWrap ∧ t.NoWrap ∧ e.NoWrap
/-- Lists of such expressions. -/
def FExpr.NoWrapL : List (FExpr (ZMod p)) → Prop
  | [] => True
  | e :: es => e.NoWrap ∧ FExpr.NoWrapL es
/-- Boolean expressions without wrap-around. -/
def BExpr.NoWrap : BExpr (ZMod p) → Prop
  | .value _ | .ident _ => True
  | .select es i => BExpr.NoWrapL es ∧ i.NoWrap
  | .fieldLt l r | .fieldLe l r | .fieldEq l r => l.NoWrap ∧ r.NoWrap
  | .uintLt l r | .uintLe l r | .uintEq l r => l.NoWrap ∧ r.NoWrap
  | .boolEq l r | .or l r | .and l r => l.NoWrap ∧ r.NoWrap
  | .not e => e.NoWrap
  | .cond c t e => c.NoWrap ∧ t.NoWrap ∧ e.NoWrap
/-- Lists of such expressions. -/
def BExpr.NoWrapL : List (BExpr (ZMod p)) → Prop
  | [] => True
  | e :: es => e.NoWrap ∧ BExpr.NoWrapL es
/-- Unsigned integer expressions without wrap-around. -/
def UExpr.NoWrap : UExpr (ZMod p) → Prop
  | .mk w m i => UMeta.fits w m ∧ i.NoWrap
/-- Lists of such expressions. -/
def UExpr.NoWrapL : List (UExpr (ZMod p)) → Prop
  | [] => True
  | e :: es => e.NoWrap ∧ UExpr.NoWrapL es
/-- The same for the nodes of unsigned integer expressions. -/
def UInner.NoWrap : UInner (ZMod p) → Prop
  | .value _ | .ident _ => True
  | .select es i => UExpr.NoWrapL es ∧ i.NoWrap
  | .add l r | .sub l r | .mult l r | .div l r | .rem l r | .xor l r | .and l r | .or l r => l.NoWrap ∧ r.NoWrap
  | .leftShift e b | .rightShift e b => e.NoWrap ∧ b.NoWrap
  | .not e => e.NoWrap
  | .cond c t e => c.NoWrap ∧ t.NoWrap ∧ e.NoWrap
end

/-- Expressions without wrap-around. -/
def ZExpr.NoWrap : ZExpr (ZMod p) → Prop
  | .field e => e.NoWrap
  | .bool e => e.NoWrap
  | .uint e => e.NoWrap

/-- Assembly statements without wrap-around. -/
def ZAsm.NoWrap : ZAsm (ZMod p) Z → Prop
  | .assignment _ _ _ => True
  | .constraint l r _ => l.NoWrap ∧ r.NoWrap

mutual
/-- Statements without wrap-around. -/
def ZStmt.NoWrap : ZStmt (ZMod p) Z → Prop
  | .ret es => ∀ e ∈ es, e.NoWrap
  | .definition _ e => e.NoWrap
  | .ifElse c t e => c.NoWrap ∧ ZStmt.NoWrapL t ∧ ZStmt.NoWrapL e
  | .assertion e _ => e.NoWrap
  | .multiDef _ _ _ es => ∀ e ∈ es, e.NoWrap
  | .log es => ∀ l ∈ es, ∀ e ∈ l, e.NoWrap
  | .assembly ss => ∀ s ∈ ss, s.NoWrap
/-- Lists of such statements. -/
def ZStmt.NoWrapL : List (ZStmt (ZMod p) Z) → Prop
  | [] => True
  | s :: ss => s.NoWrap ∧ ZStmt.NoWrapL ss
end

mutual
/-- No assembly blocks. -/
def ZStmt.NoAsm : ZStmt (ZMod p) Z → Prop
  | .assembly _ => False
  | .ifElse _ t e => ZStmt.NoAsmL t ∧ ZStmt.NoAsmL e
  | _ => True
/-- Lists of such statements. -/
def ZStmt.NoAsmL : List (ZStmt (ZMod p) Z) → Prop
  | [] => True
  | s :: ss => s.NoAsm ∧ ZStmt.NoAsmL ss
end

/-- No decomposition was confused with another one so far, and all decompositions in the cache, except for those of
constants, which are never looked up, are whole. -/
structure WholeBits (st : FlState p Z) : Prop where
  clash : st.clash = false
  whole : ∀ f c, st.cache f = some c → (∀ x, f ≠ .value x) → c.exact = true

end Zok
