import Verif.Spec.ZirExec

/-
Well-typed ZIR before the range analysis: no integer expression is annotated, variables are used at the type they were
defined with, exponents and shift amounts are literals, arrays are not empty and have at most `2^32` elements. This is what
the passes in front of the range analysis produce (`zokrates_analysis/src/lib.rs`).
-/

namespace Zok
variable {p : ℕ} {Z : Type}

/-- Types of variables. -/
abbrev TCtx := ZId → Option ZType

/-- Bitwidths for which products of two integers fit the field. -/
def WidthOk (p w : ℕ) : Prop := 1 ≤ w ∧ 2 * w + 3 ≤ Fld.requiredBits p

/-- Types whose values fit the field. -/
def ZType.Fits (p : ℕ) : ZType → Prop
  | .uint w => WidthOk p w
  | _ => True

/-- An unannotated literal of width 32, in a field that has room for it. -/
def IsLiteral32 (e : UExpr (ZMod p)) : Prop := (∃ n, e = .mk 32 none (.value n) ∧ n < 2 ^ 32) ∧ WidthOk p 32

mutual
/-- Well-typed field expressions. -/
def WtF (Γ : TCtx) : FExpr (ZMod p) → Prop
  | .value _ => True
  | .ident x => Γ x = some .field
  | .select es i => WtFs Γ es ∧ es.length ≤ 2 ^ 32 ∧ WtU Γ i ∧ i.width = 32
  | .add l r => WtF Γ l ∧ WtF Γ r
  | .sub l r => WtF Γ l ∧ WtF Γ r
  | .mult l r => WtF Γ l ∧ WtF Γ r
  | .div l r => WtF Γ l ∧ WtF Γ r
  | .pow b e => WtF Γ b ∧ IsLiteral32 e
  | .cond c t e => WtB Γ c ∧ WtF Γ t ∧ WtF Γ e
  | .and _ _ | .or _ _ | .xor _ _ | .leftShift _ _ | .rightShift _ _ => False
/-- Lists of well-typed field expressions. -/
def WtFs (Γ : TCtx) : List (FExpr (ZMod p)) → Prop
  | [] => True
  | e :: es => WtF Γ e ∧ WtFs Γ es
/-- Well-typed boolean expressions. -/
def WtB (Γ : TCtx) : BExpr (ZMod p) → Prop
  | .value _ => True
  | .ident x => Γ x = some .bool
  | .select es i => WtBs Γ es ∧ es.length ≤ 2 ^ 32 ∧ WtU Γ i ∧ i.width = 32
  | .fieldLt l r => WtF Γ l ∧ WtF Γ r
  | .fieldLe l r => WtF Γ l ∧ WtF Γ r
  | .fieldEq l r => WtF Γ l ∧ WtF Γ r
  | .uintLt l r => WtU Γ l ∧ WtU Γ r ∧ l.width = r.width
  | .uintLe l r => WtU Γ l ∧ WtU Γ r ∧ l.width = r.width
  | .uintEq l r => WtU Γ l ∧ WtU Γ r ∧ l.width = r.width
  | .boolEq l r => WtB Γ l ∧ WtB Γ r
  | .or l r => WtB Γ l ∧ WtB Γ r
  | .and l r => WtB Γ l ∧ WtB Γ r
  | .not e => WtB Γ e
  | .cond c t e => WtB Γ c ∧ WtB Γ t ∧ WtB Γ e
/-- Lists of well-typed boolean expressions. -/
def WtBs (Γ : TCtx) : List (BExpr (ZMod p)) → Prop
  | [] => True
  | e :: es => WtB Γ e ∧ WtBs Γ es
/-- Well-typed integer expressions. -/
def WtU (Γ : TCtx) : UExpr (ZMod p) → Prop
  | .mk w m i => m = none ∧ WidthOk p w ∧ WtUI Γ w i
/-- Lists of well-typed integer expressions of width `w`. -/
def WtUs (Γ : TCtx) (w : ℕ) : List (UExpr (ZMod p)) → Prop
  | [] => True
  | e :: es => (WtU Γ e ∧ e.width = w) ∧ WtUs Γ w es
/-- Well-typed integer expressions of width `w`. -/
def WtUI (Γ : TCtx) (w : ℕ) : UInner (ZMod p) → Prop
  | .value n => n < 2 ^ w
  | .ident x => Γ x = some (.uint w)
  | .select es i => WtUs Γ w es ∧ es ≠ [] ∧ es.length ≤ 2 ^ 32 ∧ WtU Γ i ∧ i.width = 32
  | .add l r => WtU Γ l ∧ WtU Γ r ∧ l.width = w ∧ r.width = w
  | .sub l r => WtU Γ l ∧ WtU Γ r ∧ l.width = w ∧ r.width = w
  | .mult l r => WtU Γ l ∧ WtU Γ r ∧ l.width = w ∧ r.width = w
  | .div l r => WtU Γ l ∧ WtU Γ r ∧ l.width = w ∧ r.width = w
  | .rem l r => WtU Γ l ∧ WtU Γ r ∧ l.width = w ∧ r.width = w
  | .xor l r => WtU Γ l ∧ WtU Γ r ∧ l.width = w ∧ r.width = w
  | .and l r => WtU Γ l ∧ WtU Γ r ∧ l.width = w ∧ r.width = w
  | .or l r => WtU Γ l ∧ WtU Γ r ∧ l.width = w ∧ r.width = w
  | .leftShift e b => WtU Γ e ∧ e.width = w ∧ IsLiteral32 b
  | .rightShift e b => WtU Γ e ∧ e.width = w ∧ IsLiteral32 b
  | .not e => WtU Γ e ∧ e.width = w
  | .cond c t e => WtB Γ c ∧ WtU Γ t ∧ WtU Γ e ∧ t.width = w ∧ e.width = w
end

/-- Well-typed expressions. -/
def WtZ (Γ : TCtx) : ZExpr (ZMod p) → Prop
  | .field e => WtF Γ e
  | .bool e => WtB Γ e
  | .uint e => WtU Γ e

/-- The type of an expression. -/
def ZExpr.ty : ZExpr (ZMod p) → ZType
  | .field _ => .field
  | .bool _ => .bool
  | .uint e => .uint e.width

/-- Extend a context. -/
def TCtx.set (Γ : TCtx) (x : ZId) (t : ZType) : TCtx := fun y => if y = x then some t else Γ y

/-- Extend a context, one variable after the other. -/
def TCtx.setAll (Γ : TCtx) : List ZId → List ZType → TCtx
  | x :: xs, t :: ts => (Γ.set x t).setAll xs ts
  | _, _ => Γ

/-- Well-typed calls of embedded functions, and the types of their results. -/
inductive WtEmbed (Γ : TCtx) : Embed → List ℕ → List (ZExpr (ZMod p)) → List ZType → Prop
  | cast {g e} : WtF Γ e → WtEmbed Γ .fieldToBoolUnsafe g [.field e] [.bool]
  | toBits {g w} {e : UExpr (ZMod p)} : WtU Γ e → e.width = w →
      WtEmbed Γ (.uToBits w) g [.uint e] (List.replicate w .bool)
  | fromBits {g} {es : List (BExpr (ZMod p))} : WtBs Γ es → WidthOk p es.length →
      WtEmbed Γ (.uFromBits es.length) g (es.map .bool) [.uint es.length]
  | bitArrayLe {as bs : List (BExpr (ZMod p))} : WtBs Γ as → WtBs Γ bs → as.length = bs.length →
      as.length ≤ Fld.requiredBits p → WtEmbed Γ .bitArrayLe [as.length] (as.map .bool ++ bs.map .bool) [.bool]
  | unpack {n e} : WtF Γ e → WtEmbed Γ .unpack [n] [.field e] (List.replicate n .bool)

/-- Well-typed assembly statements; hints take field elements and booleans. -/
inductive WtAsm : TCtx → ZAsm (ZMod p) Z → TCtx → Prop
  | assignment {Γ xs f args} : (∀ x ∈ args, Γ x = some .field ∨ Γ x = some .bool) →
      WtAsm Γ (.assignment xs f args) (Γ.setAll xs (xs.map fun _ => .field))
  | constraint {Γ l r info} : WtF Γ l → WtF Γ r → WtAsm Γ (.constraint l r info) Γ

/-- Well-typed assembly blocks. -/
inductive WtAsms : TCtx → List (ZAsm (ZMod p) Z) → TCtx → Prop
  | nil {Γ} : WtAsms Γ [] Γ
  | cons {Γ s Γ' ss Γ''} : WtAsm Γ s Γ' → WtAsms Γ' ss Γ'' → WtAsms Γ (s :: ss) Γ''

mutual
/-- Well-typed statements: `WtStmt Γ s Γ'` when `s` is well-typed in `Γ` and `Γ'` is the context after it. -/
inductive WtStmt : TCtx → ZStmt (ZMod p) Z → TCtx → Prop
  | ret {Γ es} : (∀ e ∈ es, WtZ Γ e) → WtStmt Γ (.ret es) Γ
  | definition {Γ x} {e : ZExpr (ZMod p)} : WtZ Γ e → WtStmt Γ (.definition x e) (Γ.set x e.ty)
  | ifElse {Γ c t e Γ' Γ''} : WtB Γ c → WtStmts Γ t Γ' → WtStmts Γ' e Γ'' → WtStmt Γ (.ifElse c t e) Γ''
  | assertion {Γ e err} : WtB Γ e → (∀ c, Conjunct c e → ¬ ComparesConstants c) → WtStmt Γ (.assertion e err) Γ
  | multiDef {Γ xs embed g args ts} : (∀ x ∈ xs, Γ x = none) → xs.length = ts.length → WtEmbed Γ embed g args ts →
      WtStmt Γ (.multiDef xs embed g args) (Γ.setAll xs ts)
  | log {Γ es} : (∀ e ∈ es.flatten, WtZ Γ e) → WtStmt Γ (.log es) Γ
  | assembly {Γ ss Γ'} : WtAsms Γ ss Γ' → WtStmt Γ (.assembly ss) Γ'
/-- Well-typed lists of statements. -/
inductive WtStmts : TCtx → List (ZStmt (ZMod p) Z) → TCtx → Prop
  | nil {Γ} : WtStmts Γ [] Γ
  | cons {Γ s Γ' ss Γ''} : WtStmt Γ s Γ' → WtStmts Γ' ss Γ'' → WtStmts Γ (s :: ss) Γ''
end

/-- Well-typed functions: the body ends with a return statement. -/
structure WtFun (f : ZFun (ZMod p) Z) : Prop where
  params : ∀ q ∈ f.params, q.ty.Fits p
  body : ∃ ss es Γ', f.body = ss ++ [.ret es] ∧ es.length = f.returnCount ∧
    WtStmts (TCtx.setAll (fun _ => none) (f.params.map ZParam.id) (f.params.map ZParam.ty)) f.body Γ'

/-! ### The two cases the range analysis gets wrong -/

/-- The annotations of a node are consistent where the range analysis may fail: the bound of a shift is really a bound,
and the bound of the right operand of a subtraction leaves room for the offset `2^bits` the flattener adds. -/
def NodeRegular (p w : ℕ) (mx : ℕ) : UInner (ZMod p) → Prop
  | .leftShift e b => ∀ k, (∃ wb mb, b = .mk wb mb (.value k)) →
      ∀ n, n < 2 ^ w → n ≤ e.amax → (n * 2 ^ k) % 2 ^ w ≤ mx
  | .rightShift e b => ∀ k, (∃ wb mb, b = .mk wb mb (.value k)) →
      ∀ n, n < 2 ^ w → n ≤ e.amax → n / 2 ^ k ≤ mx
  | .sub _ r => r.amax < 2 ^ (Fld.requiredBits p - 2)
  | _ => True

mutual
/-- All nodes of a field expression are regular. -/
def RegF : FExpr (ZMod p) → Prop
  | .value _ | .ident _ => True
  | .select es i => RegFs es ∧ RegU i
  | .add l r | .sub l r | .mult l r | .div l r | .and l r | .or l r | .xor l r => RegF l ∧ RegF r
  | .pow b e | .leftShift b e | .rightShift b e => RegF b ∧ RegU e
  | .cond c t e => RegB c ∧ RegF t ∧ RegF e
/-- All nodes of a list of field expressions are regular. -/
def RegFs : List (FExpr (ZMod p)) → Prop
  | [] => True
  | e :: es => RegF e ∧ RegFs es
/-- All nodes of a boolean expression are regular. -/
def RegB : BExpr (ZMod p) → Prop
  | .value _ | .ident _ => True
  | .select es i => RegBs es ∧ RegU i
  | .fieldLt l r | .fieldLe l r | .fieldEq l r => RegF l ∧ RegF r
  | .uintLt l r | .uintLe l r | .uintEq l r => RegU l ∧ RegU r
  | .boolEq l r | .or l r | .and l r => RegB l ∧ RegB r
  | .not e => RegB e
  | .cond c t e => RegB c ∧ RegB t ∧ RegB e
/-- All nodes of a list of boolean expressions are regular. -/
def RegBs : List (BExpr (ZMod p)) → Prop
  | [] => True
  | e :: es => RegB e ∧ RegBs es
/-- All nodes of an integer expression are regular. -/
def RegU : UExpr (ZMod p) → Prop
  | .mk w m i => NodeRegular p w (UExpr.amax (.mk w m i)) i ∧ RegUI i
/-- All nodes of a list of integer expressions are regular. -/
def RegUs : List (UExpr (ZMod p)) → Prop
  | [] => True
  | e :: es => RegU e ∧ RegUs es
/-- All nodes below an integer expression are regular. -/
def RegUI : UInner (ZMod p) → Prop
  | .value _ | .ident _ => True
  | .select es i => RegUs es ∧ RegU i
  | .add l r | .sub l r | .mult l r | .div l r | .rem l r | .xor l r | .and l r | .or l r
  | .leftShift l r | .rightShift l r => RegU l ∧ RegU r
  | .not e => RegU e
  | .cond c t e => RegB c ∧ RegU t ∧ RegU e
end

/-- All nodes of an expression are regular. -/
def RegZ : ZExpr (ZMod p) → Prop
  | .field e => RegF e
  | .bool e => RegB e
  | .uint e => RegU e

/-- All nodes of an assembly statement are regular. -/
def RegAsm : ZAsm (ZMod p) Z → Prop
  | .assignment _ _ _ => True
  | .constraint l r _ => RegF l ∧ RegF r

mutual
/-- All nodes of a statement are regular. -/
def RegStmt : ZStmt (ZMod p) Z → Prop
  | .ret es => ∀ e ∈ es, RegZ e
  | .definition _ e => RegZ e
  | .ifElse c t e => RegB c ∧ RegStmts t ∧ RegStmts e
  | .assertion e _ => RegB e
  | .multiDef _ _ _ args => ∀ e ∈ args, RegZ e
  | .log es => ∀ e ∈ es.flatten, RegZ e
  | .assembly ss => ∀ s ∈ ss, RegAsm s
/-- All nodes of a list of statements are regular. -/
def RegStmts : List (ZStmt (ZMod p) Z) → Prop
  | [] => True
  | s :: ss => RegStmt s ∧ RegStmts ss
end

end Zok
