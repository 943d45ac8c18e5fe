import Verif.Spec.ZirWt

/-
A syntactic criterion for programs on which the range analysis is right: shifts apply to expressions whose range is the
whole of `0 .. 2^w - 1` (arguments, results of divisions and bitwise operations, variables defined as such, array
accesses and conditionals among them), right operands of subtractions are such expressions or literals.
-/

namespace Zok
variable {p : ℕ} {Z : Type}

/-- Variables of full range, at some width. -/
abbrev FullVars := ZId → ℕ → Bool

/-- Literals. -/
def isValue : UExpr (ZMod p) → Bool
  | .mk _ _ (.value _) => true
  | _ => false

mutual
/-- Integer expressions of full range. -/
def fullU (V : FullVars) : UExpr (ZMod p) → Bool
  | .mk w _ i => fullUI V w i
/-- Lists of integer expressions of full range. -/
def fullUs (V : FullVars) : List (UExpr (ZMod p)) → Bool
  | [] => true
  | e :: es => fullU V e && fullUs V es
/-- Integer expressions of full range at width `w`. -/
def fullUI (V : FullVars) (w : ℕ) : UInner (ZMod p) → Bool
  | .ident x => V x w
  | .select es _ => fullUs V es
  | .cond _ t e => fullU V t && fullU V e
  | .div _ _ | .rem _ _ | .xor _ _ | .and _ _ | .or _ _ | .not _ => true
  | .value _ | .add _ _ | .sub _ _ | .mult _ _ | .leftShift _ _ | .rightShift _ _ => false
end

/-- Integer expressions of full range, and literals. -/
def belowU (V : FullVars) (e : UExpr (ZMod p)) : Bool := fullU V e || isValue e

mutual
/-- Plain field expressions. -/
def plainF (V : FullVars) : FExpr (ZMod p) → Bool
  | .value _ | .ident _ => true
  | .select es i => plainFs V es && plainU V i
  | .add l r | .sub l r | .mult l r | .div l r | .and l r | .or l r | .xor l r => plainF V l && plainF V r
  | .pow b _ | .leftShift b _ | .rightShift b _ => plainF V b
  | .cond c t e => plainB V c && plainF V t && plainF V e
/-- Lists of plain field expressions. -/
def plainFs (V : FullVars) : List (FExpr (ZMod p)) → Bool
  | [] => true
  | e :: es => plainF V e && plainFs V es
/-- Plain boolean expressions. -/
def plainB (V : FullVars) : BExpr (ZMod p) → Bool
  | .value _ | .ident _ => true
  | .select es i => plainBs V es && plainU V i
  | .fieldLt l r | .fieldLe l r | .fieldEq l r => plainF V l && plainF V r
  | .uintLt l r | .uintLe l r | .uintEq l r => plainU V l && plainU V r
  | .boolEq l r | .or l r | .and l r => plainB V l && plainB V r
  | .not e => plainB V e
  | .cond c t e => plainB V c && plainB V t && plainB V e
/-- Lists of plain boolean expressions. -/
def plainBs (V : FullVars) : List (BExpr (ZMod p)) → Bool
  | [] => true
  | e :: es => plainB V e && plainBs V es
/-- Plain integer expressions. -/
def plainU (V : FullVars) : UExpr (ZMod p) → Bool
  | .mk _ _ i => plainUI V i
/-- Lists of plain integer expressions. -/
def plainUs (V : FullVars) : List (UExpr (ZMod p)) → Bool
  | [] => true
  | e :: es => plainU V e && plainUs V es
/-- Plain integer expressions. -/
def plainUI (V : FullVars) : UInner (ZMod p) → Bool
  | .value _ | .ident _ => true
  | .select es i => plainUs V es && plainU V i
  | .add l r | .mult l r | .div l r | .rem l r | .xor l r | .and l r | .or l r => plainU V l && plainU V r
  | .sub l r => plainU V l && plainU V r && belowU V r
  | .leftShift l _ => plainU V l && fullU V l
  | .rightShift l _ => plainU V l && belowU V l
  | .not e => plainU V e
  | .cond c t e => plainB V c && plainU V t && plainU V e
end

/-- Plain expressions. -/
def plainZ (V : FullVars) : ZExpr (ZMod p) → Bool
  | .field e => plainF V e
  | .bool e => plainB V e
  | .uint e => plainU V e

/-- Plain assembly statements. -/
def plainAsm (V : FullVars) : ZAsm (ZMod p) Z → Bool
  | .assignment _ _ _ => true
  | .constraint l r _ => plainF V l && plainF V r

/-- Change the status of a variable. -/
def FullVars.set (V : FullVars) (x : ZId) (w : ℕ) (b : Bool) : FullVars := fun y v => if y = x ∧ v = w then b else V y v

/-- The variables of full range after a definition. -/
def FullVars.define (V : FullVars) (x : ZId) : ZExpr (ZMod p) → FullVars
  | .uint e => V.set x e.width (fullU V e)
  | _ => V

/-- The variables of full range after a call. -/
def FullVars.call (V : FullVars) : Embed → List ZId → FullVars
  | .uFromBits w, [x] => V.set x w true
  | _, _ => V

mutual
/-- Plain statements, and the variables of full range after them; `none` if the statement is not plain. -/
def plainStmt (V : FullVars) : ZStmt (ZMod p) Z → Option FullVars
  | .ret es => if es.all (plainZ V) then some V else none
  | .definition x e => if plainZ V e then some (V.define x e) else none
  | .ifElse c t e => if plainB V c then (plainStmts V t).bind fun V => plainStmts V e else none
  | .assertion e _ => if plainB V e then some V else none
  | .multiDef xs embed _ args =>
    if args.all (plainZ V) && args.all (plainZ (V.call embed xs)) then some (V.call embed xs) else none
  | .log es => if es.all fun l => l.all (plainZ V) then some V else none
  | .assembly ss => if ss.all (plainAsm V) then some V else none
/-- Plain lists of statements. -/
def plainStmts (V : FullVars) : List (ZStmt (ZMod p) Z) → Option FullVars
  | [] => some V
  | s :: ss => (plainStmt V s).bind fun V => plainStmts V ss
end

/-- Plain functions: integer arguments have full range. -/
def plainFun (f : ZFun (ZMod p) Z) : Bool := (plainStmts (fun x w => f.params.any fun q => q.id == x && q.ty == .uint w) f.body).isSome

end Zok
