import Verif.Model.Semantics
import Verif.Spec.TypedEval

/-
Specification of the type checker: when a typed expression is a reading of a source expression (`Reads`), and the comparisons of types which the checker leaves out
(`Agree`).
-/

namespace Zok.Abi

mutual
/-- A type up to the sizes of its arrays and the names of the members of its structs. -/
def CType.shape : CType → CType
  | .array _ t => .array 0 t.shape
  | .struct ms => .struct (shapeM ms)
  | .tuple ts => .tuple (shapeL ts)
  | t => t
/-- For every element. -/
def shapeL : List CType → List CType
  | [] => []
  | t :: ts => t.shape :: shapeL ts
/-- For every member. -/
def shapeM : List (Str × CType) → List (Str × CType)
  | [] => []
  | (_, t) :: ts => ([], t.shape) :: shapeM ts
end

/-- Types which differ only in the sizes of arrays and in the names of members. -/
def Alike (t u : CType) : Prop := t.shape = u.shape

/-- Unsigned integers, of any width. -/
def CType.IsUint : CType → Prop
  | .uint _ => True
  | _ => False

end Zok.Abi

namespace Zok.Sem
open Typed Abi

section
variable {F : Type}

mutual
/-- What remains to be checked behind the type checker: wherever two types differ only in the sizes of arrays and in the names of struct members, they are the same; the
branches of a conditional between integers have the same width; the number of elements of an array fits in a `u32`; a tuple of which an element is taken has no integer
literals of no type in it. -/
def Agree : TExpr F → Prop
  | .fval _ => True
  | .bval _ => True
  | .uval _ _ => True
  | .ident _ _ => True
  | .fbin _ l r => Agree l ∧ Agree r
  | .fubin _ l r => Agree l ∧ Agree r
  | .fneg e => Agree e
  | .fpos e => Agree e
  | .ubin _ _ l r => Agree l ∧ Agree r
  | .unot _ e => Agree e
  | .uneg _ e => Agree e
  | .upos _ e => Agree e
  | .bbin _ l r => Agree l ∧ Agree r
  | .bnot e => Agree e
  | .fcmp _ l r => Agree l ∧ Agree r
  | .ucmp _ l r => Agree l ∧ Agree r
  | .eq l r => (Alike l.ty r.ty → l.ty = r.ty) ∧ Agree l ∧ Agree r
  | .cond _ c a b => ((Alike a.ty b.ty ∨ (a.ty.IsUint ∧ b.ty.IsUint)) → a.ty = b.ty) ∧ Agree c ∧ Agree a ∧ Agree b
  | .select _ a i => Agree a ∧ Agree i
  | .member _ e _ => Agree e
  | .element _ e _ => (primCount e.ty).isSome ∧ Agree e
  | .array t _ es => AgreeS t es ∧ (∀ n, spreadCount t es n → n < 2 ^ 32)
  | .slice _ _ a lo hi => Agree a ∧ Agree lo ∧ Agree hi
  | .repeat_ _ _ e c => Agree e ∧ Agree c
  | .struct ms es => AgreeL (ms.map Prod.snd) es
  | .tuple _ es => AgreeL (es.map TExpr.ty) es
  | .removed _ => True
/-- Expressions which shall have the given types. -/
def AgreeL : List CType → List (TExpr F) → Prop
  | t :: ts, e :: es => (Alike e.ty t → e.ty = t) ∧ Agree e ∧ AgreeL ts es
  | _, _ => True
/-- The elements of an array with elements of type `t`. -/
def AgreeS (t : CType) : List (TSpread F) → Prop
  | [] => True
  | .expr e :: es => (Alike e.ty t → e.ty = t) ∧ Agree e ∧ AgreeS t es
  | .spread e :: es => (∀ n u, e.ty = .array n u → Alike u t → u = t) ∧ Agree e ∧ AgreeS t es
end

end

/-- The operators of field elements. -/
def BinOp.field : BinOp → Option FOp
  | .add => some .add
  | .sub => some .sub
  | .mul => some .mult
  | .div => some .div
  | .rem => none
  | .xor => some .xor
  | .band => some .and
  | .bor => some .or
/-- The operators of unsigned integers. -/
def BinOp.uint : BinOp → UOp
  | .add => .add
  | .sub => .sub
  | .mul => .mult
  | .div => .div
  | .rem => .rem
  | .xor => .xor
  | .band => .and
  | .bor => .or

variable {p : ℕ}

mutual
/-- The typed expression is the source expression, read at its type: the same operators in the same places (`a > b` is `b < a`), variables with the types they are declared
with, and literals with their values, which fit into the type. -/
inductive Reads (D : Decls) (G : Scope) : SExpr → TExpr (ZMod p) → Prop
  /-- a literal as a field element -/
  | intF {n : ℕ} : n < p → Reads D G (.int n) (.fval n)
  /-- a literal as an unsigned integer -/
  | intU {n : ℕ} {w : UW} : n < 2 ^ w.bits → Reads D G (.int n) (.uval w n)
  | fieldC {n : ℕ} : n < p → Reads D G (.fieldC n) (.fval n)
  | uintC {n : ℕ} {w : UW} : n < 2 ^ w.bits → Reads D G (.uintC w n) (.uval w n)
  | boolC {b : Bool} : Reads D G (.boolC b) (.bval b)
  | ident {x : TId} {t : CType} : G x = some t → Reads D G (.ident x) (.ident x t)
  | fneg {s : SExpr} {e : TExpr (ZMod p)} : Reads D G s e → Reads D G (.un .neg s) (.fneg e)
  | fpos {s : SExpr} {e : TExpr (ZMod p)} : Reads D G s e → Reads D G (.un .pos s) (.fpos e)
  | uneg {w : UW} {s : SExpr} {e : TExpr (ZMod p)} : Reads D G s e → Reads D G (.un .neg s) (.uneg w e)
  | upos {w : UW} {s : SExpr} {e : TExpr (ZMod p)} : Reads D G s e → Reads D G (.un .pos s) (.upos w e)
  | unot {w : UW} {s : SExpr} {e : TExpr (ZMod p)} : Reads D G s e → Reads D G (.un .not s) (.unot w e)
  | bnot {s : SExpr} {e : TExpr (ZMod p)} : Reads D G s e → Reads D G (.un .not s) (.bnot e)
  | fbin {op : BinOp} {o : FOp} {s1 s2 : SExpr} {l r : TExpr (ZMod p)} : op.field = some o → Reads D G s1 l → Reads D G s2 r →
      Reads D G (.bin op s1 s2) (.fbin o l r)
  | ubin {op : BinOp} {w : UW} {s1 s2 : SExpr} {l r : TExpr (ZMod p)} : Reads D G s1 l → Reads D G s2 r → Reads D G (.bin op s1 s2) (.ubin w op.uint l r)
  | fpow {s1 s2 : SExpr} {l r : TExpr (ZMod p)} : Reads D G s1 l → Reads D G s2 r → Reads D G (.sh .pow s1 s2) (.fubin .pow l r)
  | fshl {s1 s2 : SExpr} {l r : TExpr (ZMod p)} : Reads D G s1 l → Reads D G s2 r → Reads D G (.sh .shl s1 s2) (.fubin .shl l r)
  | fshr {s1 s2 : SExpr} {l r : TExpr (ZMod p)} : Reads D G s1 l → Reads D G s2 r → Reads D G (.sh .shr s1 s2) (.fubin .shr l r)
  | ushl {w : UW} {s1 s2 : SExpr} {l r : TExpr (ZMod p)} : Reads D G s1 l → Reads D G s2 r → Reads D G (.sh .shl s1 s2) (.ubin w .shl l r)
  | ushr {w : UW} {s1 s2 : SExpr} {l r : TExpr (ZMod p)} : Reads D G s1 l → Reads D G s2 r → Reads D G (.sh .shr s1 s2) (.ubin w .shr l r)
  | logic {op : BOp} {s1 s2 : SExpr} {l r : TExpr (ZMod p)} : Reads D G s1 l → Reads D G s2 r → Reads D G (.logic op s1 s2) (.bbin op l r)
  /-- not intended: `&&` between integer literals is the bitwise operation -/
  | logicF {s1 s2 : SExpr} {l r : TExpr (ZMod p)} : Reads D G s1 l → Reads D G s2 r → Reads D G (.logic .and s1 s2) (.fbin .and l r)
  /-- not intended: `&&` between integer literals is the bitwise operation -/
  | logicU {w : UW} {s1 s2 : SExpr} {l r : TExpr (ZMod p)} : Reads D G s1 l → Reads D G s2 r → Reads D G (.logic .and s1 s2) (.ubin w .and l r)
  | flt {s1 s2 : SExpr} {l r : TExpr (ZMod p)} : Reads D G s1 l → Reads D G s2 r → Reads D G (.rel .lt s1 s2) (.fcmp .lt l r)
  | fle {s1 s2 : SExpr} {l r : TExpr (ZMod p)} : Reads D G s1 l → Reads D G s2 r → Reads D G (.rel .le s1 s2) (.fcmp .le l r)
  | fgt {s1 s2 : SExpr} {l r : TExpr (ZMod p)} : Reads D G s1 l → Reads D G s2 r → Reads D G (.rel .gt s1 s2) (.fcmp .lt r l)
  | fge {s1 s2 : SExpr} {l r : TExpr (ZMod p)} : Reads D G s1 l → Reads D G s2 r → Reads D G (.rel .ge s1 s2) (.fcmp .le r l)
  | ult {s1 s2 : SExpr} {l r : TExpr (ZMod p)} : Reads D G s1 l → Reads D G s2 r → Reads D G (.rel .lt s1 s2) (.ucmp .lt l r)
  | ule {s1 s2 : SExpr} {l r : TExpr (ZMod p)} : Reads D G s1 l → Reads D G s2 r → Reads D G (.rel .le s1 s2) (.ucmp .le l r)
  | ugt {s1 s2 : SExpr} {l r : TExpr (ZMod p)} : Reads D G s1 l → Reads D G s2 r → Reads D G (.rel .gt s1 s2) (.ucmp .lt r l)
  | uge {s1 s2 : SExpr} {l r : TExpr (ZMod p)} : Reads D G s1 l → Reads D G s2 r → Reads D G (.rel .ge s1 s2) (.ucmp .le r l)
  | eq {s1 s2 : SExpr} {l r : TExpr (ZMod p)} : Reads D G s1 l → Reads D G s2 r → Reads D G (.eq s1 s2) (.eq l r)
  | cond {t : CType} {s0 s1 s2 : SExpr} {c l r : TExpr (ZMod p)} : Reads D G s0 c → Reads D G s1 l → Reads D G s2 r →
      Reads D G (.cond s0 s1 s2) (.cond t c l r)
  | select {t : CType} {s1 s2 : SExpr} {a i : TExpr (ZMod p)} : Reads D G s1 a → Reads D G s2 i → Reads D G (.select s1 s2) (.select t a i)
  | element {t : CType} {s : SExpr} {e : TExpr (ZMod p)} {i : ℕ} : Reads D G s e → Reads D G (.element s i) (.element t e i)
  | member {t : CType} {s : SExpr} {e : TExpr (ZMod p)} {m : Str} : Reads D G s e → Reads D G (.member s m) (.member t e m)
  | array {t : CType} {n : ℕ} {ss : List SSpread} {es : List (TSpread (ZMod p))} : ReadsS D G ss es → Reads D G (.array ss) (.array t n es)
  | repeat_ {t : CType} {n : ℕ} {s1 s2 : SExpr} {e c : TExpr (ZMod p)} : Reads D G s1 e → Reads D G s2 c → Reads D G (.repeat_ s1 s2) (.repeat_ t n e c)
  | struct {name : Str} {names : List Str} {ss : List SExpr} {ms : List (Str × CType)} {es : List (TExpr (ZMod p))} : D name = some ms →
      ms.length = names.length → ReadsM D G names ss ms es → Reads D G (.struct name names ss) (.struct ms es)
  | tuple {ts : List CType} {ss : List SExpr} {es : List (TExpr (ZMod p))} : ReadsL D G ss es → Reads D G (.tuple ss) (.tuple ts es)
/-- In order. -/
inductive ReadsL (D : Decls) (G : Scope) : List SExpr → List (TExpr (ZMod p)) → Prop
  | nil : ReadsL D G [] []
  | cons {s : SExpr} {e : TExpr (ZMod p)} {ss : List SExpr} {es : List (TExpr (ZMod p))} : Reads D G s e → ReadsL D G ss es → ReadsL D G (s :: ss) (e :: es)
/-- In order. -/
inductive ReadsS (D : Decls) (G : Scope) : List SSpread → List (TSpread (ZMod p)) → Prop
  | nil : ReadsS D G [] []
  | expr {s : SExpr} {e : TExpr (ZMod p)} {ss : List SSpread} {es : List (TSpread (ZMod p))} : Reads D G s e → ReadsS D G ss es →
      ReadsS D G (.expr s :: ss) (.expr e :: es)
  | spread {s : SExpr} {e : TExpr (ZMod p)} {ss : List SSpread} {es : List (TSpread (ZMod p))} : Reads D G s e → ReadsS D G ss es →
      ReadsS D G (.spread s :: ss) (.spread e :: es)
/-- The members in the order of the declaration, each the value of its name. -/
inductive ReadsM (D : Decls) (G : Scope) : List Str → List SExpr → List (Str × CType) → List (TExpr (ZMod p)) → Prop
  | nil {names : List Str} {ss : List SExpr} : ReadsM D G names ss [] []
  | cons {names : List Str} {ss : List SExpr} {m : Str} {t : CType} {ms : List (Str × CType)} {s : SExpr} {e : TExpr (ZMod p)} {es : List (TExpr (ZMod p))} :
      (names.zip ss).lookup m = some s → Reads D G s e → ReadsM D G names ss ms es → ReadsM D G names ss ((m, t) :: ms) (e :: es)
end

/-! ### Statements and functions -/

/-- The typed assignee is the assignee of the source: the variable is in scope and mutable. -/
inductive ReadsA (D : Decls) (V : SVars) : SAssignee → TAssignee (ZMod p) → Prop
  | ident {x : TId} {t : CType} : V x = some (t, true) → ReadsA D V (.ident x) (.ident x t)
  | select {a : SAssignee} {a' : TAssignee (ZMod p)} {i : SExpr} {e : TExpr (ZMod p)} : ReadsA D V a a' → Reads D V.types i e →
      ReadsA D V (.select a i) (.select a' e)
  | member {a : SAssignee} {a' : TAssignee (ZMod p)} {m : Str} : ReadsA D V a a' → ReadsA D V (.member a m) (.member a' m)
  | element {a : SAssignee} {a' : TAssignee (ZMod p)} {i : ℕ} : ReadsA D V a a' → ReadsA D V (.element a i) (.element a' i)

/-- The typed statements are those of the source, each read in the scope behind the definitions in front of it. -/
inductive ReadsSS (D : Decls) : SVars → List SStmt → List (TStmt (ZMod p)) → Prop
  | nil {V : SVars} : ReadsSS D V [] []
  | definition {V : SVars} {x : TId} {t : CType} {m : Bool} {e : SExpr} {e' : TExpr (ZMod p)} {ss : List SStmt} {ts : List (TStmt (ZMod p))} :
      Reads D V.types e e' → ReadsSS D (V.insert x t m) ss ts → ReadsSS D V (.definition x t m e :: ss) (.definition (.ident x t) e' :: ts)
  | assignment {V : SVars} {a : SAssignee} {a' : TAssignee (ZMod p)} {e : SExpr} {e' : TExpr (ZMod p)} {ss : List SStmt} {ts : List (TStmt (ZMod p))} :
      ReadsA D V a a' → Reads D V.types e e' → ReadsSS D V ss ts → ReadsSS D V (.assignment a e :: ss) (.definition a' e' :: ts)
  | assertion {V : SVars} {e : SExpr} {e' : TExpr (ZMod p)} {err : RuntimeError} {ss : List SStmt} {ts : List (TStmt (ZMod p))} :
      Reads D V.types e e' → ReadsSS D V ss ts → ReadsSS D V (.assertion e err :: ss) (.assertion e' err :: ts)
  | ret {V : SVars} {e : SExpr} {e' : TExpr (ZMod p)} {ss : List SStmt} {ts : List (TStmt (ZMod p))} :
      Reads D V.types e e' → ReadsSS D V ss ts → ReadsSS D V (.ret e :: ss) (.ret e' :: ts)

/-- What remains to be checked in an assignee. -/
def AgreeA : TAssignee (ZMod p) → Prop
  | .ident _ _ => True
  | .select a i => AgreeA a ∧ Agree i
  | .member a _ => AgreeA a
  | .element a _ => AgreeA a

/-- What remains to be checked in a statement. -/
def AgreeStmt : TStmt (ZMod p) → Prop
  | .definition a e => (∀ t, a.ty = some t → Alike e.ty t → e.ty = t) ∧ AgreeA a ∧ Agree e
  | .assertion e _ => Agree e
  | .ret e => Agree e
  | _ => True

/-- The types a statement declares. -/
def SStmt.declares : SStmt → List CType
  | .definition _ t _ _ => [t]
  | _ => []

/-- The types a function declares have sizes below `2^32`, distinct members, and no integer literals of no type. -/
def SFun.TypesOk (f : SFun) : Prop := (∀ q ∈ f.params, TypeOk q.1.ty) ∧ TypeOk f.ret ∧ ∀ s ∈ f.body, ∀ t ∈ s.declares, TypeOk t

/-- The same for the declarations of structs. -/
def Decls.Ok (D : Decls) : Prop := ∀ name ms, D name = some ms → TypeOk (.struct ms)

/-- The statements the checker makes of a function: the `return` of the empty tuple may be left out. -/
def SFun.stmts (f : SFun) : List SStmt := if f.body.any SStmt.isRet then f.body else f.body ++ [.ret (.tuple [])]

end Zok.Sem
