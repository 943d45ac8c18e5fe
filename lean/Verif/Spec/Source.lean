import Verif.Spec.Semantics

/-
Specification: the meaning of source functions, without a type checker. Field elements are added modulo the field, integers modulo two to their width; an integer literal has
the type of the expression it is used with. Both branches of a conditional are evaluated. A function is evaluated statement by statement.
-/

namespace Zok.Sem
open Typed Abi
variable {p : ℕ}

/-- The types and values of the variables. -/
abbrev SEnv (p : ℕ) := TId → Option (CType × AVal (ZMod p))

/-- A variable gets a type and a value. -/
def SEnv.set (E : SEnv p) (x : TId) (t : CType) (v : AVal (ZMod p)) : SEnv p := fun y => if y = x then some (t, v) else E y

mutual
/-- The type of the expression is not left to the place where it is used: it does not consist of integer literals only. -/
def SExpr.Det : SExpr → Prop
  | .int _ => False
  | .un _ e => e.Det
  | .bin _ l r => l.Det ∨ r.Det
  | .sh _ l _ => l.Det
  | .logic _ l r => l.Det ∨ r.Det
  | .cond _ a b => a.Det ∨ b.Det
  | .select a _ => a.Det
  | .element e _ => e.Det
  | .member e _ => e.Det
  | .array es => DetS es
  | .repeat_ e _ => e.Det
  | .tuple es => DetL es
  | _ => True
/-- All expressions. -/
def DetL : List SExpr → Prop
  | [] => True
  | e :: es => e.Det ∧ DetL es
/-- One of the elements. -/
def DetS : List SSpread → Prop
  | [] => False
  | .expr e :: es => e.Det ∨ DetS es
  | .spread e :: es => e.Det ∨ DetS es
end

/-- Literals of field elements, and powers with exponent zero. -/
def SExpr.isLit : SExpr → Bool
  | .int _ => true
  | .fieldC _ => true
  | .sh .pow _ (.int 0) => true
  | .sh .pow _ (.uintC _ 0) => true
  | _ => false

/-- Comparisons of numbers. -/
def RelOp.on : RelOp → ℕ → ℕ → Bool
  | .lt, a, b => decide (a < b)
  | .le, a, b => decide (a ≤ b)
  | .gt, a, b => decide (a > b)
  | .ge, a, b => decide (a ≥ b)

mutual
/-- The types of operands are not left open: one of two compared values does not consist of literals only, nor does an array, a tuple or a struct of which a part is taken. -/
def SExpr.Definite : SExpr → Prop
  | .un _ e => e.Definite
  | .bin _ l r => l.Definite ∧ r.Definite
  | .sh _ l r => l.Definite ∧ r.Definite
  | .logic _ l r => l.Definite ∧ r.Definite
  | .rel _ l r => (l.Det ∨ r.Det) ∧ l.Definite ∧ r.Definite
  | .eq l r => (l.Det ∨ r.Det) ∧ l.Definite ∧ r.Definite
  | .cond c a b => c.Definite ∧ a.Definite ∧ b.Definite
  | .select a i => a.Det ∧ a.Definite ∧ i.Definite
  | .element e _ => e.Det ∧ e.Definite
  | .member e _ => e.Det ∧ e.Definite
  | .array es => DefiniteS es
  | .repeat_ e c => e.Definite ∧ c.Definite
  | .struct _ _ es => DefiniteL es
  | .tuple es => DefiniteL es
  | _ => True
/-- All expressions. -/
def DefiniteL : List SExpr → Prop
  | [] => True
  | e :: es => e.Definite ∧ DefiniteL es
/-- All elements; an array which is spread does not consist of literals only. -/
def DefiniteS : List SSpread → Prop
  | [] => True
  | .expr e :: es => e.Definite ∧ DefiniteS es
  | .spread e :: es => (e.Det ∧ e.Definite) ∧ DefiniteS es
end

/-- For the indices of assignees. -/
def SAssignee.Definite : SAssignee → Prop
  | .ident _ => True
  | .select a i => a.Definite ∧ i.Definite
  | .member a _ => a.Definite
  | .element a _ => a.Definite

/-- For statements; the last one, and no other, is a `return`. -/
def DefiniteSS : List SStmt → Prop
  | [] => False
  | [.ret e] => e.Definite
  | .ret _ :: _ => False
  | .definition _ _ _ e :: ss => e.Definite ∧ DefiniteSS ss
  | .assignment a e :: ss => a.Definite ∧ e.Definite ∧ DefiniteSS ss
  | .assertion e _ :: ss => e.Definite ∧ DefiniteSS ss

section
variable [Fact p.Prime]

mutual
/-- The expression, read at the type, has the value. -/
inductive Ev (D : Decls) (E : SEnv p) : SExpr → CType → AVal (ZMod p) → Prop
  | intF {n : ℕ} : n < p → Ev D E (.int n) .field (.field n)
  | intU {n : ℕ} {w : UW} : n < 2 ^ w.bits → Ev D E (.int n) (.uint w) (.uint w n)
  | fieldC {n : ℕ} : Ev D E (.fieldC n) .field (.field n)
  | uintC {n : ℕ} {w : UW} : Ev D E (.uintC w n) (.uint w) (.uint w n)
  | boolC {b : Bool} : Ev D E (.boolC b) .bool (.bool b)
  | ident {x : TId} {t : CType} {v : AVal (ZMod p)} : E x = some (t, v) → Ev D E (.ident x) t v
  | fneg {s : SExpr} {a : ZMod p} : Ev D E s .field (.field a) → Ev D E (.un .neg s) .field (.field (-a))
  | fpos {s : SExpr} {a : ZMod p} : Ev D E s .field (.field a) → Ev D E (.un .pos s) .field (.field a)
  | uneg {w : UW} {s : SExpr} {a : ℕ} : Ev D E s (.uint w) (.uint w a) → Ev D E (.un .neg s) (.uint w) (.uint w ((2 ^ w.bits - a) % 2 ^ w.bits))
  | upos {w : UW} {s : SExpr} {a : ℕ} : Ev D E s (.uint w) (.uint w a) → Ev D E (.un .pos s) (.uint w) (.uint w a)
  | unot {w : UW} {s : SExpr} {a : ℕ} : Ev D E s (.uint w) (.uint w a) → Ev D E (.un .not s) (.uint w) (.uint w (2 ^ w.bits - 1 - a))
  | bnot {s : SExpr} {a : Bool} : Ev D E s .bool (.bool a) → Ev D E (.un .not s) .bool (.bool (!a))
  /-- `+`, `-`, `*`, `/` of field elements, the last if the divisor is not zero -/
  | fadd {l r : SExpr} {a b : ZMod p} : Ev D E l .field (.field a) → Ev D E r .field (.field b) → Ev D E (.bin .add l r) .field (.field (a + b))
  | fsub {l r : SExpr} {a b : ZMod p} : Ev D E l .field (.field a) → Ev D E r .field (.field b) → Ev D E (.bin .sub l r) .field (.field (a - b))
  | fmul {l r : SExpr} {a b : ZMod p} : Ev D E l .field (.field a) → Ev D E r .field (.field b) → Ev D E (.bin .mul l r) .field (.field (a * b))
  | fdiv {l r : SExpr} {a b : ZMod p} : Ev D E l .field (.field a) → Ev D E r .field (.field b) → b ≠ 0 → Ev D E (.bin .div l r) .field (.field (a / b))
  /-- the operators of integers: `/` and `%` are undefined for zero -/
  | ubin {op : BinOp} {w : UW} {l r : SExpr} {a b c : ℕ} : Ev D E l (.uint w) (.uint w a) → Ev D E r (.uint w) (.uint w b) → op.uint.eval w.bits a b = .ok c →
      Ev D E (.bin op l r) (.uint w) (.uint w c)
  | pow {l r : SExpr} {a : ZMod p} {k : ℕ} : Ev D E l .field (.field a) → Ev D E r (.uint .b32) (.uint .b32 k) → Ev D E (.sh .pow l r) .field (.field (a ^ k))
  | shl {w : UW} {l r : SExpr} {a k : ℕ} : Ev D E l (.uint w) (.uint w a) → Ev D E r (.uint .b32) (.uint .b32 k) →
      Ev D E (.sh .shl l r) (.uint w) (.uint w ((a * 2 ^ k) % 2 ^ w.bits))
  | shr {w : UW} {l r : SExpr} {a k : ℕ} : Ev D E l (.uint w) (.uint w a) → Ev D E r (.uint .b32) (.uint .b32 k) → Ev D E (.sh .shr l r) (.uint w) (.uint w (a / 2 ^ k))
  | and {l r : SExpr} {a b : Bool} : Ev D E l .bool (.bool a) → Ev D E r .bool (.bool b) → Ev D E (.logic .and l r) .bool (.bool (a && b))
  | or {l r : SExpr} {a b : Bool} : Ev D E l .bool (.bool a) → Ev D E r .bool (.bool b) → Ev D E (.logic .or l r) .bool (.bool (a || b))
  /-- `&&` is the bitwise operation between integers -/
  | andU {w : UW} {l r : SExpr} {a b : ℕ} : Ev D E l (.uint w) (.uint w a) → Ev D E r (.uint w) (.uint w b) → Ev D E (.logic .and l r) (.uint w) (.uint w (a &&& b))
  /-- field elements are compared as numbers below the modulus: this is undefined for large ones, unless one is a literal -/
  | relF {op : RelOp} {l r : SExpr} {a b : ZMod p} : l.Det ∨ r.Det → Ev D E l .field (.field a) → Ev D E r .field (.field b) → cmpDefined p (l.isLit || r.isLit) a b →
      Ev D E (.rel op l r) .bool (.bool (op.on a.val b.val))
  | relU {op : RelOp} {w : UW} {l r : SExpr} {a b : ℕ} : l.Det ∨ r.Det → Ev D E l (.uint w) (.uint w a) → Ev D E r (.uint w) (.uint w b) →
      Ev D E (.rel op l r) .bool (.bool (op.on a b))
  | eqT {t : CType} {l r : SExpr} {a : AVal (ZMod p)} : l.Det ∨ r.Det → Ev D E l t a → Ev D E r t a → Ev D E (.eq l r) .bool (.bool true)
  | eqF {t : CType} {l r : SExpr} {a b : AVal (ZMod p)} : l.Det ∨ r.Det → Ev D E l t a → Ev D E r t b → a ≠ b → Ev D E (.eq l r) .bool (.bool false)
  | condT {t : CType} {c l r : SExpr} {a b : AVal (ZMod p)} : Ev D E c .bool (.bool true) → Ev D E l t a → Ev D E r t b → Ev D E (.cond c l r) t a
  | condF {t : CType} {c l r : SExpr} {a b : AVal (ZMod p)} : Ev D E c .bool (.bool false) → Ev D E l t a → Ev D E r t b → Ev D E (.cond c l r) t b
  | select {n : ℕ} {t : CType} {a i : SExpr} {vs : List (AVal (ZMod p))} {k : ℕ} {v : AVal (ZMod p)} : a.Det → Ev D E a (.array n t) (.array vs) →
      Ev D E i (.uint .b32) (.uint .b32 k) → vs[k]? = some v → Ev D E (.select a i) t v
  | element {ts : List CType} {t : CType} {e : SExpr} {vs : List (AVal (ZMod p))} {i : ℕ} {v : AVal (ZMod p)} : e.Det → Ev D E e (.tuple ts) (.tuple vs) →
      ts[i]? = some t → vs[i]? = some v → Ev D E (.element e i) t v
  | member {ms : List (Str × CType)} {t : CType} {e : SExpr} {fs : List (Str × AVal (ZMod p))} {m : Str} {v : AVal (ZMod p)} : e.Det → Ev D E e (.struct ms) (.struct fs) →
      ms.lookup m = some t → fs.lookup m = some v → Ev D E (.member e m) t v
  | array {n : ℕ} {t : CType} {es : List SSpread} {vs : List (AVal (ZMod p))} : EvS D E es n t vs → Ev D E (.array es) (.array n t) (.array vs)
  | repeat_ {t : CType} {e c : SExpr} {k : ℕ} {v : AVal (ZMod p)} : Ev D E e t v → Ev D E c (.uint .b32) (.uint .b32 k) →
      Ev D E (.repeat_ e c) (.array k t) (.array (List.replicate k v))
  | struct {name : Str} {names : List Str} {es : List SExpr} {ms : List (Str × CType)} {vs : List (AVal (ZMod p))} : D name = some ms → EvM D E names es ms vs →
      Ev D E (.struct name names es) (.struct ms) (.struct ((ms.map Prod.fst).zip vs))
  | tuple {ts : List CType} {es : List SExpr} {vs : List (AVal (ZMod p))} : EvL D E es ts vs → Ev D E (.tuple es) (.tuple ts) (.tuple vs)
/-- In order. -/
inductive EvL (D : Decls) (E : SEnv p) : List SExpr → List CType → List (AVal (ZMod p)) → Prop
  | nil : EvL D E [] [] []
  | cons {e : SExpr} {t : CType} {v : AVal (ZMod p)} {es : List SExpr} {ts : List CType} {vs : List (AVal (ZMod p))} : Ev D E e t v → EvL D E es ts vs →
      EvL D E (e :: es) (t :: ts) (v :: vs)
/-- The elements of an array, of which there are `n`: the elements of a spread array are inserted. -/
inductive EvS (D : Decls) (E : SEnv p) : List SSpread → ℕ → CType → List (AVal (ZMod p)) → Prop
  | nil {t : CType} : EvS D E [] 0 t []
  | expr {e : SExpr} {t : CType} {v : AVal (ZMod p)} {es : List SSpread} {n : ℕ} {vs : List (AVal (ZMod p))} : Ev D E e t v → EvS D E es n t vs →
      EvS D E (.expr e :: es) (n + 1) t (v :: vs)
  | spread {e : SExpr} {t : CType} {m : ℕ} {ws : List (AVal (ZMod p))} {es : List SSpread} {n : ℕ} {vs : List (AVal (ZMod p))} : e.Det →
      Ev D E e (.array m t) (.array ws) → EvS D E es n t vs → EvS D E (.spread e :: es) (m + n) t (ws ++ vs)
/-- The members of a struct in the order of the declaration. -/
inductive EvM (D : Decls) (E : SEnv p) : List Str → List SExpr → List (Str × CType) → List (AVal (ZMod p)) → Prop
  | nil {names : List Str} {es : List SExpr} : EvM D E names es [] []
  | cons {names : List Str} {es : List SExpr} {m : Str} {t : CType} {ms : List (Str × CType)} {e : SExpr} {v : AVal (ZMod p)} {vs : List (AVal (ZMod p))} :
      (names.zip es).lookup m = some e → Ev D E e t v → EvM D E names es ms vs → EvM D E names es ((m, t) :: ms) (v :: vs)
end

/-- The part of a variable which an assignee denotes has the type and the value. -/
inductive EvA (D : Decls) (E : SEnv p) : SAssignee → CType → AVal (ZMod p) → Prop
  | ident {x : TId} {t : CType} {v : AVal (ZMod p)} : E x = some (t, v) → EvA D E (.ident x) t v
  | select {n : ℕ} {t : CType} {a : SAssignee} {i : SExpr} {vs : List (AVal (ZMod p))} {k : ℕ} {v : AVal (ZMod p)} : EvA D E a (.array n t) (.array vs) →
      Ev D E i (.uint .b32) (.uint .b32 k) → vs[k]? = some v → EvA D E (.select a i) t v
  | element {ts : List CType} {t : CType} {a : SAssignee} {vs : List (AVal (ZMod p))} {i : ℕ} {v : AVal (ZMod p)} : EvA D E a (.tuple ts) (.tuple vs) →
      ts[i]? = some t → vs[i]? = some v → EvA D E (.element a i) t v
  | member {ms : List (Str × CType)} {t : CType} {a : SAssignee} {fs : List (Str × AVal (ZMod p))} {m : Str} {v : AVal (ZMod p)} :
      EvA D E a (.struct ms) (.struct fs) → ms.lookup m = some t → fs.lookup m = some v → EvA D E (.member a m) t v

/-- When the part of a variable which an assignee denotes gets the value `v`, the variable `x` gets the value `w`. -/
inductive Put (D : Decls) (E : SEnv p) : SAssignee → AVal (ZMod p) → TId → AVal (ZMod p) → Prop
  | ident {x : TId} {v : AVal (ZMod p)} : Put D E (.ident x) v x v
  | select {n : ℕ} {t : CType} {a : SAssignee} {i : SExpr} {vs : List (AVal (ZMod p))} {k : ℕ} {v w : AVal (ZMod p)} {x : TId} : EvA D E a (.array n t) (.array vs) →
      Ev D E i (.uint .b32) (.uint .b32 k) → k < vs.length → Put D E a (.array (vs.set k v)) x w → Put D E (.select a i) v x w
  | element {t : CType} {a : SAssignee} {vs : List (AVal (ZMod p))} {i : ℕ} {v w : AVal (ZMod p)} {x : TId} : EvA D E a t (.tuple vs) →
      Put D E a (.tuple (vs.set i v)) x w → Put D E (.element a i) v x w
  | member {t : CType} {a : SAssignee} {fs : List (Str × AVal (ZMod p))} {m : Str} {v w : AVal (ZMod p)} {x : TId} : EvA D E a t (.struct fs) →
      Put D E a (.struct (fs.map fun f => if f.1 = m then (f.1, v) else f)) x w → Put D E (.member a m) v x w

/-- The statements are executed, and the last one returns the value, of type `r`. -/
inductive Run (D : Decls) (r : CType) : SEnv p → List SStmt → AVal (ZMod p) → Prop
  | ret {E : SEnv p} {e : SExpr} {v : AVal (ZMod p)} : Ev D E e r v → Run D r E [.ret e] v
  | definition {E : SEnv p} {x : TId} {t : CType} {m : Bool} {e : SExpr} {v out : AVal (ZMod p)} {ss : List SStmt} : Ev D E e t v → Run D r (E.set x t v) ss out →
      Run D r E (.definition x t m e :: ss) out
  | assignment {E : SEnv p} {a : SAssignee} {e : SExpr} {t T : CType} {old v w w' out : AVal (ZMod p)} {x : TId} {ss : List SStmt} : EvA D E a t old → Ev D E e t v →
      Put D E a v x w → E x = some (T, w') → Run D r (E.set x T w) ss out → Run D r E (.assignment a e :: ss) out
  | assertion {E : SEnv p} {e : SExpr} {err : RuntimeError} {out : AVal (ZMod p)} {ss : List SStmt} : Ev D E e .bool (.bool true) → Run D r E ss out →
      Run D r E (.assertion e err :: ss) out

/-- An assertion fails: the statements in front of it are executed. -/
inductive RunFails (D : Decls) : SEnv p → List SStmt → Prop
  | here {E : SEnv p} {e : SExpr} {err : RuntimeError} {ss : List SStmt} : Ev D E e .bool (.bool false) → RunFails D E (.assertion e err :: ss)
  | definition {E : SEnv p} {x : TId} {t : CType} {m : Bool} {e : SExpr} {v : AVal (ZMod p)} {ss : List SStmt} : Ev D E e t v → RunFails D (E.set x t v) ss →
      RunFails D E (.definition x t m e :: ss)
  | assignment {E : SEnv p} {a : SAssignee} {e : SExpr} {t T : CType} {old v w w' : AVal (ZMod p)} {x : TId} {ss : List SStmt} : EvA D E a t old → Ev D E e t v →
      Put D E a v x w → E x = some (T, w') → RunFails D (E.set x T w) ss → RunFails D E (.assignment a e :: ss)
  | assertion {E : SEnv p} {e : SExpr} {err : RuntimeError} {ss : List SStmt} : Ev D E e .bool (.bool true) → RunFails D E ss → RunFails D E (.assertion e err :: ss)

/-- The parameters have the values of the arguments. -/
def SEnv.ofArgs : SEnv p → List (TParam × Bool) → List (AVal (ZMod p)) → SEnv p
  | E, (q, _) :: qs, v :: vs => (E.set q.id q.ty v).ofArgs qs vs
  | E, _, _ => E

/-- The source function returns `out` on the arguments `args`, which have the types of the parameters. -/
def Returns (D : Decls) (f : SFun) (args : List (AVal (ZMod p))) (out : AVal (ZMod p)) : Prop :=
  HasTypeL (f.params.map fun q => q.1.ty) args ∧ Run D f.ret (SEnv.ofArgs (fun _ => none) f.params args) f.stmts out

/-- An assertion of the source function fails on the arguments `args`, which have the types of the parameters. -/
def Fails (D : Decls) (f : SFun) (args : List (AVal (ZMod p))) : Prop :=
  HasTypeL (f.params.map fun q => q.1.ty) args ∧ RunFails D (SEnv.ofArgs (fun _ => none) f.params args) f.stmts

end

end Zok.Sem
