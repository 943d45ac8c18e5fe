import Verif.Model.SMap
import Mathlib.Algebra.Field.Basic

/-
Linear and quadratic combinations: `zokrates_ast/src/ir/expression.rs`. Spans are dropped everywhere (they are
ignored by `PartialEq`/`Hash` in the code).
-/

namespace Zok
variable {F : Type _} [Field F] [DecidableEq F]

/-- `LinComb { value: Vec<(Variable, T)> }`, `expression.rs:72-76`. -/
abbrev LinComb (F : Type _) := List (Variable × F)

/-- `QuadComb { left, right }`, `expression.rs:13-18`. -/
structure QuadComb (F : Type _) where
  left : LinComb F
  right : LinComb F
deriving DecidableEq, Repr

namespace LinComb

/-- `LinComb::summand`, `expression.rs:169-173`. -/
def summand (mult : F) (v : Variable) : LinComb F := [(v, mult)]

/-- `LinComb::zero`, `expression.rs:175-177`. -/
def zero : LinComb F := []

/-- `LinComb::is_zero` (syntactic), `expression.rs:179-181`. -/
def isZero (l : LinComb F) : Bool := l.isEmpty

/-- `LinComb::one`, `expression.rs:247-249`. -/
def one : LinComb F := summand 1 Variable.one

/-- `From<Variable> for LinComb`, `expression.rs:317-322`. -/
def ofVar (v : Variable) : LinComb F := [(v, 1)]

/-- `LinComb::try_constant`, `expression.rs:196-216`; `none` is `Err(self)`. -/
def tryConstant (l : LinComb F) : Option F :=
  match l with
  | [] => some 0
  | (first, _) :: _ =>
    if first ≠ Variable.one then none
    else if l.all (fun e => e.1 = first) then some (l.foldl (fun acc e => acc + e.2) 0)
    else none

/-- `LinComb::try_summand`, `expression.rs:224-245`; `none` is `Err(self)`. -/
def trySummand (l : LinComb F) : Option (Variable × F) :=
  match l with
  | [] => none
  | (first, _) :: _ =>
    if l.all (fun e => e.1 = first) then some (first, l.foldl (fun acc e => acc + e.2) 0)
    else none

/-- One step of the fold in `LinComb::into_canonical`, `expression.rs:258-279`. -/
def canonStep (acc : SMap F) (t : Variable × F) : SMap F :=
  if t.2 ≠ 0 then
    match acc.get t.1 with
    | some o => if o + t.2 ≠ 0 then acc.insert t.1 (o + t.2) else acc.erase t.1
    | none => acc.insert t.1 t.2
  else acc

/-- `LinComb::into_canonical`, `expression.rs:253-282`. -/
def intoCanonical (l : LinComb F) : SMap F := l.foldl canonStep []

/-- `LinComb::reduce`, `expression.rs:284-286` (through `From<CanonicalLinComb>`, `149-156`). -/
def reduce (l : LinComb F) : LinComb F := intoCanonical l

/-- `Add`, `expression.rs:324-332`. -/
def add (a b : LinComb F) : LinComb F := a ++ b

/-- `Sub`, `expression.rs:334-348`. -/
def sub (a b : LinComb F) : LinComb F := a ++ b.map (fun t => (t.1, 0 - t.2))

/-- `Mul<&T>`, `expression.rs:350-365`. -/
def smul (a : LinComb F) (k : F) : LinComb F :=
  if k = 1 then a else a.map (fun t => (t.1, t.2 * k))

/-- `Div<&T>`, `expression.rs:367-374`: multiplication by the inverse; `none` is the `unwrap` panic on a zero
scalar. -/
def div (a : LinComb F) (k : F) : Option (LinComb F) :=
  if k = 0 then none else some (smul a k⁻¹)

/-- `From<T> for LinComb`, `expression.rs:51-55`. -/
def ofConst (k : F) : LinComb F := smul one k

end LinComb

namespace QuadComb

/-- `From<U: Into<LinComb>> for QuadComb`, `expression.rs:57-61`. -/
def ofLin (l : LinComb F) : QuadComb F := ⟨LinComb.one, l⟩

/-- `QuadComb::try_linear`, `expression.rs:33-48`; `none` is `Err`. -/
def tryLinear (q : QuadComb F) : Option (LinComb F) :=
  if q.left.isZero || q.right.isZero then some LinComb.zero
  else match q.left.tryConstant with
    | some k => some (q.right.smul k)
    | none => match q.right.tryConstant with
      | some k => some (q.left.smul k)
      | none => none

/-- `QuadComb::reduce`, `expression.rs:289-298`. -/
def reduce (q : QuadComb F) : QuadComb F := ⟨q.left.reduce, q.right.reduce⟩

end QuadComb
end Zok
