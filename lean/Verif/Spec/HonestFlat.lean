import Verif.Model.Interp
import Verif.Spec.Flat
import Verif.Spec.Circuit
import Verif.Spec.ZirExec

/-
Specification: honest assignments of flat programs. `Hon` describes the values an honest prover computes: a defined
variable has the value of its definition, and the outputs of a directive are what its solver returns, if it returns.
`Good` describes the goal: in addition all solvers return, and all conditions hold.
-/

namespace Zok
variable {p : ℕ} {Z : Type} [Fact p.Prime]

/-- The values computed from a statement. A variable which is not defined before it occurs alone on the left-hand side
of a condition is computed from the right-hand side; the compiler does this only in the majority gadget, whose
conditions carry the error `shaXor` (all other conditions with this error have a compound left-hand side). -/
inductive FlatStmt.Hon (sem : SolverSem (ZMod p) Z) (ρ : Assignment (ZMod p)) : FlatStmt (ZMod p) Z → Prop
  | condition {l q e} (h : ∀ v, l = .ident v → e = .shaXor → ρ v = q.val ρ) : Hon sem ρ (.condition l q e)
  | definition {x e} (h : ρ x = e.val ρ) : Hon sem ρ (.definition x e)
  | directive {o s i} (h : ∀ res, executeSolver sem s (i.map (FlatExpr.val ρ)) [] = .ok res →
      res.length = o.length → o.map ρ = res) : Hon sem ρ (.directive o s i)
  | log (l) : Hon sem ρ (.log l)
  | block {ss} (h : ∀ s ∈ ss, Hon sem ρ s) : Hon sem ρ (.block ss)

/-- The statement succeeds: conditions and definitions hold, solvers return the values of the outputs. -/
inductive FlatStmt.Good (sem : SolverSem (ZMod p) Z) (ρ : Assignment (ZMod p)) : FlatStmt (ZMod p) Z → Prop
  | condition {l q e} (h : l.val ρ = q.val ρ) : Good sem ρ (.condition l q e)
  | definition {x e} (h : ρ x = e.val ρ) : Good sem ρ (.definition x e)
  | directive {o s i} (h : executeSolver sem s (i.map (FlatExpr.val ρ)) [] = .ok (o.map ρ)) :
      Good sem ρ (.directive o s i)
  | log (l) : Good sem ρ (.log l)
  | block {ss} (h : ∀ s ∈ ss, Good sem ρ s) : Good sem ρ (.block ss)

/-- All statements are computed honestly. -/
def HonF (sem : SolverSem (ZMod p) Z) (ρ : Assignment (ZMod p)) (out : List (FlatStmt (ZMod p) Z)) : Prop :=
  ∀ s ∈ out, FlatStmt.Hon sem ρ s

/-- All statements succeed. -/
def GoodF (sem : SolverSem (ZMod p) Z) (ρ : Assignment (ZMod p)) (out : List (FlatStmt (ZMod p) Z)) : Prop :=
  ∀ s ∈ out, FlatStmt.Good sem ρ s

/-- A cache entry holds the low-order digits of the value of the expression, all of them if it is exact. -/
def EntryH (ρ : Assignment (ZMod p)) (f : FlatExpr (ZMod p)) (c : CacheEntry p) : Prop :=
  c.bits.length ≤ Fld.requiredBits p ∧ BitsRel ρ c.bits (bitsBE c.bits.length (f.val ρ).val) ∧
    (c.exact = true → (f.val ρ).val < 2 ^ c.bits.length)

/-- All cache entries hold the digits of their expressions. -/
def CacheH (ρ : Assignment (ZMod p)) (st : FlState p Z) : Prop := ∀ f c, st.cache f = some c → EntryH ρ f c

/-- The choices of an honest prover: hints return what the interpreter computes, and unpacking returns the binary digits
of the canonical representative, which must fit. -/
def Oracle.honest (sem : SolverSem (ZMod p) Z) : Oracle p Z where
  hint f ins outs := executeSolver sem (.zir f) ins [] = .ok outs
  unpack n x bl := x.val < 2 ^ n ∧ bl = bitsBE n x.val

end Zok
