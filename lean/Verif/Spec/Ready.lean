import Verif.Spec.Scope
import Verif.Spec.HonestFlat

/-
Specification of the completeness of a gadget: an honest prover who has satisfied the statements emitted so far can go on.
-/

namespace Zok
variable {p : ℕ} {Z : Type} [Fact p.Prime]

/-- The state of the flattener before a gadget, and the values an honest prover has computed so far. `A` are the variables
that have values before the first statement, `D` those which have values after the last one. -/
structure Ready (sem : SolverSem (ZMod p) Z) (A D : Set Variable) (ρ : Assignment (ZMod p)) (st : FlState p Z) : Prop where
  /-- every variable is computed once, before it is read -/
  emitted : Scs A st.out D
  /-- symbols that are not allocated have no value -/
  unallocated : ∀ k, st.next ≤ k → Variable.new k ∉ D
  layout : ∀ x v, st.layout x = some v → v ∈ D
  cacheKeys : ∀ f c, st.cache f = some c → f.In D
  cacheBits : ∀ f c, st.cache f = some c → ∀ b ∈ c.bits, FlatExpr.In D b
  /-- all solvers have returned and all conditions hold -/
  good : GoodF sem ρ st.out
  digits : CacheH ρ st

/-- The prover can keep the values computed so far and complete them: all solvers return, all conditions hold, and the
result of the gadget satisfies `K`. -/
def Completes (sem : SolverSem (ZMod p) Z) (D : Set Variable) (ρ : Assignment (ZMod p)) (st' : FlState p Z)
    (K : Assignment (ZMod p) → Prop) : Prop :=
  ∃ ρ' : Assignment (ZMod p), (∀ x ∈ D, ρ' x = ρ x) ∧ GoodF sem ρ' st'.out ∧ K ρ'

end Zok
