import Verif.Model.StdEcc
import Verif.Spec.Calls
import Verif.Spec.Edwards

/-
Specification of `ecc/`: what the arguments of the functions mean.
-/

namespace Zok.Typed.Std
open Abi
variable {p : ℕ} [Fact p.Prime]

/-- The struct has the parameters of the curve `E`. -/
structure Params.For (c : Params p) (E : Edwards (ZMod p)) : Prop where
  a : c.A = E.a
  d : c.D = E.d
  inf : c.infinity = [0, 1]

/-- A point as a value. -/
def ptV {E : Edwards (ZMod p)} (Q : E.Pt) : AVal (ZMod p) := fieldsV [Q.u, Q.v]

end Zok.Typed.Std
