import Mathlib.Algebra.Field.ZMod
import Mathlib.Data.Nat.Prime.Basic

/- Small prime fields used by the non-vacuity examples and counterexamples. -/

namespace Zok
deriving instance DecidableEq for Except

instance fact7 : Fact (Nat.Prime 7) := ⟨by decide⟩
instance fact13 : Fact (Nat.Prime 13) := ⟨by decide⟩
instance fact31 : Fact (Nat.Prime 31) := ⟨by decide⟩
instance fact97 : Fact (Nat.Prime 97) := ⟨by decide⟩
end Zok
