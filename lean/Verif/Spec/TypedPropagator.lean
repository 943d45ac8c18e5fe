import Verif.Model.TypedPropagator
import Verif.Spec.TypedEval

/-
Specification for constant propagation on typed programs: which errors mean that the program can never succeed, and when the compile time bit decomposition agrees
with the one at run time.
-/

namespace Zok.Typed
open Abi
variable {p : ℕ} {Z : Type}

/-- Errors which tell that every execution which gets to this point fails: an assertion which is false, an argument outside of the domain of an embedded function, an
index out of bounds, a division by zero. The others are limitations of the pass. -/
def PErr.Detected : PErr → Prop
  | .assertionFailed _ | .invalidValue | .outOfBounds _ _ | .divisionByZero | .uintDivision | .notInField => True
  | _ => False

/-- A bit decomposition at compile time is the only one at run time: `O` allows no other one. Calls of other embedded functions satisfy this trivially. -/
def TStmt.UnpackOnly (O : Oracle p Z) : TStmt (ZMod p) → Prop
  | .embed _ .unpack [n] _ => ∀ x bl, O.unpack n x bl → unpackLoop n x = (bl, 0)
  | _ => True

/-- A bit decomposition at compile time is one of those at run time. -/
def TStmt.UnpackSome (O : Oracle p Z) : TStmt (ZMod p) → Prop
  | .embed _ .unpack [n] _ => ∀ x bl, unpackLoop n x = (bl, 0) → O.unpack n x bl
  | _ => True

/-- The argument types of the embedded functions (`typed_signature`, `zokrates_ast/src/common/embed.rs:198-293`). -/
def embedArgs : Embed → List ℕ → List CType → Prop
  | .fieldToBoolUnsafe, _, ts => ts = [.field]
  | .unpack, _, ts => ts = [.field]
  | .uToBits w, _, ts => ∃ u : UW, u.bits = w ∧ ts = [.uint u]
  | .uFromBits w, _, ts => ts = [.array w .bool]
  | .bitArrayLe, g, ts => ∃ n, g = [n] ∧ ts = [.array n .bool, .array n .bool]

/-- The arguments of calls of embedded functions have the types of the parameters. -/
def TStmt.ArgsTyped {F : Type} : TStmt F → Prop
  | .embed _ f g args => embedArgs f g (args.map TExpr.ty)
  | _ => True

/-- Bit decompositions of field elements have at most `k` bits. -/
def TStmt.UnpackWithin {F : Type} (k : ℕ) : TStmt F → Prop
  | .embed _ .unpack [n] _ => n ≤ k
  | _ => True

end Zok.Typed
