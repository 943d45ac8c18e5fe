import Verif.Spec.Reducer

/-
Specification: the results of calling a function on given values, used for the functions of the standard library.
-/

namespace Zok.Typed
open Abi
variable {p : ℕ} {Z : Type} [Fact p.Prime]

/-- A call of the function `i` on the values `vs` can have the result `r`: the value it returns, or a failure. -/
def Calls (O : Oracle p Z) (P : Program (ZMod p)) (i : Inst (ZMod p)) (vs : List (AVal (ZMod p))) (r : Except Fault (AVal (ZMod p))) : Prop :=
  (∃ σ, ExecSs O P (calleeState i vs) i.body (.ok σ) ∧ r = evalT σ.env i.ret) ∨ ∃ f, ExecSs O P (calleeState i vs) i.body (.error f) ∧ r = .error f

/-- All calls of the function `i` on the values `vs` have the result `r`, and there is one. -/
def CallsTo (O : Oracle p Z) (P : Program (ZMod p)) (i : Inst (ZMod p)) (vs : List (AVal (ZMod p))) (r : Except Fault (AVal (ZMod p))) : Prop :=
  ∀ r', Calls O P i vs r' ↔ r' = r

/-- The prover can only give bits which represent the unpacked field element: this is what the circuit enforces, and no more (`Oracle.any`). -/
def Unpacks (O : Oracle p Z) : Prop := ∀ n x bl, O.unpack n x bl → bl.length = n ∧ ((natBE bl : ℕ) : ZMod p) = x

/-- The prover can give the binary representation of the field element, if it fits. -/
def Canonical (O : Oracle p Z) : Prop := ∀ n x, ZMod.val x < 2 ^ n → O.unpack n x (bitsBE n (ZMod.val x))

/-- An array of booleans. -/
def boolsV (bl : List Bool) : AVal (ZMod p) := .array (bl.map .bool)

/-- An array of integers of `w` bits. -/
def uintsV (w : UW) (ns : List ℕ) : AVal (ZMod p) := .array (ns.map (.uint w))

/-- An array of field elements. -/
def fieldsV (xs : List (ZMod p)) : AVal (ZMod p) := .array (xs.map .field)

end Zok.Typed
