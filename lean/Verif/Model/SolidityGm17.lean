import Verif.Model.Solidity

/-
The Solidity verifier of GM17, `zokrates_proof_systems/src/scheme/gm17.rs`, with the conventions of `Model/Solidity.lean`. The addition
of points of the second group (`BN256G2.ECTwistAdd`, `solidity.rs:46-111`, arithmetic on Jacobian coordinates) is a parameter.
-/

namespace Zok.Solidity

open Groth
open Abi (Str)

variable {q : ℕ} {G1 G2 GT : Type} [AddCommGroup G1] [AddCommGroup G2] [AddCommGroup GT]

/-- The numbers the template is filled with, `gm17.rs:155-163`. -/
structure Contract17 where
  h : G2Point
  gAlpha : ℕ × ℕ
  hBeta : G2Point
  gGamma : ℕ × ℕ
  hGamma : G2Point
  query : List (ℕ × ℕ)
  inputLength : ℕ

/-- `pairingProd2`, `solidity.rs:519-527`. -/
noncomputable def pairingProd2 [DecidableEq GT] (E : PairingCurve q G1 G2 GT) (a1 : ℕ × ℕ) (a2 : G2Point) (b1 : ℕ × ℕ) (b2 : G2Point) :
    Option Bool := pairing E [a1, b1] [a2, b2]

/-- The two checks at the end of `verify`, `gm17.rs:180-185`. -/
noncomputable def checks17 [DecidableEq GT] (E : PairingCurve q G1 G2 GT) (add : G2Point → G2Point → Option G2Point) (vk : Contract17)
    (x : ℕ × ℕ) (a : ℕ × ℕ) (b : G2Point) (c : ℕ × ℕ) : Option ℕ :=
  match ecAdd E a vk.gAlpha, add b vk.hBeta with
  | some s, some t => match pairingProd4 E vk.gAlpha vk.hBeta x vk.hGamma c vk.h (negate q s) t with
    | none => none
    | some false => some 1
    | some true => match pairingProd2 E a vk.hGamma (negate q vk.gGamma) b with
      | none => none
      | some false => some 2
      | some true => some 0
  | _, _ => none

/-- `verify`, `gm17.rs:164-186`; the loop is the one of Groth16 (`vkX`). -/
noncomputable def contractVerify17 [DecidableEq GT] (E : PairingCurve q G1 G2 GT) (add : G2Point → G2Point → Option G2Point) (r : ℕ)
    (vk : Contract17) (input : List ℕ) (a : ℕ × ℕ) (b : G2Point) (c : ℕ × ℕ) : Option ℕ :=
  if input.length + 1 = vk.query.length then match vkX E r vk.query input 0 (0, 0) with
    | none => none
    | some x => match vk.query[0]? with
      | none => none
      | some g => match ecAdd E x g with
        | none => none
        | some x => checks17 E add vk x a b c
  else none

/-- `verifyTx`, `gm17.rs:187-197`. -/
noncomputable def verifyTx17 [DecidableEq GT] (E : PairingCurve q G1 G2 GT) (add : G2Point → G2Point → Option G2Point) (r : ℕ)
    (vk : Contract17) (a : ℕ × ℕ) (b : G2Point) (c : ℕ × ℕ) (input : List ℕ) : Option Bool :=
  if input.length = vk.inputLength then match contractVerify17 E add r vk input a b c with
    | none => none
    | some n => some (n == 0)
  else none

end Zok.Solidity
