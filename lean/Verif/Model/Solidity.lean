import Verif.Model.ProofJson
import Verif.Spec.Groth16

/-
The Solidity verifier of Groth16, `zokrates_proof_systems/src/scheme/groth16.rs` and `solidity.rs`, `verify` of
`zokrates_ark/src/groth16.rs`, and the arguments `to_token.rs` makes of a proof. `none` is a panic or a revert. Gas, the bytes of the ABI
and the text of the contract are not modelled: of the export, which numbers end up in which places.
-/

namespace Zok.Solidity

open Groth
open Abi (Str)
open Proof (encodeElement toPoint readInput)

variable {q : ℕ} {G1 G2 GT : Type} [AddCommGroup G1] [AddCommGroup G2] [AddCommGroup GT]

/-! ### The precompiled contracts 6, 7 and 8 (external; EIP-196 and EIP-197) -/

/-- The two words of a point: (0, 0) for infinity. -/
def word1 (E : PairingCurve q G1 G2 GT) (P : G1) : ℕ × ℕ := match E.coords1 P with
  | none => (0, 0)
  | some (x, y) => (x.val, y.val)

/-- The four words of a point of the second group: the imaginary part of a coordinate is first. -/
def word2 (E : PairingCurve q G1 G2 GT) (Q : G2) : ℕ × ℕ × ℕ × ℕ := match E.coords2 Q with
  | none => (0, 0, 0, 0)
  | some ((x0, x1), (y0, y1)) => (x1.val, x0.val, y1.val, y0.val)

open Classical in
/-- Words that are not those of a point make the call fail. -/
noncomputable def decode1 (E : PairingCurve q G1 G2 GT) (n : ℕ × ℕ) : Option G1 :=
  if h : ∃ P, word1 E P = n then some h.choose else none

open Classical in
noncomputable def decode2 (E : PairingCurve q G1 G2 GT) (n : ℕ × ℕ × ℕ × ℕ) : Option G2 :=
  if h : ∃ Q, word2 E Q = n then some h.choose else none

/-- Contract 6. -/
noncomputable def ecAdd (E : PairingCurve q G1 G2 GT) (a b : ℕ × ℕ) : Option (ℕ × ℕ) := match decode1 E a, decode1 E b with
  | some P, some Q => some (word1 E (P + Q))
  | _, _ => none

/-- Contract 7: any scalar. -/
noncomputable def ecMul (E : PairingCurve q G1 G2 GT) (a : ℕ × ℕ) (s : ℕ) : Option (ℕ × ℕ) := match decode1 E a with
  | some P => some (word1 E (s • P))
  | none => none

/-- The sum of the pairings, for contract 8. -/
noncomputable def ecSum (E : PairingCurve q G1 G2 GT) : List ((ℕ × ℕ) × (ℕ × ℕ × ℕ × ℕ)) → Option GT
  | [] => some 0
  | (a, b) :: l => match decode1 E a, decode2 E b, ecSum E l with
    | some P, some Q, some t => some (E.pair P Q + t)
    | _, _, _ => none

/-- Contract 8. -/
noncomputable def ecPairing [DecidableEq GT] (E : PairingCurve q G1 G2 GT) (l : List ((ℕ × ℕ) × (ℕ × ℕ × ℕ × ℕ))) : Option Bool :=
  match ecSum E l with
  | some t => some (decide (t = 0))
  | none => none

/-! ### The library `Pairing`, `solidity.rs:418-563` -/

/-- `G2Point`, `solidity.rs:425-428`: `X[0]`, `X[1]`, `Y[0]`, `Y[1]`. -/
structure G2Point where
  X0 : ℕ
  X1 : ℕ
  Y0 : ℕ
  Y1 : ℕ
deriving DecidableEq

/-- The constant `q` of `negate`, `solidity.rs:445`. -/
def fieldModulus : ℕ := 21888242871839275222246405745257275088696311157297823662689037894645226208583

/-- The constant `snark_scalar_field`, `groth16.rs:157`. -/
def snarkScalarField : ℕ := 21888242871839275222246405745257275088548364400416034343698204186575808495617

/-- `negate`, `solidity.rs:443-449`. -/
def negate (q : ℕ) (p : ℕ × ℕ) : ℕ × ℕ := if p.1 = 0 ∧ p.2 = 0 then (0, 0) else (p.1, q - p.2 % q)

/-- `pairing`, `solidity.rs:494-517`. -/
noncomputable def pairing [DecidableEq GT] (E : PairingCurve q G1 G2 GT) (p1 : List (ℕ × ℕ)) (p2 : List G2Point) : Option Bool :=
  if p1.length = p2.length then
    ecPairing E ((p1.zip p2).map fun (a, b) => (a, (b.X1, b.X0, b.Y1, b.Y0)))
  else none

/-- `pairingProd4`, `solidity.rs:545-562`. -/
noncomputable def pairingProd4 [DecidableEq GT] (E : PairingCurve q G1 G2 GT) (a1 : ℕ × ℕ) (a2 : G2Point) (b1 : ℕ × ℕ) (b2 : G2Point)
    (c1 : ℕ × ℕ) (c2 : G2Point) (d1 : ℕ × ℕ) (d2 : G2Point) : Option Bool :=
  pairing E [a1, b1, c1, d1] [a2, b2, c2, d2]

/-! ### The contract, `groth16.rs:133-186` -/

/-- The numbers the template is filled with. -/
structure Contract where
  alpha : ℕ × ℕ
  beta : G2Point
  gamma : G2Point
  delta : G2Point
  gammaAbc : List (ℕ × ℕ)
  /-- `<%vk_input_length%>`, also the length of the array in `<%input_argument%>`. -/
  inputLength : ℕ

/-- The loop of `verify`, `groth16.rs:162-165`; `i` is its index. -/
noncomputable def vkX (E : PairingCurve q G1 G2 GT) (r : ℕ) (gammaAbc : List (ℕ × ℕ)) : List ℕ → ℕ → ℕ × ℕ → Option (ℕ × ℕ)
  | [], _, x => some x
  | s :: ss, i, x =>
    if s < r then match gammaAbc[i + 1]? with
      | none => none
      | some g => match ecMul E g s with
        | none => none
        | some t => match ecAdd E x t with
          | none => none
          | some x => vkX E r gammaAbc ss (i + 1) x
    else none

/-- `verify`, `groth16.rs:156-173`, with the constants `snark_scalar_field` (`r`) and `q` of `negate`. -/
noncomputable def contractVerify [DecidableEq GT] (E : PairingCurve q G1 G2 GT) (r : ℕ) (vk : Contract) (input : List ℕ) (a : ℕ × ℕ)
    (b : G2Point) (c : ℕ × ℕ) : Option ℕ :=
  if input.length + 1 = vk.gammaAbc.length then match vkX E r vk.gammaAbc input 0 (0, 0) with
    | none => none
    | some x => match vk.gammaAbc[0]? with
      | none => none
      | some g => match ecAdd E x g with
        | none => none
        | some x => match pairingProd4 E a b (negate q x) vk.gamma (negate q c) vk.delta (negate q vk.alpha) vk.beta with
          | none => none
          | some ok => if ok then some 0 else some 1
  else none

/-- `verifyTx`, `groth16.rs:174-184`: the ABI only admits arrays of the length in the signature. -/
noncomputable def verifyTx [DecidableEq GT] (E : PairingCurve q G1 G2 GT) (r : ℕ) (vk : Contract) (a : ℕ × ℕ) (b : G2Point)
    (c : ℕ × ℕ) (input : List ℕ) : Option Bool :=
  if input.length = vk.inputLength then match contractVerify E r vk input a b c with
    | none => none
    | some n => some (n == 0)
  else none

/-! ### Export of the contract and of the arguments -/

/-- A key or proof as strings: `G1Affine`, `G2Affine::Fq2`. -/
structure KeyStrings where
  alpha : List Str
  beta : List Str
  gamma : List Str
  delta : List Str
  gammaAbc : List (List Str)

structure PointStrings where
  a : List Str
  b : List Str
  c : List Str

/-- `encode_g1_element`, `to_token.rs:9-14`, and the two literals of `Pairing.G1Point(…)` (`Display` of `G1Affine`, `lib.rs`). -/
def numbers1 : List Str → Option (ℕ × ℕ)
  | [x, y] => match encodeElement x, encodeElement y with
    | some x, some y => some (x, y)
    | _, _ => none
  | _ => none

/-- `encode_g2_element`, `to_token.rs:16-30`, and the literals of `Pairing.G2Point([…], […])`. -/
def numbers2 : List Str → Option G2Point
  | [x0, x1, y0, y1] => match encodeElement x0, encodeElement x1, encodeElement y0, encodeElement y1 with
    | some x0, some x1, some y0, some y1 => some ⟨x0, x1, y0, y1⟩
    | _, _, _, _ => none
  | _ => none

/-- `export_solidity_verifier`, `groth16.rs:40-131`: the first four matches of `vk_regex` are the points in the order of the template;
`gamma_abc_count - 1` is the number of inputs. -/
def exportVerifier (vk : KeyStrings) : Option Contract :=
  match numbers1 vk.alpha, numbers2 vk.beta, numbers2 vk.gamma, numbers2 vk.delta, vk.gammaAbc.mapM numbers1 with
  | some alpha, some beta, some gamma, some delta, some gammaAbc =>
    some ⟨alpha, beta, gamma, delta, gammaAbc, vk.gammaAbc.length - 1⟩
  | _, _, _, _, _ => none

/-- A call of the contract with a proof: `to_token`, `to_token.rs:40-66`, and the public inputs. -/
noncomputable def call [DecidableEq GT] (E : PairingCurve q G1 G2 GT) (r : ℕ) (vk : KeyStrings) (pf : PointStrings)
    (inputs : List Str) : Option Bool :=
  match exportVerifier vk, numbers1 pf.a, numbers2 pf.b, numbers1 pf.c, inputs.mapM encodeElement with
  | some k, some a, some b, some c, some xs => verifyTx E r k a b c xs
  | _, _, _, _, _ => none

/-- `parse_g1` (`Model/ProofJson.lean`) of a point, as `setup` and `generate_proof` write it; the coordinates arkworks has for the point
at infinity are (0, 1). -/
def strings1 (E : PairingCurve q G1 G2 GT) (P : G1) : List Str := match E.coords1 P with
  | none => Proof.parsePoint 2 (Proof.writePoint (q := q) ⟨[0, 1], true⟩)
  | some (x, y) => Proof.parsePoint 2 (Proof.writePoint ⟨[x, y], false⟩)

/-- `parse_g2` of a point. -/
def strings2 (E : PairingCurve q G1 G2 GT) (Q : G2) : List Str := match E.coords2 Q with
  | none => Proof.parsePoint 4 (Proof.writePoint (q := q) ⟨[0, 0, 1, 0], true⟩)
  | some ((x0, x1), (y0, y1)) => Proof.parsePoint 4 (Proof.writePoint ⟨[x0, x1, y0, y1], false⟩)

/-- The key written by `setup`, `zokrates_ark/src/groth16.rs:100-106`. -/
def keyStrings (E : PairingCurve q G1 G2 GT) (vk : Key G1 G2) : KeyStrings :=
  ⟨strings1 E vk.alpha, strings2 E vk.beta, strings2 E vk.gamma, strings2 E vk.delta, vk.gammaAbc.map (strings1 E)⟩

/-- The points written by `generate_proof`, `zokrates_ark/src/groth16.rs:45-49`. -/
def pointStrings (E : PairingCurve q G1 G2 GT) (pf : Points G1 G2) : PointStrings :=
  ⟨strings1 E pf.a, strings2 E pf.b, strings1 E pf.c⟩

/-! ### `verify` of the command line -/

/-- `verify_proof` of `ark-groth16` (external), called in `zokrates_ark/src/groth16.rs:85`, on the public inputs read there: an
error on a wrong number of inputs. -/
def arkVerify [DecidableEq GT] (E : PairingCurve q G1 G2 GT) (vk : Key G1 G2) (pf : Points G1 G2) (xs : List ℕ) : Option Bool :=
  match vk.gammaAbc with
  | [] => none
  | k :: ks =>
    if xs.length = ks.length then
      some (decide (E.pair pf.a pf.b + E.pair (k + msm xs ks) (-vk.gamma) + E.pair pf.c (-vk.delta) = E.pair vk.alpha vk.beta))
    else none

open Classical in
/-- A point of the first group read by `to_g1` (`Model/ProofJson.lean`). Of coordinates that are not those of a point, on which
arkworks computes without any meaning, this is `none`. -/
noncomputable def read1 (E : PairingCurve q G1 G2 GT) (ss : List Str) : Option G1 := match toPoint q ss with
  | some ⟨[x, y], false⟩ => if h : ∃ P, E.coords1 P = some (x, y) then some h.choose else none
  | _ => none

open Classical in
noncomputable def read2 (E : PairingCurve q G1 G2 GT) (ss : List Str) : Option G2 := match toPoint q ss with
  | some ⟨[x0, x1, y0, y1], false⟩ => if h : ∃ Q, E.coords2 Q = some ((x0, x1), (y0, y1)) then some h.choose else none
  | _ => none

/-- `verify`, `zokrates_ark/src/groth16.rs:54-86`. -/
noncomputable def verify [DecidableEq GT] (E : PairingCurve q G1 G2 GT) (r : ℕ) (vk : KeyStrings) (pf : PointStrings)
    (inputs : List Str) : Option Bool :=
  match read1 E vk.alpha, read2 E vk.beta, read2 E vk.gamma, read2 E vk.delta, vk.gammaAbc.mapM (read1 E), read1 E pf.a, read2 E pf.b,
      read1 E pf.c, inputs.mapM (readInput r) with
  | some alpha, some beta, some gamma, some delta, some abc, some a, some b, some c, some xs =>
    arkVerify E ⟨alpha, beta, gamma, delta, abc⟩ ⟨a, b, c⟩ (xs.map ZMod.val)
  | _, _, _, _, _, _, _, _, _ => none

end Zok.Solidity
