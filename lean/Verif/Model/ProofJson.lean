import Verif.Model.Serialize
import Verif.Model.Abi

/-
The strings in proofs and verification keys: `zokrates_ark/src/lib.rs` (modules `parse` and `serialization`),
`zokrates_ark/src/groth16.rs`, `zokrates_proof_systems/src/to_token.rs`. `none` is a panic. JSON around the strings (serde) is not
modelled.
-/

namespace Zok.Proof

open Ser (Bytes)
open Abi (Str trimHex)

/-! ### The crate `hex` (external) -/

/-- A digit: lower case. -/
def hexDigit (d : ℕ) : Char := if d < 10 then Char.ofNat (48 + d) else Char.ofNat (87 + d)

/-- `hex::encode`. -/
def hexEncode : Bytes → Str
  | [] => []
  | b :: bs => hexDigit (b / 16) :: hexDigit (b % 16) :: hexEncode bs

/-- The value of a digit of either case. -/
def hexVal (c : Char) : Option ℕ :=
  if '0' ≤ c ∧ c ≤ '9' then some (c.toNat - 48)
  else if 'a' ≤ c ∧ c ≤ 'f' then some (c.toNat - 87)
  else if 'A' ≤ c ∧ c ≤ 'F' then some (c.toNat - 55)
  else none

/-- `hex::decode`: an even number of digits. -/
def hexDecode : Str → Option Bytes
  | [] => some []
  | [_] => none
  | c :: d :: s => match hexVal c, hexVal d, hexDecode s with
    | some a, some b, some bs => some ((16 * a + b) :: bs)
    | _, _, _ => none

/-! ### Points (external crates `ark-ff`, `ark-ec`) -/

/-- `GroupAffine`: the coordinates (two of `Fq`, or four, those of two elements `c0 + c1 u` of `Fq2`), and the flag of the point at
infinity, whose coordinates have no meaning. -/
structure Point (q : ℕ) where
  coords : List (ZMod q)
  infinity : Bool
deriving DecidableEq

variable {q : ℕ}

/-- `ToBytes` of a field element: its limbs, little-endian. -/
def writeField (x : ZMod q) : Bytes := Fld.bytesLE (8 * Fld.limbs q) x.val

/-- `FromBytes` of a field element: the integer has to be below the modulus. -/
def readField (q : ℕ) (b : Bytes) : Option (ZMod q × Bytes) :=
  if b.length < 8 * Fld.limbs q then none
  else if Fld.natLE (b.take (8 * Fld.limbs q)) < q then
    some ((Fld.natLE (b.take (8 * Fld.limbs q)) : ℕ), b.drop (8 * Fld.limbs q))
  else none

/-- `ToBytes` of a point: coordinates and flag. -/
def writePoint (P : Point q) : Bytes := P.coords.flatMap writeField ++ [if P.infinity then 1 else 0]

/-- `FromBytes` of `n` coordinates. -/
def readFields (q : ℕ) : ℕ → Bytes → Option (List (ZMod q) × Bytes)
  | 0, b => some ([], b)
  | n + 1, b => match readField q b with
    | none => none
    | some (x, b) => match readFields q n b with
      | none => none
      | some (xs, b) => some (x :: xs, b)

/-- `FromBytes` of a point with `n` coordinates: it is not checked to be on the curve; bytes after the flag are ignored. -/
def readPoint (q n : ℕ) (b : Bytes) : Option (Point q) := match readFields q n b with
  | some (xs, 0 :: _) => some ⟨xs, false⟩
  | some (xs, 1 :: _) => some ⟨xs, true⟩
  | _ => none

/-! ### Writing: `mod parse`, `zokrates_ark/src/lib.rs:144-227` -/

/-- `format!("0x{}", hex::encode(&bytes))` of the reversed bytes, `lib.rs:162-168`. -/
def hexString (b : Bytes) : Str := '0' :: 'x' :: hexEncode b.reverse

/-- `parse_g1`, `lib.rs:150-169`, and both cases of `parse_g2`, `lib.rs:171-218`, of the bytes of a point with `n` coordinates: the
last byte, the flag, is left out. With two coordinates the second one is `bytes[element_length..length]`, which is the same since
the length is even. -/
def parsePoint (n : ℕ) (bytes : Bytes) : List Str :=
  let length := bytes.length - 1
  let elementLength := length / n
  (List.range n).map fun i => hexString ((bytes.drop (i * elementLength)).take elementLength)

/-- `parse_fr`, `lib.rs:220-226`. -/
def parseFr (x : ZMod q) : Str := hexString (writeField x)

/-! ### Reading -/

/-- `decode_hex`, `lib.rs:235-240`: `strip_prefix("0x").unwrap()`. -/
def decodeHex : Str → Option Bytes
  | '0' :: 'x' :: s => match hexDecode s with
    | none => none
    | some b => some b.reverse
  | _ => none

/-- The bytes of all coordinates. -/
def decodeAll : List Str → Option Bytes
  | [] => some []
  | s :: ss => match decodeHex s, decodeAll ss with
    | some b, some bs => some (b ++ bs)
    | _, _ => none

/-- `to_g1`, `lib.rs:242-249`, and `to_g2`, `lib.rs:251-272`: the flag pushed is always 0. -/
def toPoint (q : ℕ) (ss : List Str) : Option (Point q) := match decodeAll ss with
  | none => none
  | some b => readPoint q ss.length (b ++ [0])

/-- The public inputs read by `verify`, `zokrates_ark/src/groth16.rs:75-83` (the same in `gm17.rs`, `marlin.rs` and in
`zokrates_bellman/src/groth16.rs`): `T::try_from_str(s.trim_start_matches("0x"), 16).unwrap()`. -/
def readInput (q : ℕ) (s : Str) : Option (ZMod q) := Fld.tryFromStr q (trimHex s) 16

/-- `encode_fr_element`, `to_token.rs:32-34`, and each coordinate in `encode_g1_element` and `encode_g2_element`, `to_token.rs:9-30`:
`U256::from(&[u8])` is big-endian, and panics on more than 32 bytes. -/
def encodeElement (s : Str) : Option ℕ := match hexDecode (trimHex s) with
  | none => none
  | some b => if b.length ≤ 32 then some (Fld.natLE b.reverse) else none

end Zok.Proof
