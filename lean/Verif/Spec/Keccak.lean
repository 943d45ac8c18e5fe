import Mathlib.Data.Nat.Notation
import Mathlib.Data.Fin.Basic

/-
Specification of SHA-3 and Keccak on messages of bytes. The permutation is that of FIPS 202 (sections 3.2, 3.3), on lanes of 64 bits; padding, absorbing and squeezing are those of the "Keccak specifications summary"
(https://keccak.team/keccak_specs_summary.html), for hashes which are not longer than the rate.
-/

namespace Zok.Keccak

/-- A lane: the bits `A[x, y, 0], ..., A[x, y, 63]`, from the least significant one. -/
abbrev Lane := BitVec 64
abbrev Byte := BitVec 8

/-- The state array. -/
abbrev State := Fin 5 → Fin 5 → Lane

/-- Section 3.2.1, steps 1 and 2. -/
def C (A : State) (x : Fin 5) : Lane := A x 0 ^^^ A x 1 ^^^ A x 2 ^^^ A x 3 ^^^ A x 4
def D (A : State) (x : Fin 5) : Lane := C A (x - 1) ^^^ (C A (x + 1)).rotateLeft 1
/-- Section 3.2.1 -/
def theta (A : State) : State := fun x y => A x y ^^^ D A x

/-- Section 3.2.2, step 2: the position after `t` steps. -/
def walk : ℕ → Fin 5 × Fin 5
  | 0 => (1, 0)
  | t + 1 => ((walk t).2, 2 * (walk t).1 + 3 * (walk t).2)
/-- Section 3.2.2, step 3: the offset of a lane, `(t + 1)(t + 2) / 2` for the lane which is visited in step `t`, and `0` for the lane `(0, 0)`. -/
def offset (x y : Fin 5) : ℕ :=
  match (List.range 24).find? fun t => walk t = (x, y) with
  | some t => (t + 1) * (t + 2) / 2
  | none => 0
/-- Section 3.2.2 -/
def rho (A : State) : State := fun x y => (A x y).rotateLeft (offset x y)

/-- Section 3.2.3 -/
def pi (A : State) : State := fun x y => A (x + 3 * y) x

/-- Section 3.2.4 -/
def chi (A : State) : State := fun x y => A x y ^^^ (~~~A (x + 1) y &&& A (x + 2) y)

/-- Section 3.2.5, algorithm 5: the register of 8 bits `R[0], ..., R[7]` after `t` steps. -/
def register : ℕ → List Bool
  | 0 => [true, false, false, false, false, false, false, false]
  | t + 1 => match register t with
    | [r0, r1, r2, r3, r4, r5, r6, r7] => [r7, r0, r1, r2, r3 ^^ r7, r4 ^^ r7, r5 ^^ r7, r6]
    | r => r
/-- Section 3.2.5, algorithm 5. -/
def rc (t : ℕ) : Bool := (register (t % 255)).headD false
/-- Section 3.2.5, steps 2 and 3: `RC[2 ^ j - 1] = rc(j + 7 i)`. -/
def RC (i : ℕ) : Lane := (List.range 7).foldl (fun l j => l ||| (if rc (j + 7 * i) then 1#64 <<< (2 ^ j - 1) else 0)) 0
/-- Section 3.2.5 -/
def iota (i : ℕ) (A : State) : State := fun x y => if x = 0 ∧ y = 0 then A x y ^^^ RC i else A x y

/-- Section 3.3: a round. -/
def round (i : ℕ) (A : State) : State := iota i (chi (pi (rho (theta A))))
/-- The state after `n` rounds. -/
def rounds (A : State) : ℕ → State
  | 0 => A
  | n + 1 => round n (rounds A n)
/-- Section 3.3 and 3.4: the permutation of 24 rounds. -/
def keccakF (A : State) : State := rounds A 24

/-- The lanes of a string of 200 bytes: lane `(x, y)` is the number `x + 5 y`, and the first byte is the least significant one. -/
def ofBytes (s : List Byte) : State := fun x y =>
  s.getD (8 * (x + 5 * y) + 7) 0 ++ s.getD (8 * (x + 5 * y) + 6) 0 ++ s.getD (8 * (x + 5 * y) + 5) 0 ++ s.getD (8 * (x + 5 * y) + 4) 0 ++
  s.getD (8 * (x + 5 * y) + 3) 0 ++ s.getD (8 * (x + 5 * y) + 2) 0 ++ s.getD (8 * (x + 5 * y) + 1) 0 ++ s.getD (8 * (x + 5 * y) + 0) 0
/-- The bytes of a state. -/
def toBytes (A : State) : List Byte := (List.range 200).map fun k => (A (Fin.ofNat 5 (k / 8 % 5)) (Fin.ofNat 5 (k / 8 / 5))).extractLsb' (8 * (k % 8)) 8
/-- The permutation of bytes. -/
def permute (s : List Byte) : List Byte := toBytes (keccakF (ofBytes s))

/-- The padded message for a rate of `R` bytes: the byte `d`, which contains the suffix of the hash function and the first bit of the padding, then zeros, and the last bit of the last byte. -/
def pad (R : ℕ) (d : Byte) (m : List Byte) : List Byte :=
  let P := m ++ d :: List.replicate (R - 1 - m.length % R) 0
  P.modify (P.length - 1) (· ^^^ 0x80#8)

/-- A block is added to the beginning of the state. -/
def xorBlock (s b : List Byte) : List Byte := (List.range 200).map fun k => s.getD k 0 ^^^ b.getD k 0
/-- The state after `n` blocks. -/
def absorb (R : ℕ) (P : List Byte) : ℕ → List Byte
  | 0 => List.replicate 200 0
  | n + 1 => permute (xorBlock (absorb R P n) ((P.drop (n * R)).take R))

/-- The hash of `W ≤ R` bytes. -/
def hash (R : ℕ) (d : Byte) (W : ℕ) (m : List Byte) : List Byte := (absorb R (pad R d m) ((pad R d m).length / R)).take W

/-- FIPS 202, section 6.1: SHA3 with hashes of `W` bytes has the capacity `2 W` and the suffix `01`. -/
def sha3 (W : ℕ) (m : List Byte) : List Byte := hash (200 - 2 * W) 0x06 W m
/-- Keccak, without suffix. -/
def keccak (W : ℕ) (m : List Byte) : List Byte := hash (200 - 2 * W) 0x01 W m

end Zok.Keccak
