import Verif.Spec.Bits
import Mathlib.Data.Nat.Notation

/-
Specification of SHA-256: FIPS 180-4. Words are bit vectors, the message is a list of bits.
-/

namespace Zok.Sha256

/-- A word. -/
abbrev Word := BitVec 32

/-- Section 4.1.2 -/
def Ch (x y z : Word) : Word := (x &&& y) ^^^ (~~~x &&& z)
def Maj (x y z : Word) : Word := (x &&& y) ^^^ (x &&& z) ^^^ (y &&& z)
def Sigma0 (x : Word) : Word := x.rotateRight 2 ^^^ x.rotateRight 13 ^^^ x.rotateRight 22
def Sigma1 (x : Word) : Word := x.rotateRight 6 ^^^ x.rotateRight 11 ^^^ x.rotateRight 25
def sigma0 (x : Word) : Word := x.rotateRight 7 ^^^ x.rotateRight 18 ^^^ x >>> 3
def sigma1 (x : Word) : Word := x.rotateRight 17 ^^^ x.rotateRight 19 ^^^ x >>> 10

/-- The prime numbers below 312, of which there are 64. -/
def primes : List ℕ := (List.range 312).filter fun n => 2 ≤ n && (List.range n).all fun m => m < 2 || n % m != 0

/-- The first 32 bits of the fractional part of the `k`-th root of `q < 2 ^ 9`: the root of `q * 2 ^ (32 * k)` is computed bit by bit. -/
def rootFrac (k q : ℕ) : ℕ := ((List.range 41).reverse.foldl (fun r b => if (r + 2 ^ b) ^ k ≤ q * 2 ^ (32 * k) then r + 2 ^ b else r) 0) % 2 ^ 32

/-- Section 4.2.2: "the first thirty-two bits of the fractional parts of the cube roots of the first sixty-four prime numbers" -/
def K (t : ℕ) : Word := BitVec.ofNat 32 (rootFrac 3 (primes.getD t 0))

/-- Section 5.3.3: "the first thirty-two bits of the fractional parts of the square roots of the first eight prime numbers" -/
def H0 : List Word := (primes.take 8).map fun q => BitVec.ofNat 32 (rootFrac 2 q)

/-- Section 6.2.2, step 1: the message schedule of a block. -/
def W (M : List Word) (t : ℕ) : Word :=
  if t < 16 then M.getD t 0 else sigma1 (W M (t - 2)) + W M (t - 7) + sigma0 (W M (t - 15)) + W M (t - 16)
termination_by t

/-- The working variables. -/
structure State where
  a : Word
  b : Word
  c : Word
  d : Word
  e : Word
  f : Word
  g : Word
  h : Word

/-- Section 6.2.2, step 3. -/
def step (M : List Word) (t : ℕ) (s : State) : State :=
  let T1 := s.h + Sigma1 s.e + Ch s.e s.f s.g + K t + W M t
  let T2 := Sigma0 s.a + Maj s.a s.b s.c
  { h := s.g, g := s.f, f := s.e, e := s.d + T1, d := s.c, c := s.b, b := s.a, a := T1 + T2 }

/-- The working variables after `t` steps. -/
def steps (M : List Word) (s : State) : ℕ → State
  | 0 => s
  | t + 1 => step M t (steps M s t)

/-- The working variables as a hash value, and back. -/
def State.toList (s : State) : List Word := [s.a, s.b, s.c, s.d, s.e, s.f, s.g, s.h]
def State.ofList (H : List Word) : State := ⟨H.getD 0 0, H.getD 1 0, H.getD 2 0, H.getD 3 0, H.getD 4 0, H.getD 5 0, H.getD 6 0, H.getD 7 0⟩

/-- Section 6.2.2: the intermediate hash value after a block. -/
def compress (H M : List Word) : List Word := List.zipWith (· + ·) (steps M (State.ofList H) 64).toList H

/-- Section 6.2.2: all blocks. -/
def blocks (Ms : List (List Word)) : List Word := Ms.foldl compress H0

/-- Section 5.1.1: the smallest number of zeros such that the padded message is a multiple of 512 bits. -/
def zeros (l : ℕ) : ℕ := (960 - (l + 1) % 512) % 512

/-- Section 5.1.1: the padded message. -/
def pad (m : List Bool) : List Bool := m ++ [true] ++ List.replicate (zeros m.length) false ++ bitsBE 64 m.length

/-- The words of a list of bits. -/
def words (bl : List Bool) : List Word := (List.range (bl.length / 32)).map fun j => BitVec.ofNat 32 (natBE ((bl.drop (32 * j)).take 32))

/-- Section 5.2.1: the blocks of 16 words. -/
def parse (bl : List Bool) : List (List Word) := (List.range (bl.length / 512)).map fun i => words ((bl.drop (512 * i)).take 512)

/-- SHA-256 of a message. -/
def sha256 (m : List Bool) : List Word := blocks (parse (pad m))

end Zok.Sha256
