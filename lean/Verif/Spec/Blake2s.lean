import Verif.Spec.Sha256

/-
Specification of BLAKE2s (RFC 7693) without key, with hashes of 32 bytes and a personalization of 8 bytes (section 2.8 of the BLAKE2 paper; 8 zeros for the hash function of the RFC).
-/

namespace Zok.Blake2s

abbrev Word := BitVec 32
abbrev Byte := BitVec 8
/-- A vector of words. -/
abbrev Vec := ℕ → Word

/-- `v[i] := x` -/
def Vec.set (v : Vec) (i : ℕ) (x : Word) : Vec := fun k => if k = i then x else v k

/-- Section 2.6: the initialization vector is that of SHA-256. -/
def IV : Vec := fun k => Sha256.H0.getD k 0

/-- Section 2.7. -/
def SIGMA : List (List ℕ) := [
  [0, 1, 2, 3, 4, 5, 6, 7, 8, 9, 10, 11, 12, 13, 14, 15],
  [14, 10, 4, 8, 9, 15, 13, 6, 1, 12, 0, 2, 11, 7, 5, 3],
  [11, 8, 12, 0, 5, 2, 15, 13, 10, 14, 3, 6, 7, 1, 9, 4],
  [7, 9, 3, 1, 13, 12, 11, 14, 2, 6, 5, 10, 4, 0, 15, 8],
  [9, 0, 5, 7, 2, 4, 10, 15, 14, 1, 11, 12, 6, 8, 3, 13],
  [2, 12, 6, 10, 0, 11, 8, 3, 4, 13, 7, 5, 15, 14, 1, 9],
  [12, 5, 1, 15, 14, 13, 4, 10, 0, 7, 6, 3, 9, 2, 8, 11],
  [13, 11, 7, 14, 12, 1, 3, 9, 5, 0, 15, 4, 8, 6, 2, 10],
  [6, 15, 14, 9, 11, 3, 0, 8, 12, 2, 13, 7, 1, 4, 10, 5],
  [10, 2, 8, 4, 7, 6, 1, 5, 15, 11, 9, 14, 3, 12, 13, 0]]

/-- Section 3.1: the mixing function, with the rotations of BLAKE2s. -/
def G (v : Vec) (a b c d : ℕ) (x y : Word) : Vec :=
  let v := v.set a (v a + v b + x)
  let v := v.set d ((v d ^^^ v a).rotateRight 16)
  let v := v.set c (v c + v d)
  let v := v.set b ((v b ^^^ v c).rotateRight 12)
  let v := v.set a (v a + v b + y)
  let v := v.set d ((v d ^^^ v a).rotateRight 8)
  let v := v.set c (v c + v d)
  v.set b ((v b ^^^ v c).rotateRight 7)

/-- Section 3.2: a round. -/
def round (m : Vec) (s : ℕ → ℕ) (v : Vec) : Vec :=
  let v := G v 0 4  8 12 (m (s 0)) (m (s 1))
  let v := G v 1 5  9 13 (m (s 2)) (m (s 3))
  let v := G v 2 6 10 14 (m (s 4)) (m (s 5))
  let v := G v 3 7 11 15 (m (s 6)) (m (s 7))
  let v := G v 0 5 10 15 (m (s 8)) (m (s 9))
  let v := G v 1 6 11 12 (m (s 10)) (m (s 11))
  let v := G v 2 7  8 13 (m (s 12)) (m (s 13))
  G v 3 4  9 14 (m (s 14)) (m (s 15))

/-- `n` rounds -/
def rounds (m : Vec) (v : Vec) : ℕ → Vec
  | 0 => v
  | n + 1 => round m (fun k => (SIGMA.getD n []).getD k 0) (rounds m v n)

/-- The local work vector at the beginning of the compression. -/
def work (h : Vec) (t : ℕ) (f : Bool) : Vec := fun k =>
  if k < 8 then h k
  else if k = 12 then IV 4 ^^^ BitVec.ofNat 32 t
  else if k = 13 then IV 5 ^^^ BitVec.ofNat 32 (t / 2 ^ 32)
  else if k = 14 then (if f then ~~~IV 6 else IV 6)
  else IV (k - 8)

/-- Section 3.2: the compression function. -/
def F (h m : Vec) (t : ℕ) (f : Bool) : Vec := fun k => h k ^^^ rounds m (work h t f) 10 k ^^^ rounds m (work h t f) 10 (k + 8)

/-- Section 2.1: words are little-endian. -/
def word (s : List Byte) (k : ℕ) : Word := s.getD (4 * k + 3) 0 ++ s.getD (4 * k + 2) 0 ++ s.getD (4 * k + 1) 0 ++ s.getD (4 * k) 0

/-- The block `i` of a message, padded with zeros. -/
def block (s : List Byte) (i : ℕ) : Vec := fun k => word s (16 * i + k)

/-- The state after the parameter block: no key, hashes of 32 bytes, fanout and depth 1. -/
def init (person : List Byte) : Vec := fun k => IV k ^^^ (if k = 0 then 0x01010020 else if k = 6 then word person 0 else if k = 7 then word person 1 else 0)

/-- The state after `n` blocks which are not the last one. -/
def state (person s : List Byte) : ℕ → Vec
  | 0 => init person
  | n + 1 => F (state person s n) (block s n) ((n + 1) * 64) false

/-- Section 3.3: the hash. -/
def hash (person s : List Byte) : List Byte :=
  let dd := max 1 ((s.length + 63) / 64)
  let h := F (state person s (dd - 1)) (block s (dd - 1)) s.length true
  (List.range 32).map fun k => (h (k / 4)).extractLsb' (8 * (k % 4)) 8

end Zok.Blake2s
