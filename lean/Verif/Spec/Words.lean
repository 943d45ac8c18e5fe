import Verif.Spec.Calls

/-
Words as values of the language.
-/

namespace Zok.Typed
open Abi
variable {p : ℕ}

/-- A word of 32 bits as a value. -/
def wordV (x : BitVec 32) : AVal (ZMod p) := .uint .b32 x.toNat

/-- An array of words. -/
def wordsV (xs : List (BitVec 32)) : AVal (ZMod p) := .array (xs.map wordV)

/-- The bits of words, most significant bit first. -/
def wordBits (xs : List (BitVec 32)) : List Bool := xs.flatMap fun x => bitsBE 32 x.toNat

/-- The bits of bytes, most significant bit first. -/
def byteBits (ns : List ℕ) : List Bool := ns.flatMap (bitsBE 8)

/-- A byte as a value. -/
def byteV (x : BitVec 8) : AVal (ZMod p) := .uint .b8 x.toNat

/-- An array of bytes. -/
def bytesV (xs : List (BitVec 8)) : AVal (ZMod p) := .array (xs.map byteV)

/-- Bytes as words, most significant byte first. -/
def wordsBE (s : List (BitVec 8)) : List (BitVec 32) := (List.range (s.length / 4)).map fun k => s.getD (4 * k) 0 ++ s.getD (4 * k + 1) 0 ++ s.getD (4 * k + 2) 0 ++ s.getD (4 * k + 3) 0

end Zok.Typed
