import Verif.Lemmas.StdBlake
import Verif.Lemmas.StdAll

/-
C64: BLAKE2s in the standard library (`zokrates_stdlib/stdlib/hashes/blake2`). The specification of the hash function, RFC 7693, is in `Spec/Blake2s.lean`. The library takes and returns words whose bytes are in big-endian order.
-/

namespace Zok.Typed.Std
open Abi Blake2s
variable {p : ℕ} {Z : Type} [Fact p.Prime] {O : Oracle p Z} {P : Program (ZMod p)}

/-- C64: `blake2s_compression` is the compression function, for all states, blocks, counters of 64 bits and flags. -/
theorem C64_compression (hB : Imports P blake2) (h m : Vec) (t : ℕ) (f : Bool) :
    CallsTo O P blakeF [wordsV ((List.range 8).map h), wordsV ((List.range 16).map m), wordsV [BitVec.ofNat 32 t, BitVec.ofNat 32 (t / 2 ^ 32)], .bool f] (.ok (wordsV ((List.range 8).map (F h m t f)))) := by
  rw [← wordsF_eq, ← wordsF_eq, ← wordsF_eq]
  exact blakeF_spec hB h m t f

/-- C64: `blake2s_p` is BLAKE2s with a personalization, for all messages of one or more whole blocks. -/
theorem C64_blake2s_p (hB : Imports P blake2) {K : ℕ} (hK : 1 ≤ K) (hK2 : K < 2 ^ 32) {s person : List Byte} (hs : s.length = 64 * K) (hp : person.length = 8) :
    CallsTo O P (blakeP K) [.array ((List.range K).map fun i => wordsV (wordsBE ((s.drop (64 * i)).take 64))), wordsV (wordsBE person)] (.ok (wordsV (wordsBE (Blake2s.hash person s)))) :=
  blakeP_hash hB hK hK2 hs hp

/-- C64: `blake2s` is BLAKE2s, for all messages of one or more whole blocks. -/
theorem C64_blake2s (hB : Imports P blake2) {K : ℕ} (hK : 1 ≤ K) (hK2 : K < 2 ^ 32) {s : List Byte} (hs : s.length = 64 * K) :
    CallsTo O P (blake2s K) [.array ((List.range K).map fun i => wordsV (wordsBE ((s.drop (64 * i)).take 64)))] (.ok (wordsV (wordsBE (Blake2s.hash (List.replicate 8 0) s)))) :=
  blake2s_hash hB hK hK2 hs

/-! ### Examples -/

set_option maxRecDepth 1000000 in
/-- The specification has the value of other implementations on 64 zeros. -/
theorem blake2s_zeros : Blake2s.hash (List.replicate 8 0) (List.replicate 64 0) = [0xae#8, 0x09#8, 0xdb#8, 0x7c#8, 0xd5#8, 0x4f#8, 0x42#8, 0xb4#8, 0x90#8, 0xef#8, 0x09#8, 0xb6#8, 0xbc#8, 0x54#8, 0x1a#8, 0xf6#8, 0x88#8, 0xe4#8, 0x95#8, 0x9b#8, 0xb8#8, 0xc5#8, 0x3f#8, 0x35#8, 0x9a#8, 0x6f#8, 0x56#8, 0xe3#8, 0x8a#8, 0xb4#8, 0x54#8, 0xa3#8] := by
  decide +kernel

set_option maxRecDepth 1000000 in
/-- Two blocks, with a personalization. -/
theorem blake2s_two : Blake2s.hash ((List.range 8).map fun k => BitVec.ofNat 8 (k + 1)) ((List.range 128).map (BitVec.ofNat 8)) = [0x56#8, 0xaf#8, 0x31#8, 0x2a#8, 0xb0#8, 0x03#8, 0x2a#8, 0x99#8, 0x25#8, 0xe8#8, 0xad#8, 0xe2#8, 0x9b#8, 0xaf#8, 0x51#8, 0xb2#8, 0xd1#8, 0x61#8, 0x89#8, 0x6c#8, 0x42#8, 0xf0#8, 0x1a#8, 0x37#8, 0x6e#8, 0x9d#8, 0x63#8, 0x27#8, 0x28#8, 0x2c#8, 0x06#8, 0xa7#8] := by
  decide +kernel

local instance fact7B : Fact (Nat.Prime 7) := ⟨by norm_num⟩

example : CallsTo (Oracle.any 7 Unit) stdlib (blake2s 1) [.array [wordsV (wordsBE (List.replicate 64 0))]] (.ok (wordsV (wordsBE [0xae#8, 0x09#8, 0xdb#8, 0x7c#8, 0xd5#8, 0x4f#8, 0x42#8, 0xb4#8, 0x90#8, 0xef#8, 0x09#8, 0xb6#8, 0xbc#8, 0x54#8, 0x1a#8, 0xf6#8, 0x88#8, 0xe4#8, 0x95#8, 0x9b#8, 0xb8#8, 0xc5#8, 0x3f#8, 0x35#8, 0x9a#8, 0x6f#8, 0x56#8, 0xe3#8, 0x8a#8, 0xb4#8, 0x54#8, 0xa3#8]))) := by
  rw [← blake2s_zeros]
  exact C64_blake2s imports_blake2 (K := 1) (by decide) (by decide) (s := List.replicate 64 0) (by decide)

example : ∃ rows, CallsTo (Oracle.any 7 Unit) stdlib (blakeP 2) [.array rows, wordsV (wordsBE ((List.range 8).map fun k => BitVec.ofNat 8 (k + 1)))] (.ok (wordsV (wordsBE [0x56#8, 0xaf#8, 0x31#8, 0x2a#8, 0xb0#8, 0x03#8, 0x2a#8, 0x99#8, 0x25#8, 0xe8#8, 0xad#8, 0xe2#8, 0x9b#8, 0xaf#8, 0x51#8, 0xb2#8, 0xd1#8, 0x61#8, 0x89#8, 0x6c#8, 0x42#8, 0xf0#8, 0x1a#8, 0x37#8, 0x6e#8, 0x9d#8, 0x63#8, 0x27#8, 0x28#8, 0x2c#8, 0x06#8, 0xa7#8]))) := by
  rw [← blake2s_two]
  exact ⟨_, C64_blake2s_p imports_blake2 (K := 2) (by decide) (by decide) (s := (List.range 128).map (BitVec.ofNat 8)) (by simp) (by simp)⟩

end Zok.Typed.Std
