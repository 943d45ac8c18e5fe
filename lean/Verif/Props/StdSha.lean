import Verif.Lemmas.StdShaPad
import Verif.Lemmas.Sha256Compute
import Verif.Lemmas.StdEddsa
import Verif.Lemmas.StdAll

/-
C61: SHA-256 in the standard library (`zokrates_stdlib/stdlib/hashes/sha256`). The specification of the hash function, FIPS 180-4, is in `Spec/Sha256.lean`.
-/

namespace Zok.Typed.Std
open Abi Sha256
variable {p : ℕ} {Z : Type} [Fact p.Prime] {O : Oracle p Z} {P : Program (ZMod p)}

/-- C61: `shaRound` is the compression function of SHA-256. -/
theorem C61_round (hS : Imports P sha) {M H : List Word} (hM : M.length = 16) (hH : H.length = 8) : CallsTo O P shaRound [wordsV M, wordsV H] (.ok (wordsV (compress H M))) :=
  shaRound_spec hS hM hH

/-- C61: `sha256` compresses any number of blocks, without padding. -/
theorem C61_blocks (hS : Imports P sha) {Ms : List (List Word)} {N : ℕ} (hN : Ms.length = N) (h32 : N < 2 ^ 32) (hM : ∀ M ∈ Ms, M.length = 16) :
    CallsTo O P (sha256 N) [.array (Ms.map wordsV)] (.ok (wordsV (blocks Ms))) :=
  sha256_spec hS hN h32 hM

/-- C61: on bytes, `sha256Padded` is SHA-256, for all messages up to the size which the language can count. -/
theorem C61_bytes (hS : Imports P sha) (hU : Imports P utils) {ns : List ℕ} (hns : ∀ n ∈ ns, n < 2 ^ 8) (h32 : 8 * ns.length + 577 < 2 ^ 32) :
    CallsTo O P (sha256Bytes ns.length) [uintsV .b8 ns] (.ok (wordsV (Sha256.sha256 (byteBits ns)))) :=
  sha256Bytes_spec hS hU rfl hns h32

/-- C61: on bits, `sha256Padded` is SHA-256, for all messages whose length is not 447 modulo 512. -/
theorem C61_bits (hS : Imports P sha) (hU : Imports P utils) {m : List Bool} (h32 : m.length + 577 < 2 ^ 32) (h447 : m.length % 512 ≠ 447) :
    CallsTo O P (sha256Padded m.length) [boolsV m] (.ok (wordsV (Sha256.sha256 m))) := by
  have := sha256Padded_spec (O := O) hS hU (m := m) rfl h32
  rwa [zokPad_eq h447 (by omega)] at this

/-- C61: if the length is 447 modulo 512, then `sha256Padded` adds a block of zeros, which is not the padding of FIPS 180-4. -/
theorem C61_bits_447 (hS : Imports P sha) (hU : Imports P utils) {m : List Bool} (h32 : m.length + 577 < 2 ^ 32) (h447 : m.length % 512 = 447) :
    CallsTo O P (sha256Padded m.length) [boolsV m] (.ok (wordsV (blocks (parse (m ++ [true] ++ List.replicate 512 false ++ bitsBE 64 m.length))))) ∧
      pad m = m ++ [true] ++ bitsBE 64 m.length := by
  have := sha256Padded_spec (O := O) hS hU (m := m) rfl h32
  rw [zokPad_long h447 (by omega)] at this
  refine ⟨this, ?_⟩
  have hz : zeros m.length = 0 := by rw [zeros]; omega
  rw [pad, hz, List.replicate_zero, List.append_nil]

set_option maxRecDepth 100000 in
theorem hash_447 : blocks (parse (zokPad (List.replicate 447 false))) ≠ Sha256.sha256 (List.replicate 447 false) := by
  rw [Sha256.sha256, blocks_fast parse_mem, blocks_fast parse_mem]
  decide +kernel

/-- C61: so that on 447 zeros, the result is not the hash. -/
theorem C61_bits_wrong (hS : Imports P sha) (hU : Imports P utils) : ¬ CallsTo O P (sha256Padded 447) [boolsV (List.replicate 447 false)] (.ok (wordsV (Sha256.sha256 (List.replicate 447 false)))) := by
  intro h
  have h1 := sha256Padded_spec (O := O) hS hU (m := List.replicate 447 false) (N := 447) List.length_replicate (by norm_num)
  have h2 := (h1 _).1 ((h _).2 rfl)
  have h3 := Except.ok.inj h2
  simp only [wordsV, AVal.array.injEq] at h3
  refine hash_447 ((List.map_inj_right fun a b h => ?_).1 h3).symm
  exact BitVec.eq_of_toNat_eq (by simpa [wordV] using h)

/-- C61: `512bit`, `1024bit` and `1536bit` compress the given blocks, without padding. -/
theorem C61_512bit (hS : Imports P sha) {a b : List Word} (ha : a.length = 8) (hb : b.length = 8) : CallsTo O P sha512bit [wordsV a, wordsV b] (.ok (wordsV (blocks [a ++ b]))) :=
  sha512bit_spec hS ha hb

theorem C61_1024bit (hS : Imports P sha) {a b c d : List Word} (ha : a.length = 8) (hb : b.length = 8) (hc : c.length = 8) (hd : d.length = 8) :
    CallsTo O P sha1024bit [wordsV a, wordsV b, wordsV c, wordsV d] (.ok (wordsV (blocks [a ++ b, c ++ d]))) :=
  sha1024bit_spec hS ha hb hc hd

theorem C61_1536bit (hS : Imports P sha) {a b c d e f : List Word} (ha : a.length = 8) (hb : b.length = 8) (hc : c.length = 8) (hd : d.length = 8) (he : e.length = 8) (hf : f.length = 8) :
    CallsTo O P sha1536bit [wordsV a, wordsV b, wordsV c, wordsV d, wordsV e, wordsV f] (.ok (wordsV (blocks [a ++ b, c ++ d, e ++ f]))) :=
  sha1536bit_spec hS ha hb hc hd he hf

/-- C61: `256bitPadded`, `512bitPadded` and `1024bitPadded` are SHA-256 of messages of these sizes. -/
theorem C61_256bitPadded (hS : Imports P sha) {a : List Word} (ha : a.length = 8) : CallsTo O P sha256bitPadded [wordsV a] (.ok (wordsV (Sha256.sha256 (wordBits a)))) :=
  sha256bitPadded_spec hS ha

theorem C61_512bitPadded (hS : Imports P sha) {a b : List Word} (ha : a.length = 8) (hb : b.length = 8) :
    CallsTo O P sha512bitPadded [wordsV a, wordsV b] (.ok (wordsV (Sha256.sha256 (wordBits a ++ wordBits b)))) := by
  rw [← wordBits_append]
  exact sha512bitPadded_spec hS ha hb

theorem C61_1024bitPadded (hS : Imports P sha) {a b c d : List Word} (ha : a.length = 8) (hb : b.length = 8) (hc : c.length = 8) (hd : d.length = 8) :
    CallsTo O P sha1024bitPadded [wordsV a, wordsV b, wordsV c, wordsV d] (.ok (wordsV (Sha256.sha256 (wordBits a ++ wordBits b ++ (wordBits c ++ wordBits d))))) := by
  rw [← wordBits_append, ← wordBits_append, ← wordBits_append]
  exact sha1024bitPadded_spec hS ha hb hc hd

/-- C61: `512bitPacked` can only return the two halves of the hash of four numbers of 128 bits, reduced modulo the order of the field, and fails if one of the arguments is larger. -/
theorem C61_512bitPacked (hS : Imports P sha) (hU : Imports P utils) (hO : Unpacks O) (hC : Canonical O) (hp : p ≠ 2) (x0 x1 x2 x3 : ZMod p) (r : AVal (ZMod p)) :
    Calls O P sha512bitPacked [fieldsV [x0, x1, x2, x3]] (.ok r) ↔ (x0.val < 2 ^ 128 ∧ x1.val < 2 ^ 128 ∧ x2.val < 2 ^ 128 ∧ x3.val < 2 ^ 128) ∧
      r = fieldsV [(natBE (wordBits ((Sha256.sha256 (bitsBE 128 x0.val ++ bitsBE 128 x1.val ++ bitsBE 128 x2.val ++ bitsBE 128 x3.val)).take 4)) : ℕ),
        (natBE (wordBits ((Sha256.sha256 (bitsBE 128 x0.val ++ bitsBE 128 x1.val ++ bitsBE 128 x2.val ++ bitsBE 128 x3.val)).drop 4)) : ℕ)] :=
  sha512bitPacked_spec hS hU hO hC hp

/-- C61: `hashes/utils/256bitsDirectionHelper` orders two halves of a block by a bit. -/
theorem C61_direction {b : Bool} {l r : List Word} (hl : l.length = 8) (hr : r.length = 8) : CallsTo O P directionHelper [.bool b, wordsV l, wordsV r] (.ok (wordsV (if b then r ++ l else l ++ r))) :=
  directionHelper_spec hl hr

/-! ### Examples -/

set_option maxRecDepth 100000 in
/-- The specification has the value of the standard on "abc". -/
theorem sha_abc : Sha256.sha256 (byteBits [0x61, 0x62, 0x63]) = [0xba7816bf#32, 0x8f01cfea#32, 0x414140de#32, 0x5dae2223#32, 0xb00361a3#32, 0x96177a9c#32, 0xb410ff61#32, 0xf20015ad#32] := by
  rw [Sha256.sha256, blocks_fast parse_mem]
  decide +kernel

local instance fact7 : Fact (Nat.Prime 7) := ⟨by norm_num⟩

/-- `sha256Padded` on the bytes of "abc". -/
example : CallsTo (Oracle.any 7 Unit) stdlib (sha256Bytes 3) [uintsV .b8 [0x61, 0x62, 0x63]]
    (.ok (wordsV [0xba7816bf#32, 0x8f01cfea#32, 0x414140de#32, 0x5dae2223#32, 0xb00361a3#32, 0x96177a9c#32, 0xb410ff61#32, 0xf20015ad#32])) := by
  rw [← sha_abc]
  exact C61_bytes (ns := [0x61, 0x62, 0x63]) imports_sha imports_stdlib_utils (by decide) (by decide)

/-- A message of 446 bits is hashed correctly, and one of 447 is not. -/
example : CallsTo (Oracle.any 7 Unit) stdlib (sha256Padded 446) [boolsV (List.replicate 446 false)] (.ok (wordsV (Sha256.sha256 (List.replicate 446 false)))) := by
  have := C61_bits (O := Oracle.any 7 Unit) (P := stdlib) imports_sha imports_stdlib_utils (m := List.replicate 446 false) (by rw [List.length_replicate]; norm_num) (by rw [List.length_replicate]; norm_num)
  rwa [List.length_replicate] at this
example : ¬ CallsTo (Oracle.any 7 Unit) stdlib (sha256Padded 447) [boolsV (List.replicate 447 false)] (.ok (wordsV (Sha256.sha256 (List.replicate 447 false)))) := C61_bits_wrong imports_sha imports_stdlib_utils

end Zok.Typed.Std
