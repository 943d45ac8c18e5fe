import Verif.Lemmas.StdKeccakHash
import Verif.Lemmas.KeccakCompute
import Verif.Lemmas.StdAll

/-
C63: Keccak and SHA-3 in the standard library (`zokrates_stdlib/stdlib/hashes/keccak` and `hashes/sha3`). The specification of the hash functions, FIPS 202, is in `Spec/Keccak.lean`.
-/

namespace Zok.Typed.Std
open Abi Keccak
variable {p : ℕ} {Z : Type} [Fact p.Prime] {O : Oracle p Z} {P : Program (ZMod p)}

/-- C63: `keccakf` between `from_bytes` and `to_bytes` is the permutation of 200 bytes. -/
theorem C63_permutation (hS : Imports P Std.sha3) (hU : Imports P utils) {s : List Byte} (hs : s.length = 200) :
    ∃ l l', CallsTo O P keccakFromBytes [bytesV s] (.ok l) ∧ CallsTo O P keccakf [l] (.ok l') ∧ CallsTo O P keccakToBytes [l'] (.ok (bytesV (permute s))) := by
  have hl : (permute s).length = 200 := by simp [permute, toBytes]
  rw [bytesV_eq s, bytesV_eq (permute s), hs, hl]
  have he : (List.range 200).map (fun k => s.getD k 0) = s := by
    refine List.ext_getElem (by simp [hs]) fun k h1 h2 => ?_
    simp [h2]
  have h1 := ofBytes_flat fun k => s.getD k 0
  rw [he] at h1
  refine ⟨_, _, keccakFromBytes_spec hS hU _, keccakf_spec hS _ (ofBytes s) h1, ?_⟩
  rw [bytesF_congr (permute_getD s)]
  exact keccakToBytes_spec hS hU _

/-- C63: `keccak` is the sponge with the rate `200 - 2 W`, for all messages and all suffixes, as long as the hash is not longer than the rate. -/
theorem C63_sponge (hS : Imports P Std.sha3) (hU : Imports P utils) (m : List Byte) (hN : m.length < 2 ^ 32) {W : ℕ} (hW : W ≤ 200 - 2 * W) (d : Byte) :
    CallsTo O P (keccakMain m.length W) [bytesV m, byteV d] (.ok (bytesV (Keccak.hash (200 - 2 * W) d W m))) :=
  keccakMain_spec hS hU rfl hN (by omega) d

/-- C63: `hashes/keccak/224bit`, `256bit`, `384bit` and `512bit` are Keccak with hashes of these sizes. -/
theorem C63_keccak (hS : Imports P Std.sha3) (hU : Imports P utils) (m : List Byte) (hN : m.length < 2 ^ 32) {W : ℕ} (hW : W ∈ [28, 32, 48, 64]) :
    ∃ i, P kKeccakBits [] [.array m.length (.uint .b8)] (.array W (.uint .b8)) = some (.here i) ∧ CallsTo O P i [bytesV m] (.ok (bytesV (keccak W m))) := by
  refine ⟨keccakBits 0x01 W m.length, ?_, keccakBits_spec hS hU rfl hN ?_ 0x01⟩
  · simp only [List.mem_cons, List.not_mem_nil, or_false] at hW
    rcases hW with rfl | rfl | rfl | rfl <;> exact hS _ _ _ _ _ rfl
  · simp only [List.mem_cons, List.not_mem_nil, or_false] at hW
    omega

/-- C63: `hashes/sha3/224bit`, `256bit`, `384bit` and `512bit` are SHA3-224, SHA3-256, SHA3-384 and SHA3-512. -/
theorem C63_sha3 (hS : Imports P Std.sha3) (hU : Imports P utils) (m : List Byte) (hN : m.length < 2 ^ 32) {W : ℕ} (hW : W ∈ [28, 32, 48, 64]) :
    ∃ i, P kSha3Bits [] [.array m.length (.uint .b8)] (.array W (.uint .b8)) = some (.here i) ∧ CallsTo O P i [bytesV m] (.ok (bytesV (Keccak.sha3 W m))) := by
  refine ⟨keccakBits 0x06 W m.length, ?_, keccakBits_spec hS hU rfl hN ?_ 0x06⟩
  · simp only [List.mem_cons, List.not_mem_nil, or_false] at hW
    rcases hW with rfl | rfl | rfl | rfl <;> exact hS _ _ _ _ _ rfl
  · simp only [List.mem_cons, List.not_mem_nil, or_false] at hW
    omega

/-! ### Examples -/

set_option maxRecDepth 1000000 in
/-- The specification has the value of the standard on the empty message. -/
theorem sha3_empty : Keccak.sha3 32 [] = [0xa7#8, 0xff#8, 0xc6#8, 0xf8#8, 0xbf#8, 0x1e#8, 0xd7#8, 0x66#8, 0x51#8, 0xc1#8, 0x47#8, 0x56#8, 0xa0#8, 0x61#8, 0xd6#8, 0x62#8, 0xf5#8, 0x80#8, 0xff#8, 0x4d#8, 0xe4#8, 0x3b#8, 0x49#8, 0xfa#8, 0x82#8, 0xd8#8, 0x0a#8, 0x4b#8, 0x80#8, 0xf8#8, 0x43#8, 0x4a#8] := by
  rw [Keccak.sha3, Keccak.hash, absorb_fast]
  decide +kernel

set_option maxRecDepth 1000000 in
/-- Keccak-256 of "abc". -/
theorem keccak_abc : keccak 32 [0x61, 0x62, 0x63] = [0x4e#8, 0x03#8, 0x65#8, 0x7a#8, 0xea#8, 0x45#8, 0xa9#8, 0x4f#8, 0xc7#8, 0xd4#8, 0x7b#8, 0xa8#8, 0x26#8, 0xc8#8, 0xd6#8, 0x67#8, 0xc0#8, 0xd1#8, 0xe6#8, 0xe3#8, 0x3a#8, 0x64#8, 0xa0#8, 0x36#8, 0xec#8, 0x44#8, 0xf5#8, 0x8f#8, 0xa1#8, 0x2d#8, 0x6c#8, 0x45#8] := by
  rw [keccak, Keccak.hash, absorb_fast]
  decide +kernel

set_option maxRecDepth 1000000 in
/-- SHA3-224 of 144 zeros: two blocks. -/
theorem sha3_zeros : Keccak.sha3 28 (List.replicate 144 0) = [0xf2#8, 0xb8#8, 0x48#8, 0x6f#8, 0xce#8, 0xee#8, 0x2c#8, 0x6a#8, 0x11#8, 0xa6#8, 0x04#8, 0xce#8, 0x4e#8, 0xfe#8, 0x21#8, 0x7d#8, 0xa8#8, 0x54#8, 0x82#8, 0x9c#8, 0x2c#8, 0x2d#8, 0xcc#8, 0x9a#8, 0x23#8, 0x75#8, 0x8b#8, 0x4d#8] := by
  rw [Keccak.sha3, Keccak.hash, absorb_fast]
  decide +kernel

local instance fact7' : Fact (Nat.Prime 7) := ⟨by norm_num⟩

example : CallsTo (Oracle.any 7 Unit) stdlib (keccakBits 0x06 32 0) [bytesV []] (.ok (bytesV [0xa7#8, 0xff#8, 0xc6#8, 0xf8#8, 0xbf#8, 0x1e#8, 0xd7#8, 0x66#8, 0x51#8, 0xc1#8, 0x47#8, 0x56#8, 0xa0#8, 0x61#8, 0xd6#8, 0x62#8, 0xf5#8, 0x80#8, 0xff#8, 0x4d#8, 0xe4#8, 0x3b#8, 0x49#8, 0xfa#8, 0x82#8, 0xd8#8, 0x0a#8, 0x4b#8, 0x80#8, 0xf8#8, 0x43#8, 0x4a#8])) := by
  rw [← sha3_empty]
  exact keccakBits_spec imports_sha3 imports_stdlib_utils rfl (by decide) (by decide) 0x06

example : CallsTo (Oracle.any 7 Unit) stdlib (keccakMain 3 32) [bytesV [0x61, 0x62, 0x63], byteV 0x01] (.ok (bytesV [0x4e#8, 0x03#8, 0x65#8, 0x7a#8, 0xea#8, 0x45#8, 0xa9#8, 0x4f#8, 0xc7#8, 0xd4#8, 0x7b#8, 0xa8#8, 0x26#8, 0xc8#8, 0xd6#8, 0x67#8, 0xc0#8, 0xd1#8, 0xe6#8, 0xe3#8, 0x3a#8, 0x64#8, 0xa0#8, 0x36#8, 0xec#8, 0x44#8, 0xf5#8, 0x8f#8, 0xa1#8, 0x2d#8, 0x6c#8, 0x45#8])) := by
  rw [← keccak_abc]
  exact C63_sponge imports_sha3 imports_stdlib_utils [0x61, 0x62, 0x63] (by decide) (by decide) 0x01

end Zok.Typed.Std
