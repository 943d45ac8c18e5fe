import Verif.Lemmas.StdPedersen
import Verif.Lemmas.PedersenDigits

/-
C67: the Pedersen hash of the standard library (`zokrates_stdlib/stdlib/hashes/pedersen`). The specification is in `Spec/Pedersen.lean`.
-/

namespace Zok.Typed.Std
open Abi Pedersen
variable {Z : Type} {O : Oracle Bn128 Z} {P : Program (ZMod Bn128)}

/-- C67: over the field of Bn128, `512bitBool` returns the compressed Pedersen hash of the message: the `v` coordinate of the point, with the parity of the `u` coordinate as the highest bit, where the
prover chooses the representatives of both coordinates. -/
theorem C67_pedersenBool (hU : Imports P utils) (hE : Imports P ecc) {m : List Bool} (hm : m.length = 512) (r : AVal (ZMod Bn128)) : Calls (Oracle.any Bn128 Z) P pedersenBool [boolsV m] (.ok r) ↔
    ∃ k, Scalar (Pedersen.hash base m).u k ∧ ∃ l, Scalar (Pedersen.hash base m).v l ∧ r = boolsV (bitsBE 256 (k % 2 * 2 ^ 255 + l)) := by
  rw [pedersenBool_spec hU (fun n x bl h => h) hE hm]
  exact C60_compress hU _ _ r

theorem compressed_lt {k l : ℕ} (hl : l < 2 ^ 254) : k % 2 * 2 ^ 255 + l < 2 ^ 256 := by
  have := Nat.mod_lt k (show 0 < 2 by omega)
  have : k % 2 * 2 ^ 255 ≤ 1 * 2 ^ 255 := Nat.mul_le_mul_right _ (by omega)
  omega

theorem boolsV_inj {a b : List Bool} (h : boolsV (p := Bn128) a = boolsV b) : a = b := by
  simp only [boolsV, AVal.array.injEq] at h
  exact (List.map_inj_right fun a b h => by simpa using h).1 h

/-- C67: `512bit` is the same on words: the message is the sequence of the bits of the words, and so is the result. -/
theorem C67_pedersen (hU : Imports P utils) (hE : Imports P ecc) (hH : Imports P pedersenLib) {xs : List (BitVec 32)} (hx : xs.length = 16) (ws : List (BitVec 32)) (hw : ws.length = 8) :
    Calls (Oracle.any Bn128 Z) P pedersen512 [wordsV xs] (.ok (wordsV ws)) ↔ ∃ k, Scalar (Pedersen.hash base (wordBits xs)).u k ∧ ∃ l, Scalar (Pedersen.hash base (wordBits xs)).v l ∧
      natBE (wordBits ws) = k % 2 * 2 ^ 255 + l := by
  have hlen : (wordBits xs).length = 512 := by rw [wordBits_length, hx]
  have hwl : (wordBits ws).length = 256 := by rw [wordBits_length, hw]
  have h1 : Calls (Oracle.any Bn128 Z) P pedersen512 [wordsV xs] (.ok (wordsV ws)) ↔ Calls (Oracle.any Bn128 Z) P pedersenBool [boolsV (wordBits xs)] (.ok (boolsV (wordBits ws))) := by
    rw [pedersen512_spec hU hH (fun n x bl h => h) hE hx]
    constructor
    · rintro ⟨ws', -, h, e⟩
      have : ws = ws' := by
        simp only [wordsV, AVal.array.injEq] at e
        refine (List.map_inj_right fun a b h => ?_).1 e
        simp only [wordV, AVal.uint.injEq, true_and] at h
        exact BitVec.eq_of_toNat_eq h
      rwa [this]
    · exact fun h => ⟨ws, hw, h, rfl⟩
  rw [h1, C67_pedersenBool hU hE hlen]
  refine exists_congr fun k => and_congr_right fun _ => exists_congr fun l => and_congr_right fun hl => ?_
  constructor
  · intro h
    rw [boolsV_inj h, natBE_bitsBE_of_lt (compressed_lt hl.1)]
  · intro h
    rw [← h]
    conv_lhs => rw [← bitsBE_natBE (wordBits ws), hwl]

/-- C67: the result of `512bit` always consists of 8 words. -/
theorem C67_result (hU : Imports P utils) (hE : Imports P ecc) (hH : Imports P pedersenLib) {xs : List (BitVec 32)} (hx : xs.length = 16) {r : AVal (ZMod Bn128)}
    (h : Calls (Oracle.any Bn128 Z) P pedersen512 [wordsV xs] (.ok r)) : ∃ ws : List (BitVec 32), ws.length = 8 ∧ r = wordsV ws := by
  obtain ⟨ws, h1, -, h2⟩ := (pedersen512_spec hU hH (fun n x bl h => h) hE hx).1 h
  exact ⟨ws, h1, h2⟩

/-- C67: if the prover only uses the binary representations of field elements, then a collision gives a relation between the three base points with integers which are small against their order. -/
theorem C67_collision (hU : Imports P utils) (hE : Imports P ecc) (hO : ∀ n x bl, O.unpack n x bl ↔ ZMod.val x < 2 ^ n ∧ bl = bitsBE n (ZMod.val x)) {m m' : List Bool} (hm : m.length = 512) (hm' : m'.length = 512)
    (hne : m ≠ m') {r : AVal (ZMod Bn128)} (h1 : Calls O P pedersenBool [boolsV m] (.ok r)) (h2 : Calls O P pedersenBool [boolsV m'] (.ok r)) :
    ∃ n0 n1 n2 : ℤ, ¬ (n0 = 0 ∧ n1 = 0 ∧ n2 = 0) ∧ |n0| < 2 ^ 248 ∧ |n1| < 2 ^ 248 ∧ |n2| < 2 ^ 248 ∧ n0 • base 0 + n1 • base 1 + n2 • base 2 = 0 := by
  have hU' : Unpacks O := fun n x bl h => by
    obtain ⟨h1, rfl⟩ := (hO n x bl).1 h
    exact ⟨by simp, by rw [natBE_bitsBE_of_lt h1]; simp⟩
  have he := C60_compress_injective hU hO (by decide +kernel) ((pedersenBool_spec hU hU' hE hm).1 h1) ((pedersenBool_spec hU hU' hE hm').1 h2)
  refine ⟨scalar m 0 62 - scalar m' 0 62, scalar m 1 62 - scalar m' 1 62, scalar m 2 47 - scalar m' 2 47, ?_, ?_, ?_, ?_, ?_⟩
  · rintro ⟨h3, h4, h5⟩
    exact hne (scalar_inj hm hm' (sub_eq_zero.1 h3) (sub_eq_zero.1 h4) (sub_eq_zero.1 h5))
  · have a := abs_lt.1 (scalar_bound m 0 62 le_rfl)
    have b := abs_lt.1 (scalar_bound m' 0 62 le_rfl)
    rw [abs_lt]
    constructor <;> linarith
  · have a := abs_lt.1 (scalar_bound m 1 62 le_rfl)
    have b := abs_lt.1 (scalar_bound m' 1 62 le_rfl)
    rw [abs_lt]
    constructor <;> linarith
  · have a := abs_lt.1 (scalar_bound m 2 47 (by omega))
    have b := abs_lt.1 (scalar_bound m' 2 47 (by omega))
    rw [abs_lt]
    constructor <;> linarith
  · have e : ∀ m : List Bool, Pedersen.hash base m = scalar m 0 62 • base 0 + scalar m 1 62 • base 1 + scalar m 2 47 • base 2 := fun _ => rfl
    rw [e, e] at he
    rw [sub_smul, sub_smul, sub_smul]
    rw [← sub_eq_zero] at he
    rw [← he]
    abel

/-! ### The test of the library -/

/-- The message of `zokrates_stdlib/tests/tests/hashes/pedersen/512bit.zok`. -/
def pedMessage : List (BitVec 32) := [0x17d2e6d9#32, 0x5c74e97c#32, 0x4bf60cc0#32, 0xc6a6b417#32, 0xbafc54e9#32, 0x205c8080#32, 0x261f4244#32, 0x9634d6df#32, 0x8e7f5e06#32, 0x6a296ecf#32, 0x1dc1838c#32, 0x791c8f5a#32,
  0xee9eca33#32, 0x2100f189#32, 0xc96b0288#32, 0xc6b1501f#32]

theorem pedMessage_at : At (Pedersen.hash base (wordBits pedMessage)) 14824105269694357249128349551358730282603649914531853690214501420728398541674 3109075423673860649393779758907262399646758462980075672936109170689734879243 := by
  have h0 : scalar (wordBits pedMessage) 0 62 = 86677389722305088931212679413772187203849244822940741218439773655229455329 := by decide +kernel
  have h1 : scalar (wordBits pedMessage) 1 62 = 26067355494112459317531725529320612745706520560920051514846078472463445777 := by decide +kernel
  have h2 : scalar (wordBits pedMessage) 2 47 = 92052576574954845029755638290744105446791901748325526748 := by decide +kernel
  rw [Pedersen.hash, h0, h1, h2]
  exact proj_at (pjAdd_proj (pjAdd_proj (mulZ_proj (by decide +kernel) (base_at 0 (by omega))) (mulZ_proj (by decide +kernel) (base_at 1 (by omega)))) (mulZ_proj (by decide +kernel) (base_at 2 (by omega)))) (by decide +kernel)

theorem scalar_at {x : ℕ} (h : x < 2 ^ 254) : Scalar (x : ZMod Bn128) x := ⟨h, rfl⟩

/-- C67: the test of the library. -/
theorem C67_test : Calls (Oracle.any Bn128 Z) stdlib pedersen512 [wordsV pedMessage]
    (.ok (wordsV [0x06dfaca0#32, 0xd82c07ae#32, 0x33787b2f#32, 0x66531802#32, 0x9f789f16#32, 0x89218926#32, 0x29f14d70#32, 0x2a28280b#32])) := by
  rw [C67_pedersen imports_stdlib_utils imports_ecc imports_pedersen rfl _ rfl, pedMessage_at.1, pedMessage_at.2]
  exact ⟨_, scalar_at (by decide +kernel), _, scalar_at (by decide +kernel), by decide +kernel⟩

/-- C67: the hash is not a function of the message: the prover has another result for the message of the test. -/
theorem C67_second_result : ∃ ws : List (BitVec 32), ws ≠ [0x06dfaca0#32, 0xd82c07ae#32, 0x33787b2f#32, 0x66531802#32, 0x9f789f16#32, 0x89218926#32, 0x29f14d70#32, 0x2a28280b#32] ∧
    Calls (Oracle.any Bn128 Z) stdlib pedersen512 [wordsV pedMessage] (.ok (wordsV ws)) := by
  refine ⟨Sha256.words (bitsBE 256 (3109075423673860649393779758907262399646758462980075672936109170689734879243 + Bn128)), by decide +kernel, ?_⟩
  rw [C67_pedersen imports_stdlib_utils imports_ecc imports_pedersen rfl _ (by decide +kernel), pedMessage_at.1, pedMessage_at.2]
  refine ⟨_, scalar_at (by decide +kernel), 3109075423673860649393779758907262399646758462980075672936109170689734879243 + Bn128, ⟨by decide +kernel, by rw [Nat.cast_add, ZMod.natCast_self, add_zero]⟩, by decide +kernel⟩

/-- The hypothesis of `C67_collision` on the oracle is met by the binary representation. -/
example : ∃ O : Oracle Bn128 Unit, ∀ n x bl, O.unpack n x bl ↔ ZMod.val x < 2 ^ n ∧ bl = bitsBE n (ZMod.val x) := ⟨{ Oracle.any Bn128 Unit with unpack := fun n x bl => ZMod.val x < 2 ^ n ∧ bl = bitsBE n (ZMod.val x) }, fun _ _ _ => Iff.rfl⟩

end Zok.Typed.Std
