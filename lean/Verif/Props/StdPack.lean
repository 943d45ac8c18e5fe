import Verif.Lemmas.StdCastsArr
import Verif.Spec.Curves

/-
C58: packing and unpacking of field elements by the standard library. C59: casts and lookup tables of the standard library.
-/

namespace Zok.Typed.Std
open Abi
variable {p : ℕ} {Z : Type} [Fact p.Prime] {O : Oracle p Z} {P : Program (ZMod p)}

/-! ### C58: packing -/

/-- C58: `pack` returns the number of which the bits are the binary representation, most significant bit first, as a field element. -/
theorem C58_pack (bl : List Bool) (hN : bl.length < 2 ^ 32) : CallsTo O P (pack bl.length) [boolsV bl] (.ok (.field (natBE bl : ℕ))) :=
  pack_spec rfl hN

/-- C58: `unpack` succeeds exactly if the field element has a binary representation of `N` bits, and then it returns this representation: the prover has no choice, although
the bits come from the prover. In particular, an element which does not fit is rejected, and not truncated. -/
theorem C58_unpack (hP : Imports P utils) (hO : Unpacks O) (hC : Canonical O) (hp : p ≠ 2) {N : ℕ} (hN : N < 2 ^ 32) (x : ZMod p) (v : AVal (ZMod p)) :
    Calls O P (unpack N) [.field x] (.ok v) ↔ x.val < 2 ^ N ∧ v = boolsV (bitsBE N x.val) :=
  unpack_spec hP hO hC hp hN

/-- C58: packing what was unpacked gives the field element back. -/
theorem C58_pack_unpack (hP : Imports P utils) (hO : Unpacks O) (hC : Canonical O) (hp : p ≠ 2) {N : ℕ} (hN : N < 2 ^ 32) {x : ZMod p} {v : AVal (ZMod p)}
    (h : Calls O P (unpack N) [.field x] (.ok v)) : CallsTo O P (pack N) [v] (.ok (.field x)) := by
  obtain ⟨h1, rfl⟩ := (C58_unpack hP hO hC hp hN x v).1 h
  have := pack_spec (O := O) (P := P) (bl := bitsBE N x.val) (N := N) (by simp) hN
  rwa [natBE_bitsBE_of_lt h1, ZMod.natCast_val, ZMod.cast_id] at this

/-- C58: unpacking what was packed gives the bits back, if they represent a number smaller than the modulus. -/
theorem C58_unpack_pack (hP : Imports P utils) (hO : Unpacks O) (hC : Canonical O) (hp : p ≠ 2) {bl : List Bool} (hN : bl.length < 2 ^ 32) (hlt : natBE bl < p) {x : ZMod p}
    (h : CallsTo O P (pack bl.length) [boolsV bl] (.ok (.field x))) (v : AVal (ZMod p)) : Calls O P (unpack bl.length) [.field x] (.ok v) ↔ v = boolsV bl := by
  have h1 := (h (.ok (.field (natBE bl : ℕ)))).1 ((C58_pack bl hN _).2 rfl)
  cases h1
  rw [C58_unpack hP hO hC hp hN, ZMod.val_natCast_of_lt hlt, bitsBE_natBE, and_iff_right (natBE_lt bl)]

/-- C58: `unpack_unchecked` may return any bits which represent the field element: here with bits which represent a number `k` congruent to it, of which there are two for `0` if the modulus fits. -/
theorem C58_unchecked (hP : Imports P utils) {N : ℕ} (x : ZMod p) (v : AVal (ZMod p)) :
    Calls (Oracle.any p Z) P (unpackUnchecked N) [.field x] (.ok v) ↔ ∃ k : ℕ, k < 2 ^ N ∧ (k : ZMod p) = x ∧ v = boolsV (bitsBE N k) := by
  rw [unpackUnchecked_spec (hP _ _ _ _ _ rfl) (fun n x bl h => h)]
  constructor
  · rintro ⟨bl, ⟨rfl, h2⟩, h3⟩
    exact ⟨natBE bl, natBE_lt bl, h2, by rw [bitsBE_natBE]; exact Except.ok.inj h3⟩
  · rintro ⟨k, h1, h2, rfl⟩
    exact ⟨_, ⟨by simp, by rw [natBE_bitsBE_of_lt h1]; exact h2⟩, rfl⟩

/-- C58: the representation returned by `unpack_unchecked` for `0` is not unique, as soon as the modulus fits. -/
theorem C58_unchecked_zero (hP : Imports P utils) {N : ℕ} (hN : p < 2 ^ N) : Calls (Oracle.any p Z) P (unpackUnchecked N) [.field 0] (.ok (boolsV (List.replicate N false))) ∧
    Calls (Oracle.any p Z) P (unpackUnchecked N) [.field 0] (.ok (boolsV (bitsBE N p))) ∧ boolsV (p := p) (List.replicate N false) ≠ boolsV (bitsBE N p) := by
  have hp : p.Prime := Fact.out
  refine ⟨(C58_unchecked hP _ _).2 ⟨0, Nat.two_pow_pos N, by simp, ?_⟩, (C58_unchecked hP _ _).2 ⟨p, hN, by simp, rfl⟩, ?_⟩
  · congr 1
    refine natBE_inj (by simp) ?_
    rw [natBE_replicate_false, natBE_bitsBE_of_lt (Nat.two_pow_pos N)]
  · intro h
    have h1 : List.replicate N false = bitsBE N p := by
      have := congrArg prims h
      rw [prims_boolsV, prims_boolsV] at this
      exact bools_inj this
    have h2 := congrArg natBE h1
    rw [natBE_replicate_false, natBE_bitsBE_of_lt hN] at h2
    exact hp.ne_zero h2.symm

/-- C58: `nonStrictUnpack256` returns 256 bits, the first two of which are 0, which represent the field element; they need not be its binary representation. -/
theorem C58_nonStrict (hP : Imports P utils) (x : ZMod p) (v : AVal (ZMod p)) :
    Calls (Oracle.any p Z) P nonStrictUnpack256 [.field x] (.ok v) ↔ ∃ k : ℕ, k < 2 ^ 254 ∧ (k : ZMod p) = x ∧ v = boolsV (bitsBE 256 k) := by
  rw [nonStrictUnpack256_spec hP (fun n x bl h => h)]
  have hpad : ∀ k < 2 ^ 254, bitsBE 256 k = false :: false :: bitsBE 254 k := by
    intro k hk
    rw [bitsBE, bitsBE, Nat.testBit_lt_two_pow (lt_trans hk (by norm_num)), Nat.testBit_lt_two_pow hk]
  constructor
  · rintro ⟨bl, ⟨h1, h2⟩, rfl⟩
    have h3 := natBE_lt bl
    rw [h1] at h3
    refine ⟨natBE bl, h3, h2, ?_⟩
    rw [hpad _ h3, ← h1, bitsBE_natBE]
  · rintro ⟨k, h1, h2, rfl⟩
    exact ⟨bitsBE 254 k, ⟨by simp, by rw [natBE_bitsBE_of_lt h1]; exact h2⟩, by rw [hpad k h1]⟩

/-- C58: `field_to_u8`, ..., `field_to_u64` return the low-order bits of the field element. -/
theorem C58_field_to_uint (hP : Imports P utils) (hO : Unpacks O) (hC : Canonical O) (hp : p ≠ 2) (hs : Fld.requiredBits p < 2 ^ 32) {w : UW} (hw : w.bits ≤ Fld.requiredBits p) (x : ZMod p)
    (v : AVal (ZMod p)) : Calls O P (fieldToU w) [.field x] (.ok v) ↔ v = .uint w (x.val % 2 ^ w.bits) :=
  fieldToU_spec hP hO hC hp hs hw

/-- The number of which `ns` are the digits in base `b`, most significant first. -/
def digits (b : ℕ) (ns : List ℕ) : ℕ := ns.foldl (fun a n => a * b + n) 0

theorem natBE_flatMap_aux (w : ℕ) (ns : List ℕ) (hns : ∀ n ∈ ns, n < 2 ^ w) : ∀ bl : List Bool, natBE (bl ++ ns.flatMap (bitsBE w)) = ns.foldl (fun a n => a * 2 ^ w + n) (natBE bl) := by
  induction ns with
  | nil => simp
  | cons n ns ih =>
    intro bl
    rw [List.flatMap_cons, ← List.append_assoc, ih (fun m hm => hns m (by simp [hm])), List.foldl_cons, natBE_append, natBE_bitsBE_of_lt (hns n (by simp)), length_bitsBE]

theorem natBE_flatMap (w : ℕ) (ns : List ℕ) (hns : ∀ n ∈ ns, n < 2 ^ w) : natBE (ns.flatMap (bitsBE w)) = digits (2 ^ w) ns :=
  natBE_flatMap_aux w ns hns []

/-- C58: `pack` for `u32[N]` returns the number of which the integers are the digits. -/
theorem C58_packU32 (hP : Imports P utils) (ns : List ℕ) (hns : ∀ n ∈ ns, n < 2 ^ 32) (hN : ns.length * 32 < 2 ^ 32) :
    CallsTo O P (packU32 ns.length) [uintsV .b32 ns] (.ok (.field (digits (2 ^ 32) ns : ℕ))) := by
  rw [← natBE_flatMap 32 ns hns]
  exact packU32_spec hP hns rfl hN

/-- C58: `unpack128` to `u32[4]` returns the digits of the field element; there is no result if the field element is too large. -/
theorem C58_unpackU32 (hP : Imports P utils) (hO : Unpacks O) (hC : Canonical O) (hp : p ≠ 2) (x : ZMod p) (v : AVal (ZMod p)) :
    Calls O P unpackU32x4 [.field x] (.ok v) ↔ ∃ ns : List ℕ, ns.length = 4 ∧ (∀ n ∈ ns, n < 2 ^ 32) ∧ x.val = digits (2 ^ 32) ns ∧ v = uintsV .b32 ns := by
  rw [unpackU32x4_spec hP hO hC hp]
  constructor
  · rintro ⟨ns, h1, h2, h3, h4⟩
    exact ⟨ns, h1, h2, by rw [h3, natBE_flatMap 32 ns h2], h4⟩
  · rintro ⟨ns, h1, h2, h3, h4⟩
    exact ⟨ns, h1, h2, by rw [h3, natBE_flatMap 32 ns h2], h4⟩

/-! ### C59: casts -/

/-- C59: the cast of an array of booleans to an integer: the number of which they are the binary representation. -/
theorem C59_fromBits (hP : Imports P utils) {w : UW} {bl : List Bool} (hl : bl.length = w.bits) : CallsTo O P (castFromBits w) [boolsV bl] (.ok (.uint w (natBE bl))) :=
  castFromBits_spec hP hl

/-- C59: the cast of an integer to an array of booleans: its binary representation. -/
theorem C59_toBits (hP : Imports P utils) {w : UW} {n : ℕ} (hn : n < 2 ^ w.bits) : CallsTo O P (castToBits w) [.uint w n] (.ok (boolsV (bitsBE w.bits n))) :=
  castToBits_spec hP hn

/-- C59: the cast of an array of integers to an array of booleans: the concatenation of the binary representations, in order. -/
theorem C59_toBitsArray (hP : Imports P utils) {w : UW} {ns : List ℕ} (hns : ∀ n ∈ ns, n < 2 ^ w.bits) (hN : w.bits * ns.length < 2 ^ 32) :
    CallsTo O P (castToBitsArr w ns.length (w.bits * ns.length)) [uintsV w ns] (.ok (boolsV (ns.flatMap (bitsBE w.bits)))) :=
  castToBitsArr_spec hP hns rfl rfl hN

/-- C59: the cast of an array of booleans to an array of integers is the inverse. -/
theorem C59_fromBitsArray (hP : Imports P utils) {w : UW} {ns : List ℕ} (hns : ∀ n ∈ ns, n < 2 ^ w.bits) (hN : w.bits * ns.length < 2 ^ 32) :
    CallsTo O P (castFromBitsArr w (w.bits * ns.length) ns.length) [boolsV (ns.flatMap (bitsBE w.bits))] (.ok (uintsV w ns)) :=
  castFromBitsArr_spec hP hns rfl rfl hN

/-- C59: every array of booleans of the right size is the concatenation of binary representations, so that `C59_fromBitsArray` covers all arguments. -/
theorem C59_fromBitsArray_total {w : UW} {K : ℕ} {bl : List Bool} (hl : bl.length = w.bits * K) : ∃ ns : List ℕ, ns.length = K ∧ (∀ n ∈ ns, n < 2 ^ w.bits) ∧ bl = ns.flatMap (bitsBE w.bits) :=
  exists_uints w.bits K bl (by rw [hl, mul_comm])

/-- C59: the casts between arrays of booleans and integers fail if the sizes do not match. -/
theorem C59_sizes {w : UW} {N K : ℕ} (v : AVal (ZMod p)) (bl : List Bool) (h : N ≠ w.bits * K) (hN : N < 2 ^ 32) (hK : w.bits * K < 2 ^ 32) :
    CallsTo O P (castFromBitsArr w N K) [boolsV bl] (.error .assertionFailed) ∧ CallsTo O P (castToBitsArr w K N) [v] (.error .assertionFailed) :=
  ⟨castFromBitsArr_bad h hN hK, castToBitsArr_bad h hN hK⟩

/-- C59: the cast of an integer to a field element: the same number. -/
theorem C59_toField (hP : Imports P utils) {w : UW} {n : ℕ} (hn : n < 2 ^ w.bits) : CallsTo O P (castToField w) [.uint w n] (.ok (.field (n : ZMod p))) :=
  castToField_spec hP hn

/-- C59: the same for arrays. -/
theorem C59_toFieldArray (hP : Imports P utils) {w : UW} {ns : List ℕ} (hns : ∀ n ∈ ns, n < 2 ^ w.bits) (hN : ns.length < 2 ^ 32) :
    CallsTo O P (castToFieldArr w ns.length) [uintsV w ns] (.ok (fieldsV (ns.map fun n : ℕ => (n : ZMod p)))) :=
  castToFieldArr_spec hP hns rfl hN

/-- C59: the cast of an integer to a larger type: the same number. -/
theorem C59_upcast (hP : Imports P utils) {w w' : UW} {n : ℕ} (hn : n < 2 ^ w.bits) (hw : w.bits < w'.bits) : CallsTo O P (castUp w w') [.uint w n] (.ok (.uint w' n)) :=
  castUp_spec hP hn hw.le

/-- C59: the cast of integers to one integer: the number of which they are the digits. -/
theorem C59_join (hP : Imports P utils) {w w' : UW} {ns : List ℕ} (hns : ∀ n ∈ ns, n < 2 ^ w.bits) (hw : w'.bits = ns.length * w.bits) :
    CallsTo O P (castCat w w' ns.length) [uintsV w ns] (.ok (.uint w' (digits (2 ^ w.bits) ns))) := by
  rw [← natBE_flatMap _ ns hns]
  exact castCat_spec hP hns rfl hw

/-- C59: the cast of an integer to an array of smaller integers: its digits. -/
theorem C59_split (hP : Imports P utils) {w w' : UW} {ns : List ℕ} (hns : ∀ n ∈ ns, n < 2 ^ w.bits) (hw : w'.bits = ns.length * w.bits) :
    CallsTo O P (castSplit w w' ns.length) [.uint w' (digits (2 ^ w.bits) ns)] (.ok (uintsV w ns)) := by
  rw [← natBE_flatMap _ ns hns]
  exact castSplit_spec hP hns rfl hw

/-- C59: every integer of the larger type has digits, so that `C59_split` covers all arguments. -/
theorem C59_split_total {w w' : UW} {k n : ℕ} (hw : w'.bits = k * w.bits) (hn : n < 2 ^ w'.bits) : ∃ ns : List ℕ, ns.length = k ∧ (∀ m ∈ ns, m < 2 ^ w.bits) ∧ n = digits (2 ^ w.bits) ns := by
  obtain ⟨ns, h1, h2, h3⟩ := exists_uints w.bits k (bitsBE w'.bits n) (by simp [hw])
  refine ⟨ns, h1, h2, ?_⟩
  rw [← natBE_flatMap _ ns h2, ← h3, natBE_bitsBE_of_lt hn]

/-- C59: the casts of arrays: every group of `k` integers becomes one integer. -/
theorem C59_joinArray (hP : Imports P utils) {w w' : UW} {k : ℕ} {rows : List (List ℕ)} (hrows : ∀ r ∈ rows, r.length = k ∧ ∀ n ∈ r, n < 2 ^ w.bits) (hk : 1 < k) (hw : w'.bits = k * w.bits)
    (hN : k * rows.length < 2 ^ 32) : CallsTo O P (castCatArr w w' k (k * rows.length) rows.length) [uintsV w rows.flatten] (.ok (uintsV w' (rows.map (digits (2 ^ w.bits))))) := by
  have := castCatArr_spec (O := O) hP hrows hw hk rfl rfl hN
  rwa [List.map_congr_left fun r hr => natBE_flatMap _ r (hrows r hr).2] at this

/-- C59: the casts of arrays: every integer becomes a group of `k` integers. -/
theorem C59_splitArray (hP : Imports P utils) {w w' : UW} {k : ℕ} {rows : List (List ℕ)} (hrows : ∀ r ∈ rows, r.length = k ∧ ∀ n ∈ r, n < 2 ^ w.bits) (hk : 1 < k) (hw : w'.bits = k * w.bits)
    (hN : k * rows.length < 2 ^ 32) : CallsTo O P (castSplitArr w w' k rows.length (k * rows.length)) [uintsV w' (rows.map (digits (2 ^ w.bits)))] (.ok (uintsV w rows.flatten)) := by
  have := castSplitArr_spec (O := O) hP hrows hw hk rfl rfl hN
  rwa [List.map_congr_left fun r hr => natBE_flatMap _ r (hrows r hr).2] at this

/-- C59: `lookup1bit` selects the element of the table. -/
theorem C59_lookup1 (b : Bool) (c0 c1 : ZMod p) : CallsTo O P lookup1bit [.bool b, fieldsV [c0, c1]] (.ok (.field (if b then c1 else c0))) :=
  lookup1bit_spec

/-- C59: `lookup2bit` selects the element of the table; `b0` is the low-order bit of the index. -/
theorem C59_lookup2 (b0 b1 : Bool) (cs : List (ZMod p)) (hc : cs.length = 4) :
    CallsTo O P lookup2bit [boolsV [b0, b1], fieldsV cs] (.ok (.field (cs[2 * b1.toNat + b0.toNat]'(by cases b0 <;> cases b1 <;> simp [hc])))) := by
  match cs, hc with
  | [c0, c1, c2, c3], _ => cases b0 <;> cases b1 <;> exact lookup2bit_spec

/-- C59: `lookup3bitSigned` selects the element of the table, negated if the third bit is set. -/
theorem C59_lookup3 (hP : Imports P utils) (b0 b1 b2 : Bool) (cs : List (ZMod p)) (hc : cs.length = 4) :
    CallsTo O P lookup3bitSigned [boolsV [b0, b1, b2], fieldsV cs] (.ok (.field ((if b2 then -1 else 1) * cs[2 * b1.toNat + b0.toNat]'(by cases b0 <;> cases b1 <;> simp [hc])))) := by
  match cs, hc with
  | [c0, c1, c2, c3], _ => cases b0 <;> cases b1 <;> exact lookup3bitSigned_spec hP

/-! ### Examples -/

theorem imports_utils : Imports (utils (p := p)) utils := fun _ _ _ _ _ h => h

theorem unpacks_any : Unpacks (Oracle.any p Z) := fun _ _ _ h => h
theorem canonical_any : Canonical (Oracle.any p Z) := fun n x h => ⟨by simp, by rw [natBE_bitsBE_of_lt h, ZMod.natCast_val, ZMod.cast_id]⟩

section
local instance fact13 : Fact (Nat.Prime 13) := ⟨by norm_num⟩

/-- `unpack` to 4 bits over the field with 13 elements: `11` is `1011`, and nothing else. -/
example (v : AVal (ZMod 13)) : Calls (Oracle.any 13 ℕ) utils (unpack 4) [.field 11] (.ok v) ↔ v = boolsV [true, false, true, true] := by
  rw [C58_unpack imports_utils unpacks_any canonical_any (by decide) (by norm_num)]
  exact and_iff_right (by decide)

/-- `11` does not fit into 3 bits. -/
example (v : AVal (ZMod 13)) : ¬ Calls (Oracle.any 13 ℕ) utils (unpack 3) [.field 11] (.ok v) := by
  rw [C58_unpack imports_utils unpacks_any canonical_any (by decide) (by norm_num)]
  exact fun h => absurd h.1 (by decide)

/-- `unpack_unchecked` can return the bits of `13` for `0`. -/
example : Calls (Oracle.any 13 ℕ) utils (unpackUnchecked 4) [.field 0] (.ok (boolsV [true, true, false, true])) :=
  (C58_unchecked_zero imports_utils (by norm_num)).2.1

/-- `0x1234` as two bytes. -/
example : CallsTo (Oracle.any 13 ℕ) utils (castSplit .b8 .b16 2) [.uint .b16 0x1234] (.ok (uintsV .b8 [0x12, 0x34])) :=
  C59_split (ns := [0x12, 0x34]) imports_utils (by decide) rfl
end

/-- The functions in the field of bn128. -/
example (x : ZMod Bn128) (v : AVal (ZMod Bn128)) : Calls (Oracle.any Bn128 ℕ) utils (fieldToU .b64) [.field x] (.ok v) ↔ v = .uint .b64 (x.val % 2 ^ 64) :=
  C58_field_to_uint imports_utils unpacks_any canonical_any (by decide) (by decide +kernel) (by decide +kernel) x v

end Zok.Typed.Std
