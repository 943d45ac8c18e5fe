import Verif.Lemmas.Abi
import Verif.Spec.BigField

/-
C27, C28: the ABI (`zokrates_abi/src/lib.rs`).
-/

namespace Zok.Abi
variable {p : ℕ}

/-- **C27**. The encoding of a value of a type has exactly `get_primitive_count` elements. -/
theorem C27_length (t : CType) (v : AVal (ZMod p)) (h : HasType t v) (c : ℕ) (hc : primCount t = some c) :
    (encode v).length = c := encode_length t v c h hc

/-- **C27**. Decoding the encoding of a value at its type returns the value, in a field that can hold 64-bit integers and
for types none of whose array types has elements of size zero (see `C27_zero_size_elements_panic`). -/
theorem C27_roundtrip (hp : 2 ^ 64 ≤ p) (t : CType) (v : AVal (ZMod p)) (hi : t.Inhabiting) (h : HasType t v) :
    decode t (encode v) = some v := decode_encode hp t v hi h

/-- **C27**, for a list of values at a list of types: `Values::decode` inverts `Values::encode`. -/
theorem C27_roundtrip_values (hp : 2 ^ 64 ≤ p) (ts : List CType) (vs : List (AVal (ZMod p))) (hi : InhabitingL ts)
    (h : HasTypeL ts vs) : decodeL ts (Inputs.encode (.abi vs)) 0 = some vs :=
  decodeL_encodeL hp ts vs [] hi h

/-- **C27**. Two values of the same type with the same encoding are equal. -/
theorem C27_injective (hp : 2 ^ 64 ≤ p) (t : CType) (v v' : AVal (ZMod p)) (h : HasType t v) (h' : HasType t v')
    (he : encode v = encode v') : v = v' := (encode_inj hp t v v' h h').2 he

/-- **C27**, the same for lists of values: the arguments of a function are determined by the field elements passed. -/
theorem C27_injective_values (hp : 2 ^ 64 ≤ p) (ts : List CType) (vs vs' : List (AVal (ZMod p))) (h : HasTypeL ts vs)
    (h' : HasTypeL ts vs') (he : encodeL vs = encodeL vs') : vs = vs' := (encodeL_inj hp ts vs vs' h h').2 he

/-- **C27**, the exception: a well-typed array whose elements have size zero (here two empty structs) is encoded to nothing,
and decoding it panics (`chunks(0)`). -/
theorem C27_zero_size_elements_panic : HasType (p := p) (.array 2 (.struct [])) (.array [.struct [], .struct []]) ∧
    decode (p := p) (.array 2 (.struct [])) (encode (.array [.struct [], .struct []])) = none := by
  simp [HasType, HasTypeM, decode, primCount, primCountM]

/-- **C28**. Parsing succeeds exactly on the JSON that denotes a value at the type, and returns that value. -/
theorem C28_accepts_exactly [Fact p.Prime] (t : CType) (j : Json) (v : AVal (ZMod p)) (hj : j.WF) :
    parseValue t j = .ok v ↔ Denotes t j v := parseValue_iff t j v hj

/-- **C28**. A parsed value has the type. -/
theorem C28_well_typed [Fact p.Prime] (t : CType) (j : Json) (v : AVal (ZMod p)) (hj : j.WF)
    (h : parseValue t j = .ok v) : HasType t v := denotes_hasType t j v ((parseValue_iff t j v hj).1 h)

/-- **C28**. A list of arguments is accepted iff each is, and there is exactly one for each type. -/
theorem C28_arguments [Fact p.Prime] (ts : List CType) (js : List Json) (vs : List (AVal (ZMod p)))
    (hj : ∀ j ∈ js, j.WF) : parseStrictJson js ts = .ok vs ↔ DenotesL ts js vs := by
  unfold parseStrictJson
  split
  · rename_i h
    simp only [reduceCtorEq, false_iff]
    exact fun hd => h (denotesL_length ts js vs hd)
  · rename_i h
    rw [collectR_ok, parseZip_iff ts js vs hj (by simpa using h)]

/-- **C28**. Parsing the JSON printed for a well-typed value returns the value. -/
theorem C28_roundtrip [Fact p.Prime] (t : CType) (v : AVal (ZMod p)) (hd : t.Distinct) (h : HasType t v) :
    parseValue t (toJson v) = .ok v :=
  (parseValue_iff t _ v (toJson_ok t v hd h).1).2 (toJson_ok t v hd h).2

/-- **C28**, the same for the arguments of a function. -/
theorem C28_roundtrip_arguments [Fact p.Prime] (ts : List CType) (vs : List (AVal (ZMod p))) (hd : DistinctL ts)
    (h : HasTypeL ts vs) : parseStrictJson (toJsonL vs) ts = .ok vs :=
  (C28_arguments ts _ vs (toJsonL_ok ts vs hd h).1).2 (toJsonL_ok ts vs hd h).2

/-- **C28**, end to end: printing arguments, parsing them, and encoding them for the circuit gives the encoding of the
arguments; no two argument lists are confused. -/
theorem C28_inputs [Fact p.Prime] (ts : List CType) (vs : List (AVal (ZMod p))) (hd : DistinctL ts) (h : HasTypeL ts vs)
    (us : List (AVal (ZMod p))) (hu : parseStrictJson (toJsonL vs) ts = .ok us) : encodeL us = encodeL vs := by
  rw [C28_roundtrip_arguments ts vs hd h] at hu
  rw [Except.ok.inj hu]

theorem objInsert_lookup (o : List (Str × Json)) (k k' : Str) (j : Json) :
    (objInsert o k j).lookup k' = if k' = k then some j else o.lookup k' := by
  induction o with
  | nil =>
    simp only [objInsert, List.lookup]
    by_cases h : k' = k
    · subst h; simp
    · rw [if_neg h]
      have h' : (k' == k) = false := by simpa using h
      rw [h']
  | cons a o ih =>
    obtain ⟨k1, j1⟩ := a
    simp only [objInsert]
    by_cases h1 : k1 = k
    · rw [if_pos h1]
      subst h1
      by_cases h : k' = k1
      · subst h; simp [List.lookup]
      · have h' : (k' == k1) = false := by simpa using h
        simp [List.lookup, h', h]
    · rw [if_neg h1]
      by_cases h : k' = k1
      · subst h
        rw [if_neg h1]
        simp [List.lookup]
      · have h' : (k' == k1) = false := by simpa using h
        simp only [List.lookup, h']
        exact ih

/-- **C28** (printing of structs). The JSON of a struct has, for every member name, the value of the last member with that name,
and no other entries. -/
theorem C28_printed_members [Fact p.Prime] (ms : List (Str × AVal (ZMod p))) : ∃ o, toJson (.struct ms) = .obj o ∧
    ∀ k, o.lookup k = (ms.reverse.lookup k).map toJson := by
  refine ⟨_, rfl, ?_⟩
  have gen : ∀ (ms : List (Str × AVal (ZMod p))) (o : List (Str × Json)) (k : Str),
      ((toJsonM ms).foldl (fun o kv => objInsert o kv.1 kv.2) o).lookup k = ((ms.reverse.lookup k).map toJson).or (o.lookup k) := by
    intro ms
    induction ms with
    | nil => intro o k; rfl
    | cons a ms ih =>
      intro o k
      obtain ⟨k1, v⟩ := a
      simp only [toJsonM, List.foldl_cons, List.reverse_cons]
      rw [ih, objInsert_lookup, List.lookup_append]
      cases List.lookup k ms.reverse with
      | some w => simp
      | none =>
        by_cases h : k = k1
        · subst h; simp [List.lookup]
        · have h' : (k == k1) = false := by simpa using h
          simp [List.lookup, h', h]
  intro k
  rw [gen]
  simp

/-- **C28**, two surprises in what is accepted. A decimal field element is read modulo `p` rather than rejected when it is out
of range, and one with a leading zero is read as *hexadecimal*. -/
theorem C28_surprises : parseValue (p := 97) .field (.str "98".toList) = .ok (.field 1) ∧
    parseValue (p := 97) .field (.str "010".toList) = .ok (.field 16) := by
  simp only [parseValue]
  constructor
  · have : tryFromDecStr 97 "98".toList = some 1 := by decide +kernel
    rw [this]
  · have : tryFromDecStr 97 "010".toList = none := by decide +kernel
    rw [this]
    have : Fld.tryFromStr 97 (trimHex "010".toList) 16 = some 16 := by decide +kernel
    rw [this]

/-! Non-vacuity: a struct with an array of 64-bit integers, a boolean and a tuple, over the field of `2^127 - 1` elements. -/

/-- `struct S { u64[2] a; bool b; (field, u8) c }`. -/
def exType : CType := .struct [("a".toList, .array 2 (.uint .b64)), ("b".toList, .bool),
  ("c".toList, .tuple [.field, .uint .b8])]

/-- A value of it. -/
def exVal : AVal (ZMod M127) := .struct [("a".toList, .array [.uint .b64 (2 ^ 63), .uint .b64 5]), ("b".toList, .bool true),
  ("c".toList, .tuple [.field 7, .uint .b8 255])]

theorem exType_ok : exType.Inhabiting ∧ exType.Distinct ∧ HasType exType exVal := by
  simp [exType, exVal, CType.Inhabiting, InhabitingM, InhabitingL, CType.Distinct, DistinctM, DistinctL, HasType, HasTypeM,
    HasTypeL, primCount, UW.bits]

example : decode exType (encode exVal) = some exVal := C27_roundtrip (by norm_num [M127]) _ _ exType_ok.1 exType_ok.2.2
example : parseValue exType (toJson exVal) = .ok exVal := C28_roundtrip _ _ exType_ok.2.1 exType_ok.2.2
example : (encode exVal).length = 5 := C27_length exType _ exType_ok.2.2 5 (by simp [exType, primCount, primCountM, primCountL])
example : parseValue (p := 97) (.uint .b8) (.str "0x12".toList) = .ok (.uint .b8 18) ∧
    parseValue (p := 97) (.uint .b8) (.str "256".toList) = .error .type ∧
    parseValue (p := 97) (.uint .b8) (.num "1".toList) = .error .conversion := by
  refine ⟨?_, ?_, ?_⟩ <;> simp [parseValue, uFromStr, uDigits, trimHex, Fld.charDigit, UW.bits]

end Zok.Abi
