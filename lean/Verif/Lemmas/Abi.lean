import Verif.Spec.Abi
import Verif.Lemmas.Field

namespace Zok.Abi
variable {p : ℕ}

/-! ### Encoding -/

theorem encodeL_eq (vs : List (AVal (ZMod p))) : encodeL vs = vs.flatMap encode := by
  induction vs with
  | nil => simp [encodeL]
  | cons v vs ih => simp [encodeL, ih]

mutual
theorem encode_length : ∀ (t : CType) (v : AVal (ZMod p)) (c : ℕ), HasType t v → primCount t = some c →
    (encode v).length = c
  | .int, v, c, h, hc => by simp [primCount] at hc
  | .field, v, c, h, hc => by cases v <;> simp_all [HasType, primCount, encode]
  | .bool, v, c, h, hc => by cases v <;> simp_all [HasType, primCount, encode]
  | .uint w, v, c, h, hc => by cases v <;> simp_all [HasType, primCount, encode]
  | .array n t, v, c, h, hc => by
    cases v with
    | array vs =>
      simp only [HasType] at h
      cases ht : primCount t with
      | none => simp [primCount, ht] at hc
      | some d =>
        simp only [primCount, ht, Option.some.injEq] at hc
        obtain ⟨hl, hv⟩ := h
        subst hl hc
        simp only [encode]
        have : ∀ v ∈ vs, (encode v).length = d := fun v hv' => encode_length t v d (hv v hv') ht
        clear hv
        induction vs with
        | nil => simp [encodeL]
        | cons v vs ih =>
          simp only [encodeL, List.length_append, List.length_cons]
          rw [ih (fun u hu => this u (List.mem_cons_of_mem _ hu)), this v List.mem_cons_self]
          ring
    | _ => simp [HasType] at h
  | .struct ms, v, c, h, hc => by
    cases v with
    | struct fs =>
      simp only [HasType] at h
      simp only [primCount] at hc
      simp only [encode]
      exact encodeM_length ms fs c h hc
    | _ => simp [HasType] at h
  | .tuple ts, v, c, h, hc => by
    cases v with
    | tuple fs =>
      simp only [HasType] at h
      simp only [primCount] at hc
      simp only [encode]
      exact encodeL_length ts fs c h hc
    | _ => simp [HasType] at h
theorem encodeL_length : ∀ (ts : List CType) (vs : List (AVal (ZMod p))) (c : ℕ), HasTypeL ts vs →
    primCountL ts = some c → (encodeL vs).length = c
  | [], [], c, h, hc => by simp_all [primCountL, encodeL]
  | [], _ :: _, c, h, hc => by simp [HasTypeL] at h
  | _ :: _, [], c, h, hc => by simp [HasTypeL] at h
  | t :: ts, v :: vs, c, h, hc => by
    simp only [HasTypeL] at h
    cases ht : primCount t with
    | none => simp [primCountL, ht] at hc
    | some a =>
      cases hts : primCountL ts with
      | none => simp [primCountL, ht, hts] at hc
      | some b =>
        simp only [primCountL, ht, hts, Option.some.injEq] at hc
        simp only [encodeL, List.length_append, encode_length t v a h.1 ht, encodeL_length ts vs b h.2 hts, hc]
theorem encodeM_length : ∀ (ts : List (Str × CType)) (vs : List (Str × AVal (ZMod p))) (c : ℕ), HasTypeM ts vs →
    primCountM ts = some c → (encodeM vs).length = c
  | [], [], c, h, hc => by simp_all [primCountM, encodeM]
  | [], _ :: _, c, h, hc => by simp [HasTypeM] at h
  | _ :: _, [], c, h, hc => by simp [HasTypeM] at h
  | (k, t) :: ts, (k', v) :: vs, c, h, hc => by
    simp only [HasTypeM] at h
    cases ht : primCount t with
    | none => simp [primCountM, ht] at hc
    | some a =>
      cases hts : primCountM ts with
      | none => simp [primCountM, ht, hts] at hc
      | some b =>
        simp only [primCountM, ht, hts, Option.some.injEq] at hc
        simp only [encodeM, List.length_append, encode_length t v a h.2.1 ht, encodeM_length ts vs b h.2.2 hts, hc]
end

mutual
theorem inhabiting_count : ∀ t : CType, t.Inhabiting → ∃ c, primCount t = some c
  | .int, h => by simp [CType.Inhabiting] at h
  | .field, _ => ⟨_, rfl⟩
  | .bool, _ => ⟨_, rfl⟩
  | .uint _, _ => ⟨_, rfl⟩
  | .array n t, h => by
    simp only [CType.Inhabiting] at h
    obtain ⟨c, hc⟩ := inhabiting_count t h.1
    exact ⟨n * c, by simp [primCount, hc]⟩
  | .struct ms, h => by
    simp only [CType.Inhabiting] at h
    simpa only [primCount] using inhabiting_countM ms h
  | .tuple ts, h => by
    simp only [CType.Inhabiting] at h
    simpa only [primCount] using inhabiting_countL ts h
theorem inhabiting_countL : ∀ ts : List CType, InhabitingL ts → ∃ c, primCountL ts = some c
  | [], _ => ⟨0, by simp [primCountL]⟩
  | t :: ts, h => by
    simp only [InhabitingL] at h
    obtain ⟨a, ha⟩ := inhabiting_count t h.1
    obtain ⟨b, hb⟩ := inhabiting_countL ts h.2
    exact ⟨a + b, by simp [primCountL, ha, hb]⟩
theorem inhabiting_countM : ∀ ts : List (Str × CType), InhabitingM ts → ∃ c, primCountM ts = some c
  | [], _ => ⟨0, by simp [primCountM]⟩
  | (_, t) :: ts, h => by
    simp only [InhabitingM] at h
    obtain ⟨a, ha⟩ := inhabiting_count t h.1
    obtain ⟨b, hb⟩ := inhabiting_countM ts h.2
    exact ⟨a + b, by simp [primCountM, ha, hb]⟩
end

theorem UW.pow_le (w : UW) : 2 ^ w.bits ≤ 2 ^ 64 := Nat.pow_le_pow_right (by norm_num) (by cases w <;> simp [UW.bits])

theorem UW.val_cast {w : UW} {n : ℕ} (hp : 2 ^ 64 ≤ p) (h : n < 2 ^ w.bits) : ((n : ℕ) : ZMod p).val = n :=
  ZMod.val_natCast_of_lt (lt_of_lt_of_le h (le_trans w.pow_le hp))

theorem slice_append {α : Type _} (a b c : List α) :
    slice (a ++ (b ++ c)) a.length (a.length + b.length) = some b := by
  unfold slice
  rw [if_pos (by simp)]
  congr 1
  rw [← List.append_assoc, List.take_append_of_le_length (by simp)]
  rw [List.take_of_length_le (by simp)]
  simp

theorem chunks_encode {t : CType} {c : ℕ} (hc0 : c ≠ 0) (ht : primCount t = some c) (vs : List (AVal (ZMod p)))
    (hv : ∀ v ∈ vs, HasType t v) (fuel : ℕ) (hf : (encodeL vs).length ≤ fuel) :
    chunks c fuel (encodeL vs) = vs.map encode := by
  induction vs generalizing fuel with
  | nil => cases fuel <;> simp [chunks, encodeL]
  | cons v vs ih =>
    have hl : (encode v).length = c := encode_length t v c (hv v List.mem_cons_self) ht
    cases fuel with
    | zero => simp [encodeL, hl] at hf; omega
    | succ fuel =>
      have hne : encodeL (v :: vs) ≠ [] := by
        intro h
        have : (encodeL (v :: vs)).length = 0 := by rw [h]; rfl
        simp [encodeL, hl] at this
        omega
      have h1 : chunks c (fuel + 1) (encodeL (v :: vs)) =
          (encodeL (v :: vs)).take c :: chunks c fuel ((encodeL (v :: vs)).drop c) := by
        cases h : encodeL (v :: vs) with
        | nil => exact absurd h hne
        | cons a l => rfl
      rw [h1]
      have h2 : (encodeL (v :: vs)).take c = encode v := by simp [encodeL, ← hl]
      have h3 : (encodeL (v :: vs)).drop c = encodeL vs := by simp [encodeL, ← hl]
      rw [h2, h3, ih (fun u hu => hv u (List.mem_cons_of_mem _ hu)) fuel]
      · simp
      · simp [encodeL, hl] at hf; omega

theorem mapM_decode {t : CType} (vs : List (AVal (ZMod p))) (h : ∀ v ∈ vs, decode t (encode v) = some v) :
    (vs.map encode).mapM (decode t) = some vs := by
  induction vs with
  | nil => rfl
  | cons v vs ih =>
    rw [List.map_cons, List.mapM_cons, h v List.mem_cons_self, ih (fun u hu => h u (List.mem_cons_of_mem _ hu))]
    rfl

mutual
theorem decode_encode (hp : 2 ^ 64 ≤ p) : ∀ (t : CType) (v : AVal (ZMod p)), t.Inhabiting → HasType t v →
    decode t (encode v) = some v
  | .int, v, hi, h => by simp [CType.Inhabiting] at hi
  | .field, v, hi, h => by cases v <;> simp_all [HasType, decode, encode]
  | .bool, v, hi, h => by
    have : Fact (1 < p) := ⟨by have : 2 ^ 64 ≤ p := hp; omega⟩
    cases v with
    | bool b => cases b <;> simp [decode, encode, boolF]
    | _ => simp [HasType] at h
  | .uint w, v, hi, h => by
    cases v with
    | uint w' n =>
      simp only [HasType] at h
      obtain ⟨rfl, hn⟩ := h
      simp [decode, encode, UW.val_cast hp hn, hn]
    | _ => simp [HasType] at h
  | .array n t, v, hi, h => by
    cases v with
    | array vs =>
      simp only [HasType] at h
      simp only [CType.Inhabiting] at hi
      obtain ⟨c, hc⟩ := inhabiting_count t hi.1
      have hc0 : c ≠ 0 := by rintro rfl; exact hi.2 hc
      simp only [decode, hc, if_neg hc0, encode]
      rw [chunks_encode hc0 hc vs h.2 _ le_rfl, mapM_decode vs fun v hv => decode_encode hp t v hi.1 (h.2 v hv)]
    | _ => simp [HasType] at h
  | .struct ms, v, hi, h => by
    cases v with
    | struct fs =>
      simp only [HasType] at h
      simp only [CType.Inhabiting] at hi
      simp only [decode, encode]
      rw [show encodeM fs = [] ++ encodeM fs from rfl, show (0 : ℕ) = ([] : List (ZMod p)).length from rfl,
        decodeM_encodeM hp ms fs [] hi h]
    | _ => simp [HasType] at h
  | .tuple ts, v, hi, h => by
    cases v with
    | tuple fs =>
      simp only [HasType] at h
      simp only [CType.Inhabiting] at hi
      simp only [decode, encode]
      rw [show encodeL fs = [] ++ encodeL fs from rfl, show (0 : ℕ) = ([] : List (ZMod p)).length from rfl,
        decodeL_encodeL hp ts fs [] hi h]
    | _ => simp [HasType] at h
theorem decodeL_encodeL (hp : 2 ^ 64 ≤ p) : ∀ (ts : List CType) (vs : List (AVal (ZMod p))) (pre : List (ZMod p)),
    InhabitingL ts → HasTypeL ts vs → decodeL ts (pre ++ encodeL vs) pre.length = some vs
  | [], [], pre, hi, h => by simp [decodeL]
  | [], _ :: _, pre, hi, h => by simp [HasTypeL] at h
  | _ :: _, [], pre, hi, h => by simp [HasTypeL] at h
  | t :: ts, v :: vs, pre, hi, h => by
    simp only [HasTypeL] at h
    simp only [InhabitingL] at hi
    obtain ⟨c, hc⟩ := inhabiting_count t hi.1
    have hl := encode_length t v c h.1 hc
    subst hl
    simp only [decodeL, hc, encodeL, slice_append, decode_encode hp t v hi.1 h.1]
    have := decodeL_encodeL hp ts vs (pre ++ encode v) hi.2 h.2
    rw [List.append_assoc, List.length_append] at this
    rw [this]
theorem decodeM_encodeM (hp : 2 ^ 64 ≤ p) : ∀ (ts : List (Str × CType)) (vs : List (Str × AVal (ZMod p)))
    (pre : List (ZMod p)), InhabitingM ts → HasTypeM ts vs → decodeM ts (pre ++ encodeM vs) pre.length = some vs
  | [], [], pre, hi, h => by simp [decodeM]
  | [], _ :: _, pre, hi, h => by simp [HasTypeM] at h
  | _ :: _, [], pre, hi, h => by simp [HasTypeM] at h
  | (k, t) :: ts, (k', v) :: vs, pre, hi, h => by
    simp only [HasTypeM] at h
    simp only [InhabitingM] at hi
    obtain ⟨c, hc⟩ := inhabiting_count t hi.1
    have hl := encode_length t v c h.2.1 hc
    subst hl
    simp only [decodeM, hc, encodeM, slice_append, decode_encode hp t v hi.1 h.2.1]
    have := decodeM_encodeM hp ts vs (pre ++ encode v) hi.2 h.2.2
    rw [List.append_assoc, List.length_append] at this
    rw [this, h.1]
end

mutual
/-- Two values of a type have encodings of the same length, and are equal if the encodings are. -/
theorem encode_inj (hp : 2 ^ 64 ≤ p) : ∀ (t : CType) (v v' : AVal (ZMod p)), HasType t v → HasType t v' →
    (encode v).length = (encode v').length ∧ (encode v = encode v' → v = v')
  | .int, v, v', h, h' => by simp [HasType] at h
  | .field, v, v', h, h' => by cases v <;> cases v' <;> simp_all [HasType, encode]
  | .bool, v, v', h, h' => by
    have : Fact (1 < p) := ⟨by have : 2 ^ 64 ≤ p := hp; omega⟩
    cases v with
    | bool b =>
      cases v' with
      | bool b' => cases b <;> cases b' <;> simp [encode, boolF]
      | _ => simp [HasType] at h'
    | _ => simp [HasType] at h
  | .uint w, v, v', h, h' => by
    cases v with
    | uint w1 n =>
      cases v' with
      | uint w2 n' =>
        simp only [HasType] at h h'
        obtain ⟨rfl, hn⟩ := h
        obtain ⟨rfl, hn'⟩ := h'
        refine ⟨by simp [encode], fun he => ?_⟩
        simp only [encode, List.cons.injEq, and_true] at he
        have := congrArg ZMod.val he
        rw [UW.val_cast hp hn, UW.val_cast hp hn'] at this
        rw [this]
      | _ => simp [HasType] at h'
    | _ => simp [HasType] at h
  | .array n t, v, v', h, h' => by
    cases v with
    | array vs =>
      cases v' with
      | array vs' =>
        simp only [HasType] at h h'
        have key : ∀ a b : List (AVal (ZMod p)), a.length = b.length → (∀ v ∈ a, HasType t v) → (∀ v ∈ b, HasType t v) →
            (encodeL a).length = (encodeL b).length ∧ (encodeL a = encodeL b → a = b) := by
          intro a
          induction a with
          | nil => intro b hb; cases b <;> simp_all [encodeL]
          | cons x a ih =>
            intro b hb ha hb'
            cases b with
            | nil => simp at hb
            | cons y b =>
              have hx := encode_inj hp t x y (ha x List.mem_cons_self) (hb' y List.mem_cons_self)
              have hi := ih b (by simpa using hb) (fun u hu => ha u (List.mem_cons_of_mem _ hu))
                (fun u hu => hb' u (List.mem_cons_of_mem _ hu))
              refine ⟨by simp [encodeL, hx.1, hi.1], fun he => ?_⟩
              simp only [encodeL] at he
              have := List.append_inj he hx.1
              rw [hx.2 this.1, hi.2 this.2]
        have := key vs vs' (h.1.trans h'.1.symm) h.2 h'.2
        exact ⟨by simpa [encode] using this.1, fun he => by rw [this.2 (by simpa [encode] using he)]⟩
      | _ => simp [HasType] at h'
    | _ => simp [HasType] at h
  | .struct ms, v, v', h, h' => by
    cases v with
    | struct vs =>
      cases v' with
      | struct vs' =>
        simp only [HasType] at h h'
        have := encodeM_inj hp ms vs vs' h h'
        exact ⟨by simpa [encode] using this.1, fun he => by rw [this.2 (by simpa [encode] using he)]⟩
      | _ => simp [HasType] at h'
    | _ => simp [HasType] at h
  | .tuple ts, v, v', h, h' => by
    cases v with
    | tuple vs =>
      cases v' with
      | tuple vs' =>
        simp only [HasType] at h h'
        have := encodeL_inj hp ts vs vs' h h'
        exact ⟨by simpa [encode] using this.1, fun he => by rw [this.2 (by simpa [encode] using he)]⟩
      | _ => simp [HasType] at h'
    | _ => simp [HasType] at h
theorem encodeL_inj (hp : 2 ^ 64 ≤ p) : ∀ (ts : List CType) (a b : List (AVal (ZMod p))), HasTypeL ts a → HasTypeL ts b →
    (encodeL a).length = (encodeL b).length ∧ (encodeL a = encodeL b → a = b)
  | [], [], [], _, _ => by simp
  | [], _ :: _, _, h, _ => by simp [HasTypeL] at h
  | [], [], _ :: _, _, h => by simp [HasTypeL] at h
  | _ :: _, [], _, h, _ => by simp [HasTypeL] at h
  | _ :: _, _ :: _, [], _, h => by simp [HasTypeL] at h
  | t :: ts, x :: a, y :: b, h, h' => by
    simp only [HasTypeL] at h h'
    have hx := encode_inj hp t x y h.1 h'.1
    have hi := encodeL_inj hp ts a b h.2 h'.2
    refine ⟨by simp [encodeL, hx.1, hi.1], fun he => ?_⟩
    simp only [encodeL] at he
    have := List.append_inj he hx.1
    rw [hx.2 this.1, hi.2 this.2]
theorem encodeM_inj (hp : 2 ^ 64 ≤ p) : ∀ (ts : List (Str × CType)) (a b : List (Str × AVal (ZMod p))),
    HasTypeM ts a → HasTypeM ts b → (encodeM a).length = (encodeM b).length ∧ (encodeM a = encodeM b → a = b)
  | [], [], [], _, _ => by simp
  | [], _ :: _, _, h, _ => by simp [HasTypeM] at h
  | [], [], _ :: _, _, h => by simp [HasTypeM] at h
  | _ :: _, [], _, h, _ => by simp [HasTypeM] at h
  | _ :: _, _ :: _, [], _, h => by simp [HasTypeM] at h
  | (k, t) :: ts, (kx, x) :: a, (ky, y) :: b, h, h' => by
    simp only [HasTypeM] at h h'
    have hx := encode_inj hp t x y h.2.1 h'.2.1
    have hi := encodeM_inj hp ts a b h.2.2 h'.2.2
    refine ⟨by simp [encodeM, hx.1, hi.1], fun he => ?_⟩
    simp only [encodeM] at he
    have := List.append_inj he hx.1
    rw [hx.2 this.1, hi.2 this.2, h.1, h'.1]
end


/-! ### Numerals -/

/-- Digits of a string in a radix. -/
def DigitsOf (radix : ℕ) (s : Str) (ds : List ℕ) : Prop :=
  List.Forall₂ (fun c d => Fld.charDigit c = some d ∧ d < radix) s ds

theorem foldl_ge (radix : ℕ) (hr : 1 ≤ radix) (ds : List ℕ) (acc : ℕ) :
    acc ≤ ds.foldl (fun a d => a * radix + d) acc := by
  induction ds generalizing acc with
  | nil => simp
  | cons d ds ih =>
    rw [List.foldl_cons]
    refine le_trans ?_ (ih _)
    nlinarith

theorem uDigits_iff (radix bound : ℕ) (hr : 1 ≤ radix) (s : Str) (acc n : ℕ) (ha : acc < bound) :
    uDigits radix bound s acc = some n ↔
      n < bound ∧ ∃ ds, DigitsOf radix s ds ∧ n = ds.foldl (fun a d => a * radix + d) acc := by
  induction s generalizing acc with
  | nil =>
    simp only [uDigits, DigitsOf, Option.some.injEq, List.forall₂_nil_left_iff, exists_eq_left, List.foldl_nil]
    constructor
    · rintro rfl; exact ⟨ha, rfl⟩
    · rintro ⟨-, rfl⟩; rfl
  | cons c cs ih =>
    simp only [uDigits]
    cases hc : Fld.charDigit c with
    | none => simp [DigitsOf, List.forall₂_cons_left_iff, hc]
    | some d =>
      simp only
      by_cases hd : d < radix
      · rw [if_pos hd]
        by_cases hb : acc * radix + d < bound
        · rw [if_pos hb, ih _ hb]
          simp only [DigitsOf, List.forall₂_cons_left_iff, hc, Option.some.injEq]
          constructor
          · rintro ⟨h1, ds, h2, h3⟩; exact ⟨h1, d :: ds, ⟨d, ds, ⟨rfl, hd⟩, h2, rfl⟩, h3⟩
          · rintro ⟨h1, _, ⟨d', ds, ⟨rfl, _⟩, h2, rfl⟩, h3⟩; exact ⟨h1, ds, h2, h3⟩
        · rw [if_neg hb]
          simp only [reduceCtorEq, false_iff, not_and, not_exists]
          rintro h1 ds h2 rfl
          simp only [DigitsOf, List.forall₂_cons_left_iff, hc, Option.some.injEq] at h2
          obtain ⟨d', ds, ⟨rfl, _⟩, h2, rfl⟩ := h2
          have := foldl_ge radix hr ds (acc * radix + d)
          rw [List.foldl_cons] at h1
          omega
      · rw [if_neg hd]
        simp only [reduceCtorEq, false_iff, not_and, not_exists]
        rintro h1 ds h2 rfl
        simp only [DigitsOf, List.forall₂_cons_left_iff, hc, Option.some.injEq] at h2
        obtain ⟨d', ds, ⟨rfl, h⟩, h2, rfl⟩ := h2
        exact hd h

theorem charDigit_plus : Fld.charDigit '+' = none := by decide
theorem charDigit_underscore : Fld.charDigit '_' = none := by decide

theorem not_digitsOf_plus (radix : ℕ) (tl : Str) (ds : List ℕ) : ¬ DigitsOf radix ('+' :: tl) ds := by
  simp [DigitsOf, List.forall₂_cons_left_iff, charDigit_plus]

theorem uFromStr_iff (radix bound : ℕ) (hr : 1 ≤ radix) (hb : 0 < bound) (s : Str) (n : ℕ) :
    uFromStr radix bound s = some n ↔ n < bound ∧ PlusNumeral radix s n := by
  unfold uFromStr PlusNumeral Numeral
  split
  · simp
  · simp only [reduceCtorEq, ne_eq, List.cons_ne_self, not_false_eq_true, true_and, List.cons.injEq, false_iff, not_and,
      not_or, not_exists]
    rintro - 
    refine ⟨fun ds h => absurd h (not_digitsOf_plus _ _ _), ?_⟩
    rintro tl rfl h
    exact absurd rfl h
  · rename_i tl htl
    rw [uDigits_iff _ _ hr _ _ _ hb]
    constructor
    · rintro ⟨h1, h2⟩; exact ⟨h1, Or.inr ⟨tl, rfl, by rintro rfl; exact htl rfl, h2⟩⟩
    · rintro ⟨h1, ⟨_, ds, h, _⟩ | ⟨tl', h2, _, h3⟩⟩
      · exact absurd h (not_digitsOf_plus _ _ _)
      · obtain rfl := List.cons.inj h2 |>.2
        exact ⟨h1, h3⟩
  · rename_i h1 h2 h3
    rw [uDigits_iff _ _ hr _ _ _ hb]
    constructor
    · rintro ⟨ha, hb⟩; exact ⟨ha, Or.inl ⟨h1, hb⟩⟩
    · rintro ⟨ha, ⟨_, hb⟩ | ⟨tl', rfl, _⟩⟩
      · exact ⟨ha, hb⟩
      · exact absurd rfl (h3 tl')

theorem trimHex_spec (s : Str) : WithoutPrefix s (trimHex s) := by
  induction s using trimHex.induct with
  | case1 tl ih =>
    obtain ⟨⟨k, hk⟩, h2⟩ := ih
    refine ⟨⟨k + 1, ?_⟩, by simpa [trimHex] using h2⟩
    simp only [trimHex, List.replicate_succ, List.flatten_cons, List.cons_append, List.nil_append]
    rw [← hk]
  | case2 s hs =>
    rw [trimHex.eq_2 s hs]
    exact ⟨⟨0, by simp⟩, fun u h => hs u h⟩

theorem withoutPrefix_iff (s t : Str) : WithoutPrefix s t ↔ t = trimHex s := by
  constructor
  · rintro ⟨⟨k, rfl⟩, h⟩
    induction k with
    | zero => simp only [List.replicate_zero, List.flatten_nil, List.nil_append]; rw [trimHex.eq_2 t (fun u hu => h u hu)]
    | succ k ih =>
      simp only [List.replicate_succ, List.flatten_cons, List.cons_append, List.nil_append, trimHex]
      exact ih
  · rintro rfl; exact trimHex_spec s

theorem uint_text_iff (w : UW) (s : Str) (n : ℕ) :
    (match uFromStr 10 (2 ^ w.bits) s with
      | some n => some n
      | none => uFromStr 16 (2 ^ w.bits) (trimHex s)) = some n ↔ UintText w s n := by
  have hb : 0 < 2 ^ w.bits := by positivity
  have h10 := uFromStr_iff 10 (2 ^ w.bits) (by norm_num) hb s
  have h16 := uFromStr_iff 16 (2 ^ w.bits) (by norm_num) hb (trimHex s)
  unfold UintText
  cases h : uFromStr 10 (2 ^ w.bits) s with
  | some m =>
    have hm := (h10 m).1 h
    simp only [Option.some.injEq]
    constructor
    · rintro rfl; exact ⟨hm.1, Or.inl hm.2⟩
    · rintro ⟨h1, h2 | ⟨h2, _⟩⟩
      · have := (h10 n).2 ⟨h1, h2⟩
        rw [h] at this
        exact Option.some.inj this
      · exact absurd ⟨m, hm.2, hm.1⟩ h2
  | none =>
    simp only
    rw [h16]
    have hno : ¬ ∃ m, PlusNumeral 10 s m ∧ m < 2 ^ w.bits := by
      rintro ⟨m, h1, h2⟩
      have := (h10 m).2 ⟨h2, h1⟩
      rw [h] at this
      cases this
    constructor
    · rintro ⟨h1, h2⟩; exact ⟨h1, Or.inr ⟨hno, _, trimHex_spec s, h2⟩⟩
    · rintro ⟨h1, h2 | ⟨_, t, ht, h2⟩⟩
      · exact absurd ⟨n, h2, h1⟩ hno
      · rw [withoutPrefix_iff] at ht; subst ht; exact ⟨h1, h2⟩

theorem charDigit_decimal (c : Char) (d : ℕ) :
    (Fld.charDigit c = some d ∧ d < 10) ↔ (('0' ≤ c ∧ c ≤ '9') ∧ d = c.toNat - 48) := by
  unfold Fld.charDigit
  split
  · rename_i h
    have h9 : c.toNat ≤ 57 := h.2
    have h0 : 48 ≤ c.toNat := h.1
    simp only [Option.some.injEq, h, and_self, true_and]
    omega
  · rename_i h
    split
    · rename_i h'
      have h9 : c.toNat ≤ 122 := h'.2
      have h0 : 97 ≤ c.toNat := h'.1
      simp only [h, Option.some.injEq, false_and, iff_false, not_and]
      omega
    · split
      · rename_i h' h''
        simp only [h, Option.some.injEq, false_and, iff_false, not_and]
        omega
      · simp [h]

theorem frDigits_iff (s : Str) (acc x : ZMod p) :
    frDigits p s acc = some x ↔ ∃ ds, DigitsOf 10 s ds ∧ x = ds.foldl (fun a d => a * 10 + (d : ZMod p)) acc := by
  induction s generalizing acc with
  | nil =>
    simp only [frDigits, DigitsOf, Option.some.injEq, List.forall₂_nil_left_iff, exists_eq_left, List.foldl_nil]
    exact eq_comm
  | cons c cs ih =>
    simp only [frDigits, DigitsOf, List.forall₂_cons_left_iff]
    split
    · rename_i hc
      rw [ih]
      constructor
      · rintro ⟨ds, h1, h2⟩; exact ⟨_ :: ds, ⟨_, ds, (charDigit_decimal _ _).2 ⟨hc, rfl⟩, h1, rfl⟩, h2⟩
      · rintro ⟨_, ⟨d, ds, hd, h1, rfl⟩, h2⟩
        obtain ⟨_, rfl⟩ := (charDigit_decimal _ _).1 hd
        exact ⟨ds, h1, h2⟩
    · rename_i hc
      simp only [reduceCtorEq, false_iff, not_exists, not_and]
      rintro _ ⟨d, ds, hd, _⟩
      exact absurd ((charDigit_decimal _ _).1 hd).1 hc

theorem foldl_cast (radix : ℕ) (ds : List ℕ) (acc : ℕ) :
    ((ds.foldl (fun a d => a * radix + d) acc : ℕ) : ZMod p) =
      ds.foldl (fun a d => a * (radix : ZMod p) + (d : ZMod p)) (acc : ZMod p) := by
  induction ds generalizing acc with
  | nil => rfl
  | cons d ds ih => simp only [List.foldl_cons]; rw [ih]; push_cast; rfl

theorem tryFromDecStr_iff (s : Str) (x : ZMod p) : tryFromDecStr p s = some x ↔ ∃ n : ℕ, Decimal s n ∧ x = n := by
  have key : ∀ s : Str, frDigits p s 0 = some x ↔
      ∃ n : ℕ, (∃ ds, DigitsOf 10 s ds ∧ n = ds.foldl (fun a d => a * 10 + d) 0) ∧ x = n := by
    intro s
    rw [frDigits_iff]
    constructor
    · rintro ⟨ds, h1, h2⟩
      refine ⟨_, ⟨ds, h1, rfl⟩, ?_⟩
      have := foldl_cast (p := p) 10 ds 0
      push_cast at this
      rw [h2, this]
    · rintro ⟨_, ⟨ds, h1, rfl⟩, h2⟩
      refine ⟨ds, h1, ?_⟩
      have := foldl_cast (p := p) 10 ds 0
      push_cast at this
      rw [h2, this]
  unfold tryFromDecStr Decimal Numeral
  split
  · simp
  · constructor
    · intro h
      refine ⟨0, ⟨⟨by simp, [0], ?_, rfl⟩, fun _ => rfl⟩, by simpa [eq_comm] using h⟩
      exact List.Forall₂.cons ⟨by decide, by norm_num⟩ .nil
    · rintro ⟨n, ⟨⟨_, ds, h1, h2⟩, _⟩, rfl⟩
      rw [List.forall₂_cons_left_iff] at h1
      obtain ⟨d, ds', h3, h4, rfl⟩ := h1
      rw [List.forall₂_nil_left_iff] at h4
      subst h4
      rw [charDigit_decimal] at h3
      have : d = 0 := h3.2
      subst this
      simp [h2]
  · rename_i tl htl
    simp only [reduceCtorEq, ne_eq, not_false_eq_true, true_and, List.head?_cons, forall_const, List.cons.injEq,
      false_iff, not_exists, not_and]
    rintro n ⟨_, h⟩
    exact absurd h htl
  · rename_i h1 h2 h3
    rw [key]
    constructor
    · rintro ⟨n, h, rfl⟩
      refine ⟨n, ⟨⟨h1, h⟩, fun hh => ?_⟩, rfl⟩
      cases s with
      | nil => simp at hh
      | cons c cs => simp only [List.head?_cons, Option.some.injEq] at hh; subst hh; exact absurd rfl (h3 cs)
    · rintro ⟨n, ⟨⟨_, h⟩, _⟩, rfl⟩; exact ⟨n, h, rfl⟩

theorem parseDigits_iff (radix : ℕ) (s : Str) (acc n : ℕ) :
    Fld.parseDigits radix s acc = some n ↔
      ∃ ds, DigitsOf radix (s.filter (· ≠ '_')) ds ∧ n = ds.foldl (fun a d => a * radix + d) acc := by
  induction s generalizing acc with
  | nil =>
    simp only [Fld.parseDigits, DigitsOf, Option.some.injEq, List.filter_nil, List.forall₂_nil_left_iff, exists_eq_left,
      List.foldl_nil]
    exact eq_comm
  | cons c cs ih =>
    simp only [Fld.parseDigits]
    split
    · rename_i hc
      subst hc
      rw [ih]
      simp
    · rename_i hc
      rw [List.filter_cons_of_pos (by simpa using hc)]
      cases hd : Fld.charDigit c with
      | none => simp [DigitsOf, List.forall₂_cons_left_iff, hd]
      | some d =>
        simp only [DigitsOf, List.forall₂_cons_left_iff, hd, Option.some.injEq]
        split
        · rename_i hlt
          rw [ih]
          constructor
          · rintro ⟨ds, h1, h2⟩; exact ⟨d :: ds, ⟨d, ds, ⟨rfl, hlt⟩, h1, rfl⟩, h2⟩
          · rintro ⟨_, ⟨d', ds, ⟨rfl, _⟩, h1, rfl⟩, h2⟩; exact ⟨ds, h1, h2⟩
        · rename_i hlt
          simp only [reduceCtorEq, false_iff, not_exists, not_and]
          rintro _ ⟨d', ds, ⟨rfl, h⟩, _⟩
          exact absurd h hlt

theorem filter_ne_nil {body : Str} (h1 : body ≠ []) (h2 : body.head? ≠ some '_') : body.filter (· ≠ '_') ≠ [] := by
  cases body with
  | nil => exact absurd rfl h1
  | cons c cs =>
    have : c ≠ '_' := by simpa using h2
    rw [List.filter_cons_of_pos (by simpa using this)]
    simp

theorem body_iff (s : Str) (n : ℕ) :
    (match s with
      | [] => none
      | '_' :: _ => none
      | s => Fld.parseDigits 16 s 0) = some n ↔ s.head? ≠ some '_' ∧ Numeral 16 (s.filter (· ≠ '_')) n := by
  split
  · simp [Numeral]
  · simp
  · rename_i h1 h2
    rw [parseDigits_iff]
    have hh : s.head? ≠ some '_' := by
      cases s with
      | nil => simp
      | cons c cs => simp only [List.head?_cons, ne_eq, Option.some.injEq]; rintro rfl; exact h2 cs rfl
    constructor
    · intro h; exact ⟨hh, filter_ne_nil h1 hh, h⟩
    · rintro ⟨_, _, h⟩; exact h

theorem not_numeral_plus (radix : ℕ) (tl : Str) (n : ℕ) : ¬ Numeral radix (('+' :: tl).filter (· ≠ '_')) n := by
  rintro ⟨_, ds, h, _⟩
  rw [List.filter_cons_of_pos (by decide)] at h
  exact not_digitsOf_plus _ _ _ h

theorem parseBytes_iff (s : Str) (n : ℕ) : Fld.parseBytes 16 s = some n ↔ HexSep s n := by
  unfold Fld.parseBytes HexSep
  dsimp only
  refine (body_iff _ n).trans ?_
  split
  · rename_i tl
    constructor
    · rintro ⟨_, h⟩; exact absurd h (not_numeral_plus _ _ _)
    · rintro ⟨body, rfl | h, h1, h2⟩
      · exact absurd h2 (not_numeral_plus _ _ _)
      · obtain rfl := (List.cons.inj h).2
        exact absurd h2 (not_numeral_plus _ _ _)
  · rename_i tl htl
    constructor
    · rintro ⟨h1, h2⟩; exact ⟨tl, Or.inr rfl, h1, h2⟩
    · rintro ⟨body, rfl | h, h1, h2⟩
      · exact absurd h2 (not_numeral_plus _ _ _)
      · obtain rfl := (List.cons.inj h).2
        exact ⟨h1, h2⟩
  · rename_i h1 h2
    constructor
    · rintro ⟨ha, hb⟩; exact ⟨s, Or.inl rfl, ha, hb⟩
    · rintro ⟨body, rfl | rfl, ha, hb⟩
      · exact ⟨ha, hb⟩
      · exact absurd rfl (h2 body)

theorem field_text_iff [Fact p.Prime] (s : Str) (x : ZMod p) :
    (match tryFromDecStr p s with
      | some x => some x
      | none => Fld.tryFromStr p (trimHex s) 16) = some x ↔ FieldText s x := by
  unfold FieldText
  have h10 := tryFromDecStr_iff (p := p) s
  cases h : tryFromDecStr p s with
  | some y =>
    obtain ⟨m, hm, rfl⟩ := (h10 y).1 h
    simp only [Option.some.injEq]
    constructor
    · rintro rfl; exact Or.inl ⟨m, hm, rfl⟩
    · rintro (⟨k, hk, rfl⟩ | ⟨h2, _⟩)
      · have := (h10 _).2 ⟨k, hk, rfl⟩
        rw [h] at this
        exact Option.some.inj this
      · exact absurd ⟨m, hm⟩ h2
  | none =>
    have hno : ¬ ∃ n, Decimal s n := by
      rintro ⟨m, h1⟩
      have := (h10 _).2 ⟨m, h1, rfl⟩
      rw [h] at this
      cases this
    simp only [hno, not_false_eq_true, true_and]
    have hno' : ¬ ∃ n : ℕ, Decimal s n ∧ x = n := fun ⟨n, h, _⟩ => hno ⟨n, h⟩
    simp only [hno', false_or]
    unfold Fld.tryFromStr
    cases hb : Fld.parseBytes 16 (trimHex s) with
    | none =>
      simp only [reduceCtorEq, false_iff, not_exists, not_and]
      intro t n ht hn
      rw [withoutPrefix_iff] at ht
      subst ht
      rw [← parseBytes_iff, hb] at hn
      cases hn
    | some n =>
      simp only [Fld.tryFromBiguint_eq]
      constructor
      · intro hx
        split at hx
        · rename_i hlt
          exact ⟨_, n, trimHex_spec s, (parseBytes_iff _ _).1 hb, hlt, (Option.some.inj hx).symm⟩
        · cases hx
      · rintro ⟨t, m, ht, hm, hlt, rfl⟩
        rw [withoutPrefix_iff] at ht
        subst ht
        rw [← parseBytes_iff, hb] at hm
        obtain rfl := Option.some.inj hm
        rw [if_pos hlt]

/-! ### Parsing -/

theorem collectR_ok {ε α : Type _} (l : List (Except ε α)) (as : List α) :
    collectR l = .ok as ↔ l = as.map .ok := by
  induction l generalizing as with
  | nil => cases as <;> simp [collectR]
  | cons r l ih =>
    cases r with
    | error e => cases as <;> simp [collectR]
    | ok a =>
      simp only [collectR]
      cases h : collectR l with
      | error e =>
        simp only [reduceCtorEq, false_iff]
        intro hh
        cases as with
        | nil => simp at hh
        | cons b bs =>
          simp only [List.map_cons, List.cons.injEq] at hh
          rw [(ih bs).2 hh.2] at h
          cases h
      | ok bs =>
        have := (ih bs).1 h
        subst this
        simp only [Except.ok.injEq]
        constructor
        · rintro rfl; simp
        · intro hh
          cases as with
          | nil => simp at hh
          | cons b cs =>
            simp only [List.map_cons, List.cons.injEq, Except.ok.injEq] at hh
            rw [hh.1, (List.map_injective_iff.2 (fun _ _ h => Except.ok.inj h)) hh.2]

theorem objRemove_some {k : Str} {o o' : List (Str × Json)} {j : Json} (h : objRemove k o = some (j, o')) :
    ((k, j) :: o').Perm o := by
  induction o generalizing o' with
  | nil => simp [objRemove] at h
  | cons kv tl ih =>
    obtain ⟨k', v⟩ := kv
    simp only [objRemove] at h
    split at h
    · rename_i hk
      simp only [Option.some.injEq, Prod.mk.injEq] at h
      obtain ⟨rfl, rfl⟩ := h
      subst hk
      exact .refl _
    · split at h
      · cases h
      · rename_i r tl' hr
        simp only [Option.some.injEq, Prod.mk.injEq] at h
        obtain ⟨rfl, rfl⟩ := h
        exact (List.Perm.swap _ _ _).trans ((ih hr).cons _)

theorem objRemove_mem {k : Str} {j : Json} {o : List (Str × Json)} (hn : (o.map Prod.fst).Nodup) (h : (k, j) ∈ o) :
    ∃ o', objRemove k o = some (j, o') := by
  induction o with
  | nil => simp at h
  | cons kv tl ih =>
    obtain ⟨k', v⟩ := kv
    simp only [List.map_cons, List.nodup_cons] at hn
    simp only [objRemove]
    by_cases hk : k' = k
    · rw [if_pos hk]
      subst hk
      rcases List.mem_cons.1 h with h | h
      · cases h; exact ⟨_, rfl⟩
      · exact absurd (List.mem_map_of_mem (f := Prod.fst) h) hn.1
    · rw [if_neg hk]
      rcases List.mem_cons.1 h with h | h
      · cases h; exact absurd rfl hk
      · obtain ⟨o', ho'⟩ := ih hn.2 h
        exact ⟨_, by rw [ho']⟩

mutual
theorem parseValue_iff [Fact p.Prime] : ∀ (t : CType) (j : Json) (v : AVal (ZMod p)), j.WF →
    (parseValue t j = .ok v ↔ Denotes t j v)
  | .int, j, v, _ => by cases j <;> simp [parseValue, Denotes]
  | .field, j, v, _ => by
    cases j with
    | str s =>
      have := field_text_iff (p := p) s
      simp only [parseValue]
      cases v with
      | field x =>
        simp only [Denotes]
        rw [← this]
        cases h : tryFromDecStr p s with
        | some y => simp
        | none => cases h2 : Fld.tryFromStr p (trimHex s) 16 <;> simp
      | _ =>
        simp only [Denotes, iff_false]
        cases h : tryFromDecStr p s with
        | some y => simp
        | none => cases h2 : Fld.tryFromStr p (trimHex s) 16 <;> simp
    | _ => simp [parseValue, Denotes]
  | .bool, j, v, _ => by
    cases j with
    | bool b => cases v <;> simp [parseValue, Denotes, eq_comm]
    | _ => simp [parseValue, Denotes]
  | .uint w, j, v, _ => by
    cases j with
    | str s =>
      have := uint_text_iff w s
      simp only [parseValue]
      cases v with
      | uint w' n =>
        simp only [Denotes]
        rw [← this]
        cases h : uFromStr 10 (2 ^ w.bits) s with
        | some y => simp [eq_comm]
        | none => cases h2 : uFromStr 16 (2 ^ w.bits) (trimHex s) <;> simp [eq_comm]
      | _ =>
        simp only [Denotes, iff_false]
        cases h : uFromStr 10 (2 ^ w.bits) s with
        | some y => simp
        | none => cases h2 : uFromStr 16 (2 ^ w.bits) (trimHex s) <;> simp
    | _ => simp [parseValue, Denotes]
  | .array n t, j, v, hw => by
    cases j with
    | arr js =>
      have hjs : ∀ j ∈ js, j.WF := by cases hw; assumption
      simp only [parseValue]
      by_cases hl : js.length = n
      · rw [if_neg (by simpa using hl)]
        have key : ∀ (js : List Json) (vs : List (AVal (ZMod p))), (∀ j ∈ js, j.WF) →
            (js.map (parseValue t) = vs.map .ok ↔ List.Forall₂ (Denotes t) js vs) := by
          intro js
          induction js with
          | nil => intro vs _; cases vs <;> simp
          | cons j js ih =>
            intro vs hjs
            cases vs with
            | nil => simp
            | cons v vs =>
              simp only [List.map_cons, List.cons.injEq, List.forall₂_cons]
              rw [ih vs fun u hu => hjs u (List.mem_cons_of_mem _ hu), parseValue_iff t j v (hjs j List.mem_cons_self)]
        cases hc : collectR (js.map (parseValue t)) with
        | error e =>
          simp only [reduceCtorEq, false_iff]
          cases v with
          | array vs =>
            simp only [Denotes, not_and]
            intro _ h
            rw [(collectR_ok _ _).2 ((key js vs hjs).2 h)] at hc
            cases hc
          | _ => simp [Denotes]
        | ok us =>
          rw [collectR_ok] at hc
          cases v with
          | array vs =>
            simp only [Except.ok.injEq, AVal.array.injEq, Denotes, hl, true_and]
            rw [← key js vs hjs, hc]
            constructor
            · rintro rfl; rfl
            · intro h; exact (List.map_injective_iff.2 (fun _ _ h => Except.ok.inj h)) h
          | _ => simp [Denotes]
      · rw [if_pos hl]
        simp only [reduceCtorEq, false_iff]
        cases v <;> simp [Denotes, hl]
    | _ => simp [parseValue, Denotes]
  | .tuple ts, j, v, hw => by
    cases j with
    | arr js =>
      have hjs : ∀ j ∈ js, j.WF := by cases hw; assumption
      simp only [parseValue]
      have key := parseZip_iff ts js
      have hlen : ∀ vs : List (AVal (ZMod p)), DenotesL ts js vs → js.length = ts.length := fun vs h =>
        denotesL_length ts js vs h
      by_cases hl : js.length = ts.length
      · rw [if_neg (by simpa using hl)]
        cases hc : collectR (parseZip (p := p) ts js) with
        | error e =>
          simp only [reduceCtorEq, false_iff]
          cases v with
          | tuple vs =>
            simp only [Denotes]
            intro h
            rw [(collectR_ok _ _).2 ((key vs hjs hl).2 h)] at hc
            cases hc
          | _ => simp [Denotes]
        | ok us =>
          rw [collectR_ok] at hc
          cases v with
          | tuple vs =>
            simp only [Except.ok.injEq, AVal.tuple.injEq, Denotes]
            rw [← key vs hjs hl, hc]
            constructor
            · rintro rfl; rfl
            · intro h; exact (List.map_injective_iff.2 (fun _ _ h => Except.ok.inj h)) h
          | _ => simp [Denotes]
      · rw [if_pos hl]
        simp only [reduceCtorEq, false_iff]
        cases v with
        | tuple vs => simp only [Denotes]; exact fun h => hl (hlen vs h)
        | _ => simp [Denotes]
    | _ => simp [parseValue, Denotes]
  | .struct ms, j, v, hw => by
    cases j with
    | obj o =>
      have hn : (o.map Prod.fst).Nodup := by cases hw; assumption
      have ho : ∀ kv ∈ o, kv.2.WF := by cases hw; assumption
      simp only [parseValue]
      have key := parseMembers_iff ms o
      by_cases hl : o.length = ms.length
      · rw [if_neg (by simpa using hl)]
        cases v with
        | struct vs =>
          simp only [Denotes]
          rw [← key vs hn ho hl]
          cases hc : parseMembers (p := p) ms o with
          | error e => simp
          | ok rs =>
            simp only [Except.ok.injEq]
            rw [exists_eq_left', ← collectR_ok]
            cases h2 : collectR rs <;> simp
        | _ =>
          simp only [Denotes, iff_false]
          cases hc : parseMembers (p := p) ms o with
          | error e => simp
          | ok rs => cases h2 : collectR rs <;> simp [h2]
      · rw [if_pos hl]
        simp only [reduceCtorEq, false_iff]
        cases v with
        | struct vs =>
          simp only [Denotes, not_exists, not_and]
          intro o' hp h
          exact hl (by rw [← hp.length_eq]; exact denotesM_length ms o' vs h)
        | _ => simp [Denotes]
    | _ => simp [parseValue, Denotes]
theorem denotesL_length : ∀ (ts : List CType) (js : List Json) (vs : List (AVal (ZMod p))), DenotesL ts js vs →
    js.length = ts.length
  | [], [], [], _ => rfl
  | [], [], _ :: _, h => by simp [DenotesL] at h
  | [], _ :: _, _, h => by simp [DenotesL] at h
  | _ :: _, [], _, h => by simp [DenotesL] at h
  | _ :: _, _ :: _, [], h => by simp [DenotesL] at h
  | t :: ts, j :: js, v :: vs, h => by
    simp only [DenotesL] at h
    simp [denotesL_length ts js vs h.2]
theorem denotesM_length : ∀ (ts : List (Str × CType)) (js : List (Str × Json)) (vs : List (Str × AVal (ZMod p))),
    DenotesM ts js vs → js.length = ts.length
  | [], [], [], _ => rfl
  | [], [], _ :: _, h => by simp [DenotesM] at h
  | [], _ :: _, _, h => by simp [DenotesM] at h
  | _ :: _, [], _, h => by simp [DenotesM] at h
  | _ :: _, _ :: _, [], h => by simp [DenotesM] at h
  | (_, t) :: ts, (_, j) :: js, (_, v) :: vs, h => by
    simp only [DenotesM] at h
    simp [denotesM_length ts js vs h.2.2.2]
theorem parseZip_iff [Fact p.Prime] : ∀ (ts : List CType) (js : List Json) (vs : List (AVal (ZMod p))),
    (∀ j ∈ js, j.WF) → js.length = ts.length → (parseZip ts js = vs.map .ok ↔ DenotesL ts js vs)
  | [], [], [], _, _ => by simp [parseZip, DenotesL]
  | [], [], _ :: _, _, _ => by simp [parseZip, DenotesL]
  | [], _ :: _, _, _, h => by simp at h
  | _ :: _, [], _, _, h => by simp at h
  | _ :: _, _ :: _, [], _, _ => by simp [parseZip, DenotesL]
  | t :: ts, j :: js, v :: vs, hw, hl => by
    simp only [parseZip, DenotesL, List.map_cons, List.cons.injEq]
    rw [parseZip_iff ts js vs (fun u hu => hw u (List.mem_cons_of_mem _ hu)) (by simpa using hl),
      parseValue_iff t j v (hw j List.mem_cons_self)]
theorem parseMembers_iff [Fact p.Prime] : ∀ (ms : List (Str × CType)) (o : List (Str × Json))
    (vs : List (Str × AVal (ZMod p))), (o.map Prod.fst).Nodup → (∀ kv ∈ o, kv.2.WF) → o.length = ms.length →
    ((∃ rs, parseMembers ms o = .ok rs ∧ rs = vs.map .ok) ↔ ∃ o', o'.Perm o ∧ DenotesM ms o' vs)
  | [], o, vs, _, _, hl => by
    have : o = [] := by simpa using hl
    subst this
    cases vs with
    | nil => simp [parseMembers, DenotesM]
    | cons v vs => simp [parseMembers, DenotesM]
  | (k, t) :: ms, o, vs, hn, hw, hl => by
    simp only [parseMembers]
    cases hr : objRemove k o with
    | none =>
      simp only [reduceCtorEq, false_and, exists_false, false_iff, not_exists, not_and]
      intro o' hp h
      cases o' with
      | nil => simp [DenotesM] at h
      | cons kv o' =>
        obtain ⟨k', j⟩ := kv
        cases vs with
        | nil => simp [DenotesM] at h
        | cons kv vs =>
          obtain ⟨k'', v⟩ := kv
          simp only [DenotesM] at h
          obtain ⟨rfl, -⟩ := h
          obtain ⟨_, h2⟩ := objRemove_mem hn (hp.subset List.mem_cons_self)
          rw [h2] at hr
          cases hr
    | some r =>
      obtain ⟨j, o1⟩ := r
      dsimp only
      have hp1 := objRemove_some hr
      have hn1 : (o1.map Prod.fst).Nodup := by
        have := (hp1.map Prod.fst).nodup_iff.2 hn
        simp only [List.map_cons, List.nodup_cons] at this
        exact this.2
      have hw1 : ∀ kv ∈ o1, kv.2.WF := fun kv h => hw kv (hp1.subset (List.mem_cons_of_mem _ h))
      have hl1 : o1.length = ms.length := by
        have := hp1.length_eq
        simp only [List.length_cons] at this hl
        omega
      have hwj : j.WF := hw (k, j) (hp1.subset List.mem_cons_self)
      cases vs with
      | nil =>
        simp only [List.map_nil]
        constructor
        · rintro ⟨rs, h1, rfl⟩
          cases hm : parseMembers (p := p) ms o1 with
          | error e => rw [hm] at h1; simp at h1
          | ok rs => rw [hm] at h1; simp at h1
        · rintro ⟨o', _, h⟩
          cases o' <;> simp [DenotesM] at h
      | cons kv vs =>
        obtain ⟨k'', v⟩ := kv
        have ih := parseMembers_iff ms o1 vs hn1 hw1 hl1
        have ihv := parseValue_iff t j v hwj
        constructor
        · rintro ⟨rs, h1, h2⟩
          cases hm : parseMembers (p := p) ms o1 with
          | error e => rw [hm] at h1; simp at h1
          | ok rs1 =>
            rw [hm] at h1
            simp only [Except.ok.injEq] at h1
            subst h1
            simp only [List.map_cons, List.cons.injEq] at h2
            obtain ⟨o2, hp2, hd2⟩ := ih.1 ⟨rs1, hm, h2.2⟩
            have hv : parseValue t j = .ok v ∧ k'' = k := by
              revert h2
              cases parseValue (p := p) t j <;> simp <;> intro a b <;> simp_all
            exact ⟨(k, j) :: o2, (hp2.cons _).trans hp1, by
              simp only [DenotesM]; exact ⟨trivial, hv.2, ihv.1 hv.1, hd2⟩⟩
        · rintro ⟨o', hp', h⟩
          cases o' with
          | nil => simp [DenotesM] at h
          | cons kv o2 =>
            obtain ⟨k', j'⟩ := kv
            simp only [DenotesM] at h
            obtain ⟨rfl, rfl, hv, hd⟩ := h
            obtain ⟨_, h2⟩ := objRemove_mem hn (hp'.subset List.mem_cons_self)
            rw [hr] at h2
            simp only [Option.some.injEq, Prod.mk.injEq] at h2
            obtain ⟨rfl, -⟩ := h2
            have hp2 : o2.Perm o1 := (hp'.trans hp1.symm).cons_inv
            obtain ⟨rs, h3, h4⟩ := ih.2 ⟨o2, hp2, hd⟩
            refine ⟨.ok (k'', v) :: rs, ?_, by simp [h4]⟩
            rw [h3, ihv.2 hv]
end


/-! ### Printing -/

theorem charDigit_hexChar {d : ℕ} (h : d < 16) : Fld.charDigit (hexChar d) = some d := by
  interval_cases d <;> decide

theorem hexDigits_digits (k n : ℕ) : DigitsOf 16 (hexDigits k n) ((List.range k).reverse.map fun i => n / 16 ^ i % 16) := by
  induction k with
  | zero => exact .nil
  | succ k ih =>
    rw [List.range_succ, List.reverse_append]
    exact .cons ⟨charDigit_hexChar (Nat.mod_lt _ (by norm_num)), Nat.mod_lt _ (by norm_num)⟩ ih

theorem foldl_digits (k n acc : ℕ) :
    ((List.range k).reverse.map fun i => n / 16 ^ i % 16).foldl (fun a d => a * 16 + d) acc =
      acc * 16 ^ k + n % 16 ^ k := by
  induction k generalizing acc with
  | zero => simp [Nat.mod_one]
  | succ k ih =>
    rw [List.range_succ, List.reverse_append]
    simp only [List.reverse_singleton, List.singleton_append, List.map_cons, List.foldl_cons]
    rw [ih, pow_succ, Nat.mod_mul]
    ring

theorem length_hexDigits (k n : ℕ) : (hexDigits k n).length = k := by
  induction k with
  | zero => rfl
  | succ k ih => simp [hexDigits, ih]

theorem hexChar_ne_x (d : ℕ) (h : d < 16) : hexChar d ≠ 'x' := by
  interval_cases d <;> decide

theorem numeral_hexDigits {k n : ℕ} (hk : 0 < k) (hn : n < 16 ^ k) : Numeral 16 (hexDigits k n) n := by
  refine ⟨fun h => ?_, _, hexDigits_digits k n, ?_⟩
  · have := length_hexDigits k n
    rw [h] at this
    simp at this
    omega
  · rw [foldl_digits]
    simp [Nat.mod_eq_of_lt hn]

theorem UW.sixteen (w : UW) : 16 ^ (w.bits / 4) = 2 ^ w.bits := by cases w <;> simp [UW.bits]

theorem uintText_fmtHex (w : UW) (n : ℕ) (hn : n < 2 ^ w.bits) : UintText w (fmtHex w n) n := by
  refine ⟨hn, Or.inr ⟨?_, hexDigits (w.bits / 4) n, ⟨⟨1, rfl⟩, ?_⟩, Or.inl ?_⟩⟩
  · rintro ⟨m, h | ⟨tl, h, _⟩, _⟩
    · obtain ⟨_, ds, h, _⟩ := h
      unfold fmtHex at h
      rw [List.forall₂_cons_left_iff] at h
      obtain ⟨_, _, _, h, _⟩ := h
      rw [List.forall₂_cons_left_iff] at h
      obtain ⟨d, _, h, _⟩ := h
      have : Fld.charDigit 'x' = some 33 := by decide
      rw [this] at h
      obtain ⟨h1, h2⟩ := h
      injection h1 with h1
      omega
    · exact absurd (List.cons.inj h).1 (by decide)
  · intro u hu
    have hd := hexDigits_digits (w.bits / 4) n
    rw [hu] at hd
    unfold DigitsOf at hd
    rw [List.forall₂_cons_left_iff] at hd
    obtain ⟨_, _, _, h, _⟩ := hd
    rw [List.forall₂_cons_left_iff] at h
    obtain ⟨d, _, h, _⟩ := h
    have : Fld.charDigit 'x' = some 33 := by decide
    rw [this] at h
    obtain ⟨h1, h2⟩ := h
    injection h1 with h1
    omega
  · exact numeral_hexDigits (by cases w <;> simp [UW.bits]) (by rw [UW.sixteen]; exact hn)

theorem decimal_decString (n : ℕ) : Decimal (Fld.decString n) n := by
  unfold Fld.decString
  split
  · rename_i h
    subst h
    refine ⟨⟨by simp, [0], .cons ⟨by decide, by norm_num⟩ .nil, rfl⟩, fun _ => rfl⟩
  · rename_i h
    have hne : Nat.digits 10 n ≠ [] := Nat.digits_ne_nil_iff_ne_zero.2 h
    refine ⟨⟨by simpa using hne, (Nat.digits 10 n).reverse, ?_, ?_⟩, ?_⟩
    · rw [List.forall₂_map_left_iff, List.forall₂_same]
      intro d hd
      have : d < 10 := Nat.digits_lt_base (by norm_num) (List.mem_reverse.1 hd)
      exact ⟨Fld.charDigit_digitChar this, this⟩
    · rw [List.foldl_reverse]
      conv_lhs => rw [← Nat.ofDigits_digits 10 n]
      generalize Nat.digits 10 n = l
      induction l with
      | nil => rfl
      | cons d l ih =>
        rw [Nat.ofDigits_cons, List.foldr_cons, ← ih]
        push_cast
        ring
    · intro hh
      exfalso
      have hl := Nat.getLast_digit_ne_zero 10 h
      rw [List.head?_map, List.head?_reverse, List.getLast?_eq_getLast_of_ne_nil hne] at hh
      simp only [Option.map_some, Option.some.injEq] at hh
      have hlt : (Nat.digits 10 n).getLast hne < 10 := Nat.digits_lt_base (by norm_num) (List.getLast_mem hne)
      have h2 := Fld.charDigit_digitChar hlt
      rw [hh] at h2
      have : Fld.charDigit '0' = some 0 := by decide
      rw [this] at h2
      injection h2 with h2
      exact hl h2.symm

theorem fieldText_toDecString [Fact p.Prime] (x : ZMod p) : FieldText (Fld.toDecString x) x :=
  Or.inl ⟨x.val, decimal_decString _, (Fld.cast_val x).symm⟩

theorem objInsert_new (o : List (Str × Json)) (k : Str) (j : Json) (h : k ∉ o.map Prod.fst) :
    objInsert o k j = o ++ [(k, j)] := by
  induction o with
  | nil => rfl
  | cons kv o ih =>
    obtain ⟨k', v⟩ := kv
    simp only [List.map_cons, List.mem_cons, not_or] at h
    simp only [objInsert]
    rw [if_neg (fun e => h.1 e.symm), ih h.2]
    rfl

theorem foldl_objInsert (l o : List (Str × Json)) (h : ((o ++ l).map Prod.fst).Nodup) :
    l.foldl (fun o kv => objInsert o kv.1 kv.2) o = o ++ l := by
  induction l generalizing o with
  | nil => simp
  | cons kv l ih =>
    rw [List.foldl_cons, objInsert_new, ih]
    · simp
    · simpa using h
    · simp only [List.map_append, List.map_cons] at h
      intro hk
      have := (List.nodup_append.1 h).2.2 _ hk kv.1 List.mem_cons_self
      exact this rfl

theorem toJsonM_keys (fs : List (Str × AVal (ZMod p))) : (toJsonM fs).map Prod.fst = fs.map Prod.fst := by
  induction fs with
  | nil => simp [toJsonM]
  | cons f fs ih =>
    obtain ⟨k, v⟩ := f
    simp [toJsonM, ih]

theorem hasTypeM_keys : ∀ (ms : List (Str × CType)) (fs : List (Str × AVal (ZMod p))), HasTypeM ms fs →
    fs.map Prod.fst = ms.map Prod.fst
  | [], [], _ => rfl
  | [], _ :: _, h => by simp [HasTypeM] at h
  | _ :: _, [], h => by simp [HasTypeM] at h
  | (k, t) :: ms, (k', v) :: fs, h => by
    simp only [HasTypeM] at h
    simp [h.1, hasTypeM_keys ms fs h.2.2]

mutual
theorem toJson_ok [Fact p.Prime] : ∀ (t : CType) (v : AVal (ZMod p)), t.Distinct → HasType t v →
    (toJson v).WF ∧ Denotes t (toJson v) v
  | .int, v, _, h => by simp [HasType] at h
  | .field, v, _, h => by
    cases v with
    | field x => exact ⟨by simp only [toJson]; exact .str _, by simp only [toJson, Denotes]; exact fieldText_toDecString x⟩
    | _ => simp [HasType] at h
  | .bool, v, _, h => by
    cases v with
    | bool x => exact ⟨by simp only [toJson]; exact .bool _, by simp only [toJson, Denotes]⟩
    | _ => simp [HasType] at h
  | .uint w, v, _, h => by
    cases v with
    | uint w' n =>
      simp only [HasType] at h
      obtain ⟨rfl, hn⟩ := h
      exact ⟨by simp only [toJson]; exact .str _, by simp only [toJson, Denotes]; exact ⟨trivial, uintText_fmtHex _ n hn⟩⟩
    | _ => simp [HasType] at h
  | .array n t, v, hd, h => by
    cases v with
    | array vs =>
      simp only [HasType] at h
      simp only [CType.Distinct] at hd
      simp only [toJson, Denotes]
      have key : ∀ vs : List (AVal (ZMod p)), (∀ v ∈ vs, HasType t v) →
          (∀ j ∈ toJsonL vs, j.WF) ∧ (toJsonL vs).length = vs.length ∧ List.Forall₂ (Denotes t) (toJsonL vs) vs := by
        intro vs
        induction vs with
        | nil => intro _; simp [toJsonL]
        | cons v vs ih =>
          intro hv
          have h1 := toJson_ok t v hd (hv v List.mem_cons_self)
          have h2 := ih fun u hu => hv u (List.mem_cons_of_mem _ hu)
          refine ⟨?_, by simp [toJsonL, h2.2.1], ?_⟩
          · simp only [toJsonL, List.mem_cons, forall_eq_or_imp]; exact ⟨h1.1, h2.1⟩
          · simp only [toJsonL]; exact .cons h1.2 h2.2.2
      have := key vs h.2
      exact ⟨.arr _ this.1, this.2.1.trans h.1, this.2.2⟩
    | _ => simp [HasType] at h
  | .struct ms, v, hd, h => by
    cases v with
    | struct fs =>
      simp only [HasType] at h
      simp only [CType.Distinct] at hd
      have hk : ((toJsonM fs).map Prod.fst).Nodup := by rw [toJsonM_keys, hasTypeM_keys ms fs h]; exact hd.1
      have := toJsonM_ok ms fs hd.2 h
      simp only [toJson, Denotes]
      rw [foldl_objInsert _ _ (by simpa using hk), List.nil_append]
      exact ⟨.obj _ hk this.1, _, .refl _, this.2⟩
    | _ => simp [HasType] at h
  | .tuple ts, v, hd, h => by
    cases v with
    | tuple fs =>
      simp only [HasType] at h
      simp only [CType.Distinct] at hd
      have := toJsonL_ok ts fs hd h
      simp only [toJson, Denotes]
      exact ⟨.arr _ this.1, this.2⟩
    | _ => simp [HasType] at h
theorem toJsonL_ok [Fact p.Prime] : ∀ (ts : List CType) (vs : List (AVal (ZMod p))), DistinctL ts → HasTypeL ts vs →
    (∀ j ∈ toJsonL vs, j.WF) ∧ DenotesL ts (toJsonL vs) vs
  | [], [], _, _ => by simp [toJsonL, DenotesL]
  | [], _ :: _, _, h => by simp [HasTypeL] at h
  | _ :: _, [], _, h => by simp [HasTypeL] at h
  | t :: ts, v :: vs, hd, h => by
    simp only [HasTypeL] at h
    simp only [DistinctL] at hd
    have h1 := toJson_ok t v hd.1 h.1
    have h2 := toJsonL_ok ts vs hd.2 h.2
    simp only [toJsonL, DenotesL, List.mem_cons, forall_eq_or_imp]
    exact ⟨⟨h1.1, h2.1⟩, h1.2, h2.2⟩
theorem toJsonM_ok [Fact p.Prime] : ∀ (ts : List (Str × CType)) (vs : List (Str × AVal (ZMod p))), DistinctM ts →
    HasTypeM ts vs → (∀ kv ∈ toJsonM vs, kv.2.WF) ∧ DenotesM ts (toJsonM vs) vs
  | [], [], _, _ => by simp [toJsonM, DenotesM]
  | [], _ :: _, _, h => by simp [HasTypeM] at h
  | _ :: _, [], _, h => by simp [HasTypeM] at h
  | (k, t) :: ts, (k', v) :: vs, hd, h => by
    simp only [HasTypeM] at h
    simp only [DistinctM] at hd
    have h1 := toJson_ok t v hd.1 h.2.1
    have h2 := toJsonM_ok ts vs hd.2 h.2.2
    simp only [toJsonM, DenotesM, List.mem_cons, forall_eq_or_imp]
    exact ⟨⟨h1.1, h2.1⟩, h.1, h.1, h1.2, h2.2⟩
end

mutual
theorem denotes_hasType : ∀ (t : CType) (j : Json) (v : AVal (ZMod p)), Denotes t j v → HasType t v
  | .int, j, v, h => by cases j <;> cases v <;> simp [Denotes] at h
  | .field, j, v, h => by cases j <;> cases v <;> simp_all [Denotes, HasType]
  | .bool, j, v, h => by cases j <;> cases v <;> simp_all [Denotes, HasType]
  | .uint w, j, v, h => by
    cases j <;> cases v <;> simp only [Denotes] at h
    simp only [HasType]
    exact ⟨h.1, h.2.1⟩
  | .array n t, j, v, h => by
    cases j <;> cases v <;> simp only [Denotes] at h
    rename_i js vs
    simp only [HasType]
    refine ⟨h.2.length_eq.symm.trans h.1, fun v hv => ?_⟩
    obtain ⟨i, hi, rfl⟩ := List.mem_iff_getElem.1 hv
    exact denotes_hasType t _ _ (h.2.get (by rw [h.2.length_eq]; exact hi) hi)
  | .struct ms, j, v, h => by
    cases j <;> cases v <;> simp only [Denotes] at h
    simp only [HasType]
    obtain ⟨o', _, h⟩ := h
    exact denotesM_hasType ms _ _ h
  | .tuple ts, j, v, h => by
    cases j <;> cases v <;> simp only [Denotes] at h
    simp only [HasType]
    exact denotesL_hasType ts _ _ h
theorem denotesL_hasType : ∀ (ts : List CType) (js : List Json) (vs : List (AVal (ZMod p))), DenotesL ts js vs →
    HasTypeL ts vs
  | [], [], [], _ => by simp [HasTypeL]
  | [], [], _ :: _, h => by simp [DenotesL] at h
  | [], _ :: _, _, h => by simp [DenotesL] at h
  | _ :: _, [], _, h => by simp [DenotesL] at h
  | _ :: _, _ :: _, [], h => by simp [DenotesL] at h
  | t :: ts, j :: js, v :: vs, h => by
    simp only [DenotesL] at h
    simp only [HasTypeL]
    exact ⟨denotes_hasType t j v h.1, denotesL_hasType ts js vs h.2⟩
theorem denotesM_hasType : ∀ (ts : List (Str × CType)) (js : List (Str × Json)) (vs : List (Str × AVal (ZMod p))),
    DenotesM ts js vs → HasTypeM ts vs
  | [], [], [], _ => by simp [HasTypeM]
  | [], [], _ :: _, h => by simp [DenotesM] at h
  | [], _ :: _, _, h => by simp [DenotesM] at h
  | _ :: _, [], _, h => by simp [DenotesM] at h
  | _ :: _, _ :: _, [], h => by simp [DenotesM] at h
  | (_, t) :: ts, (_, j) :: js, (_, v) :: vs, h => by
    simp only [DenotesM] at h
    simp only [HasTypeM]
    exact ⟨h.2.1, denotes_hasType t j v h.2.2.1, denotesM_hasType ts js vs h.2.2.2⟩
end

end Zok.Abi
