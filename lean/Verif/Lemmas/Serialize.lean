import Verif.Model.Serialize
import Verif.Lemmas.Field
import Verif.Lemmas.SMap

namespace Zok.Ser
variable {p : ℕ}

/-! ### Readers -/

/-- A reader only looks at a prefix of its input. -/
def Ext {α : Type _} (rd : Bytes → Option (α × Bytes)) : Prop :=
  ∀ r a r' s, rd r = some (a, r') → rd (r ++ s) = some (a, r' ++ s)

theorem ext_readExact (n : ℕ) : Ext (readExact n) := by
  intro r a r' s h
  unfold readExact at h ⊢
  split at h
  · rename_i hn
    simp only [Option.some.injEq, Prod.mk.injEq] at h
    obtain ⟨rfl, rfl⟩ := h
    rw [if_pos (by simp; omega)]
    rw [List.take_append_of_le_length hn, List.drop_append_of_le_length hn]
  · cases h

theorem ext_readLE (k : ℕ) : Ext (readLE k) := by
  intro r a r' s h
  unfold readLE at h ⊢
  cases h1 : readExact k r with
  | none => rw [h1] at h; cases h
  | some x =>
    obtain ⟨b, r1⟩ := x
    rw [h1] at h
    simp only [Option.some.injEq, Prod.mk.injEq] at h
    obtain ⟨rfl, rfl⟩ := h
    rw [ext_readExact k r b r1 s h1]

theorem ext_readVar : Ext readVar := by
  intro r a r' s h
  unfold readVar at h ⊢
  cases h1 : readLE 8 r with
  | none => rw [h1] at h; cases h
  | some x =>
    obtain ⟨b, r1⟩ := x
    rw [h1] at h
    simp only [Option.some.injEq, Prod.mk.injEq] at h
    obtain ⟨rfl, rfl⟩ := h
    rw [ext_readLE 8 r b r1 s h1]

theorem ext_readField : Ext (readField p) := by
  intro r a r' s h
  unfold readField at h ⊢
  cases h1 : readExact (8 * Fld.limbs p) r with
  | none => rw [h1] at h; cases h
  | some x =>
    obtain ⟨b, r1⟩ := x
    rw [h1] at h
    simp only at h
    rw [ext_readExact _ r b r1 s h1]
    simp only
    split at h
    · rename_i hlt
      simp only [Option.some.injEq, Prod.mk.injEq] at h
      obtain ⟨rfl, rfl⟩ := h
      rw [if_pos hlt]
    · cases h

theorem ext_readEntries (n : ℕ) (w : SMap (ZMod p)) : Ext (readEntries p n w) := by
  induction n generalizing w with
  | zero =>
    intro r a r' s h
    simp only [readEntries, Option.some.injEq, Prod.mk.injEq] at h ⊢
    obtain ⟨rfl, rfl⟩ := h
    exact ⟨rfl, rfl⟩
  | succ n ih =>
    intro r a r' s h
    simp only [readEntries] at h ⊢
    cases h1 : readVar r with
    | none => rw [h1] at h; cases h
    | some x =>
      obtain ⟨v, r1⟩ := x
      rw [h1] at h
      simp only at h
      cases h2 : readField p r1 with
      | none => rw [h2] at h; cases h
      | some y =>
        obtain ⟨x, r2⟩ := y
        rw [h2] at h
        simp only at h
        rw [ext_readVar r v r1 s h1]
        simp only
        rw [ext_readField r1 x r2 s h2]
        exact ih _ _ _ _ _ h

theorem ext_readWitness : Ext (readWitness p) := by
  intro r a r' s h
  unfold readWitness at h ⊢
  cases h1 : readLE 8 r with
  | none => rw [h1] at h; cases h
  | some x =>
    obtain ⟨n, r1⟩ := x
    rw [h1] at h
    rw [ext_readLE 8 r n r1 s h1]
    exact ext_readEntries n [] _ _ _ _ h

theorem ext_readSection : Ext readSection := by
  intro r a r' s h
  unfold readSection at h ⊢
  cases h1 : readLE 4 r with
  | none => rw [h1] at h; cases h
  | some x =>
    obtain ⟨n, r1⟩ := x
    rw [h1] at h
    simp only at h
    rw [ext_readLE 4 r n r1 s h1]
    simp only
    cases h2 : SectionType.tryFrom n with
    | none => rw [h2] at h; cases h
    | some ty =>
      rw [h2] at h
      simp only at h ⊢
      cases h3 : readLE 8 r1 with
      | none => rw [h3] at h; cases h
      | some y =>
        obtain ⟨o, r2⟩ := y
        rw [h3] at h
        simp only at h
        rw [ext_readLE 8 r1 o r2 s h3]
        simp only
        cases h4 : readLE 8 r2 with
        | none => rw [h4] at h; cases h
        | some z =>
          obtain ⟨l, r3⟩ := z
          rw [h4] at h
          simp only [Option.some.injEq, Prod.mk.injEq] at h
          obtain ⟨rfl, rfl⟩ := h
          rw [ext_readLE 8 r2 l r3 s h4]

/-- Sequencing of readers. -/
theorem Ext.bind {α β : Type _} {rd : Bytes → Option (α × Bytes)} {k : α → Bytes → Option (β × Bytes)} (h1 : Ext rd)
    (h2 : ∀ a, Ext (k a)) : Ext fun r => (rd r).bind fun x => k x.1 x.2 := by
  intro r b r' s h
  simp only [Option.bind_eq_some_iff] at h ⊢
  obtain ⟨⟨a, r1⟩, ha, hb⟩ := h
  exact ⟨(a, r1 ++ s), h1 r a r1 s ha, h2 a r1 b r' s hb⟩

theorem Ext.pure {α : Type _} (a : α) : Ext fun r => some (a, r) := by
  intro r b r' s h
  simp only [Option.some.injEq, Prod.mk.injEq] at h ⊢
  obtain ⟨rfl, rfl⟩ := h
  exact ⟨rfl, rfl⟩

theorem ext_readHeader : Ext readHeader := by
  intro r a r' s h
  unfold readHeader at h ⊢
  simp only [Option.bind_eq_bind, Option.bind_eq_some_iff] at h ⊢
  obtain ⟨⟨a1, r1⟩, h1, ⟨a2, r2⟩, h2, ⟨a3, r3⟩, h3, ⟨a4, r4⟩, h4, ⟨a5, r5⟩, h5, ⟨a6, r6⟩, h6, ⟨a7, r7⟩, h7,
    ⟨a8, r8⟩, h8, ⟨a9, r9⟩, h9, h10⟩ := h
  simp only [Option.some.injEq, Prod.mk.injEq] at h10
  obtain ⟨rfl, rfl⟩ := h10
  exact ⟨_, ext_readExact 4 _ _ _ s h1, _, ext_readExact 4 _ _ _ s h2, _, ext_readExact 4 _ _ _ s h3,
    _, ext_readLE 4 _ _ _ s h4, _, ext_readLE 4 _ _ _ s h5, _, ext_readSection _ _ _ s h6,
    _, ext_readSection _ _ _ s h7, _, ext_readSection _ _ _ s h8, _, ext_readSection _ _ _ s h9, rfl⟩

/-- A reader that reads back what was written rejects every strict prefix of it. -/
theorem Ext.prefix {α : Type _} {rd : Bytes → Option (α × Bytes)} (h : Ext rd) {b : Bytes} {a : α}
    (hb : rd b = some (a, [])) {pre : Bytes} (hp : pre <+: b) (hne : pre ≠ b) : rd pre = none := by
  obtain ⟨s, rfl⟩ := hp
  cases hr : rd pre with
  | none => rfl
  | some x =>
    obtain ⟨a', r'⟩ := x
    have := h pre a' r' s hr
    rw [hb] at this
    simp only [Option.some.injEq, Prod.mk.injEq, List.nil_eq, List.append_eq_nil_iff] at this
    rw [this.2.2] at hne
    exact absurd (by simp) hne

/-! ### Round trips -/

theorem readExact_append {a b : Bytes} {n : ℕ} (h : a.length = n) : readExact n (a ++ b) = some (a, b) := by
  unfold readExact
  rw [if_pos (by simp; omega)]
  subst h
  simp

theorem readLE_write {k x : ℕ} (h : x < 256 ^ k) (r : Bytes) : readLE k (writeLE k x ++ r) = some (x, r) := by
  unfold readLE writeLE
  rw [readExact_append (Fld.length_bytesLE k x)]
  simp only [ Fld.natLE_bytesLE, Nat.mod_eq_of_lt h]

/-- The identifiers an `isize` can hold. -/
def VarOk (v : Variable) : Prop := -(2 ^ 63 : ℤ) ≤ (v : ℤ) ∧ (v : ℤ) < 2 ^ 63

theorem readVar_write {v : Variable} (h : VarOk v) (r : Bytes) : readVar (writeVar v ++ r) = some (v, r) := by
  unfold readVar writeVar
  obtain ⟨h1, h2⟩ := h
  have hm : (0 : ℤ) ≤ (v : ℤ) % 2 ^ 64 := Int.emod_nonneg _ (by norm_num)
  have hlt : (v : ℤ) % 2 ^ 64 < 2 ^ 64 := Int.emod_lt_of_pos _ (by norm_num)
  have hn : ((v : ℤ) % 2 ^ 64).toNat < 256 ^ 8 := by
    have : ((v : ℤ) % 2 ^ 64).toNat < 2 ^ 64 := by zify; rw [Int.toNat_of_nonneg hm]; exact hlt
    norm_num at this ⊢; exact this
  rw [readLE_write hn]
  simp only [Option.some.injEq, Prod.mk.injEq, and_true]
  have hcast : ((((v : ℤ) % 2 ^ 64).toNat : ℕ) : ℤ) = (v : ℤ) % 2 ^ 64 := Int.toNat_of_nonneg hm
  by_cases hv : (0 : ℤ) ≤ (v : ℤ)
  · have hmod : (v : ℤ) % 2 ^ 64 = v := Int.emod_eq_of_lt hv (by linarith)
    rw [if_pos (by zify; rw [hcast, hmod]; exact h2), hcast, hmod]
  · have hmod : (v : ℤ) % 2 ^ 64 = v + 2 ^ 64 := by
      rw [← Int.add_emod_right, Int.emod_eq_of_lt (by linarith) (by push Not at hv; linarith)]
    rw [if_neg (by zify; rw [hcast, hmod]; push Not; linarith), hcast, hmod]
    ring

theorem readField_write [Fact p.Prime] (x : ZMod p) (r : Bytes) : readField p (writeField x ++ r) = some (x, r) := by
  unfold readField writeField Fld.toByteVector
  rw [readExact_append (Fld.length_bytesLE _ _)]
  have h : Fld.natLE (Fld.bytesLE (8 * Fld.limbs p) x.val) = x.val := by
    rw [Fld.natLE_bytesLE, Nat.mod_eq_of_lt (lt_trans (Fld.val_lt x) Fld.p_lt_256)]
  simp only [h, Fld.val_lt x, if_true, Fld.cast_val]

theorem insert_max {V : Type _} (w : SMap V) (v : Variable) (x : V) (h : ∀ k ∈ SMap.keys w, (k : ℤ) < v) :
    SMap.insert w v x = w ++ [(v, x)] := by
  induction w with
  | nil => rfl
  | cons kv w ih =>
    obtain ⟨k, y⟩ := kv
    have hk : (k : ℤ) < v := h k (by simp [SMap.keys])
    simp only [SMap.insert]
    rw [if_neg (not_lt.2 (le_of_lt hk)), if_neg (ne_of_gt hk), ih]
    · rfl
    · intro k' hk'
      exact h k' (by simp only [SMap.keys, List.map_cons, List.mem_cons] at hk' ⊢; exact Or.inr hk')

theorem readEntries_write [Fact p.Prime] (w acc : SMap (ZMod p)) (hs : SMap.Sorted (acc ++ w))
    (hv : ∀ k ∈ SMap.keys w, VarOk k) (r : Bytes) :
    readEntries p w.length acc (writeEntries w ++ r) = some (acc ++ w, r) := by
  induction w generalizing acc with
  | nil => simp [readEntries, writeEntries]
  | cons kv w ih =>
    obtain ⟨k, x⟩ := kv
    simp only [List.length_cons, readEntries, writeEntries, List.append_assoc]
    rw [readVar_write (hv k (by simp [SMap.keys]))]
    simp only
    rw [readField_write]
    simp only
    rw [insert_max, ih]
    · simp
    · simpa using hs
    · intro k' hk'
      exact hv k' (by simp only [SMap.keys, List.map_cons, List.mem_cons] at hk' ⊢; exact Or.inr hk')
    · intro k' hk'
      unfold SMap.Sorted at hs
      rw [List.pairwise_append] at hs
      obtain ⟨y, hy, rfl⟩ := List.mem_map.1 hk'
      exact hs.2.2 y hy (k, x) List.mem_cons_self

theorem tryFrom_toNat (t : SectionType) : SectionType.tryFrom t.toNat = some t := by cases t <;> rfl

theorem toNat_tryFrom {n : ℕ} {t : SectionType} (h : SectionType.tryFrom n = some t) : t.toNat = n := by
  unfold SectionType.tryFrom at h
  split at h <;> cases h <;> rfl

theorem toNat_lt (t : SectionType) : t.toNat < 256 ^ 4 := by cases t <;> norm_num [SectionType.toNat]

/-- A section whose numbers fit 64 bits. -/
def SectionOk (s : Section) : Prop := s.offset < 2 ^ 64 ∧ s.length < 2 ^ 64

theorem readSection_write {s : Section} (h : SectionOk s) (r : Bytes) :
    readSection (writeSection s ++ r) = some (s, r) := by
  have h1 : s.offset < 256 ^ 8 := by have := h.1; norm_num at this ⊢; exact this
  have h2 : s.length < 256 ^ 8 := by have := h.2; norm_num at this ⊢; exact this
  unfold readSection writeSection
  rw [List.append_assoc, List.append_assoc, readLE_write (toNat_lt s.ty)]
  simp only [tryFrom_toNat]
  rw [readLE_write h1]
  simp only
  rw [readLE_write h2]

/-- A header whose fields fit their representation. -/
structure HeaderOk (h : ProgHeader) : Prop where
  magic : h.magic.length = 4
  version : h.version.length = 4
  curve : h.curveId.length = 4
  cc : h.constraintCount < 2 ^ 32
  rc : h.returnCount < 2 ^ 32
  s1 : SectionOk h.sections.1
  s2 : SectionOk h.sections.2.1
  s3 : SectionOk h.sections.2.2.1
  s4 : SectionOk h.sections.2.2.2

theorem readHeader_write {h : ProgHeader} (ok : HeaderOk h) (r : Bytes) :
    readHeader (writeHeader h ++ r) = some (h, r) := by
  have h1 : h.constraintCount < 256 ^ 4 := by have := ok.cc; norm_num at this ⊢; exact this
  have h2 : h.returnCount < 256 ^ 4 := by have := ok.rc; norm_num at this ⊢; exact this
  unfold readHeader writeHeader
  simp only [List.append_assoc]
  rw [readExact_append ok.magic]
  simp only [Option.bind_eq_bind, Option.bind_some]
  rw [readExact_append ok.version]
  simp only [Option.bind_some]
  rw [readExact_append ok.curve]
  simp only [Option.bind_some]
  rw [readLE_write h1]
  simp only [Option.bind_some]
  rw [readLE_write h2]
  simp only [Option.bind_some]
  rw [readSection_write ok.s1]
  simp only [Option.bind_some]
  rw [readSection_write ok.s2]
  simp only [Option.bind_some]
  rw [readSection_write ok.s3]
  simp only [Option.bind_some]
  rw [readSection_write ok.s4]
  rfl

/-! ### Readers invert writers the other way round -/

theorem bytesLE_natLE (b : Bytes) (h : ∀ x ∈ b, x < 256) : Fld.bytesLE b.length (Fld.natLE b) = b := by
  induction b with
  | nil => rfl
  | cons x b ih =>
    have hx : x < 256 := h x List.mem_cons_self
    simp only [List.length_cons, Fld.bytesLE, Fld.natLE]
    rw [Nat.add_mul_mod_self_left, Nat.mod_eq_of_lt hx, Nat.add_mul_div_left _ _ (by norm_num), Nat.div_eq_of_lt hx,
      Nat.zero_add, ih fun y hy => h y (List.mem_cons_of_mem _ hy)]

theorem readExact_inv {n : ℕ} {r a r' : Bytes} (h : readExact n r = some (a, r')) : r = a ++ r' ∧ a.length = n := by
  unfold readExact at h
  split at h
  · simp only [Option.some.injEq, Prod.mk.injEq] at h
    obtain ⟨rfl, rfl⟩ := h
    exact ⟨(List.take_append_drop n r).symm, by simp; omega⟩
  · cases h

theorem natLE_lt (b : Bytes) (h : ∀ x ∈ b, x < 256) : Fld.natLE b < 256 ^ b.length := by
  induction b with
  | nil => simp [Fld.natLE]
  | cons x b ih =>
    have hx : x < 256 := h x List.mem_cons_self
    have := ih fun y hy => h y (List.mem_cons_of_mem _ hy)
    simp only [Fld.natLE, List.length_cons, pow_succ]
    omega

theorem readLE_inv {k n : ℕ} {r r' : Bytes} (hb : ∀ x ∈ r, x < 256) (h : readLE k r = some (n, r')) :
    r = writeLE k n ++ r' ∧ n < 256 ^ k := by
  unfold readLE at h
  cases h1 : readExact k r with
  | none => rw [h1] at h; cases h
  | some x =>
    obtain ⟨b, r1⟩ := x
    rw [h1] at h
    simp only [Option.some.injEq, Prod.mk.injEq] at h
    obtain ⟨rfl, rfl⟩ := h
    obtain ⟨rfl, rfl⟩ := readExact_inv h1
    have hb' : ∀ x ∈ b, x < 256 := fun x hx => hb x (by simp [hx])
    exact ⟨by rw [writeLE, bytesLE_natLE b hb'], natLE_lt b hb'⟩

theorem readSection_inv {r r' : Bytes} {s : Section} (hb : ∀ x ∈ r, x < 256) (h : readSection r = some (s, r')) :
    r = writeSection s ++ r' ∧ SectionOk s := by
  unfold readSection at h
  cases h1 : readLE 4 r with
  | none => rw [h1] at h; cases h
  | some x =>
    obtain ⟨n, r1⟩ := x
    rw [h1] at h
    simp only at h
    cases h2 : SectionType.tryFrom n with
    | none => rw [h2] at h; cases h
    | some ty =>
      rw [h2] at h
      simp only at h
      cases h3 : readLE 8 r1 with
      | none => rw [h3] at h; cases h
      | some y =>
        obtain ⟨o, r2⟩ := y
        rw [h3] at h
        simp only at h
        cases h4 : readLE 8 r2 with
        | none => rw [h4] at h; cases h
        | some z =>
          obtain ⟨l, r3⟩ := z
          rw [h4] at h
          simp only [Option.some.injEq, Prod.mk.injEq] at h
          obtain ⟨rfl, rfl⟩ := h
          obtain ⟨e1, l1⟩ := readLE_inv hb h1
          have hb1 : ∀ x ∈ r1, x < 256 := fun x hx => hb x (by rw [e1]; simp [hx])
          obtain ⟨e3, l3⟩ := readLE_inv hb1 h3
          have hb2 : ∀ x ∈ r2, x < 256 := fun x hx => hb1 x (by rw [e3]; simp [hx])
          obtain ⟨e4, l4⟩ := readLE_inv hb2 h4
          refine ⟨?_, by norm_num at l3 ⊢; exact l3, by norm_num at l4 ⊢; exact l4⟩
          rw [e1, e3, e4]
          simp only [writeSection, toNat_tryFrom h2, List.append_assoc]

theorem readHeader_inv {r r' : Bytes} {h : ProgHeader} (hb : ∀ x ∈ r, x < 256) (hr : readHeader r = some (h, r')) :
    r = writeHeader h ++ r' ∧ HeaderOk h := by
  unfold readHeader at hr
  simp only [Option.bind_eq_bind, Option.bind_eq_some_iff, Prod.exists] at hr
  obtain ⟨a1, r1, e1, a2, r2, e2, a3, r3, e3, a4, r4, e4, a5, r5, e5, a6, r6, e6, a7, r7, e7, a8, r8, e8, a9, r9, e9, hr⟩ := hr
  simp only [pure, Option.some.injEq, Prod.mk.injEq] at hr
  obtain ⟨rfl, rfl⟩ := hr
  obtain ⟨rfl, l1⟩ := readExact_inv e1
  obtain ⟨rfl, l2⟩ := readExact_inv e2
  obtain ⟨rfl, l3⟩ := readExact_inv e3
  have hb3 : ∀ x ∈ r3, x < 256 := fun x hx => hb x (by simp [hx])
  obtain ⟨rfl, l4⟩ := readLE_inv hb3 e4
  have hb4 : ∀ x ∈ r4, x < 256 := fun x hx => hb3 x (by simp [hx])
  obtain ⟨rfl, l5⟩ := readLE_inv hb4 e5
  have hb5 : ∀ x ∈ r5, x < 256 := fun x hx => hb4 x (by simp [hx])
  obtain ⟨rfl, l6⟩ := readSection_inv hb5 e6
  have hb6 : ∀ x ∈ r6, x < 256 := fun x hx => hb5 x (by simp [hx])
  obtain ⟨rfl, l7⟩ := readSection_inv hb6 e7
  have hb7 : ∀ x ∈ r7, x < 256 := fun x hx => hb6 x (by simp [hx])
  obtain ⟨rfl, l8⟩ := readSection_inv hb7 e8
  have hb8 : ∀ x ∈ r8, x < 256 := fun x hx => hb7 x (by simp [hx])
  obtain ⟨rfl, l9⟩ := readSection_inv hb8 e9
  refine ⟨by simp only [writeHeader, List.append_assoc], ⟨l1, l2, l3, ?_, ?_, l6, l7, l8, l9⟩⟩
  · norm_num at l4 ⊢; exact l4
  · norm_num at l5 ⊢; exact l5

theorem length_writeHeader {h : ProgHeader} (ok : HeaderOk h) : (writeHeader h).length = 100 := by
  simp [writeHeader, writeSection, writeLE, Fld.length_bytesLE, ok.magic, ok.version, ok.curve]

end Zok.Ser
