import Verif.Lemmas.Cmp

/-
Completeness of the gadgets of the flattener.
-/

set_option linter.unusedSectionVars false

namespace Zok
variable {p : ℕ} {Z : Type} [Fact p.Prime]
variable {sem : SolverSem (ZMod p) Z} {ρ : Assignment (ZMod p)} {L : ZId → Option Variable} {pre : Prop}

open FlatExpr Fld

theorem exec_bits (n : ℕ) (x : ZMod p) (hn : n ≤ requiredBits p) :
    executeSolver sem (.bits n) [x] [] = .ok ((bitsBE n x.val).map boolF) := by
  have h := constBits_eq n x hn
  unfold Flt.constBits at h
  simp only [executeSolver, Solver.signature, solverBody]
  simp only [List.length_singleton, ne_eq, not_true, if_false]
  simp only at h
  rw [h]; simp

theorem exec_conditionEq (x : ZMod p) :
    executeSolver sem .conditionEq [x] [] = .ok (if x = 0 then [0, 1] else [1, x⁻¹]) := by
  simp only [executeSolver, Solver.signature, solverBody, List.length_singleton, ne_eq, not_true, if_false]
  by_cases h : x = 0
  · simp [h]
  · simp [h, Fld.checkedDiv]

theorem exec_xor (x y : ZMod p) : executeSolver sem .xor [x, y] [] = .ok [x + y - 2 * x * y] := by
  simp [executeSolver, Solver.signature, solverBody]

theorem exec_or (x y : ZMod p) : executeSolver sem .or [x, y] [] = .ok [x + y - x * y] := by
  simp [executeSolver, Solver.signature, solverBody]

theorem exec_maj (a b c : ZMod p) :
    executeSolver sem .shaAndXorAndXorAnd [a, b, c] [] = .ok [b * c - (2 * b * c - b - c) * a] := by
  simp [executeSolver, Solver.signature, solverBody]

theorem exec_ch (a b c : ZMod p) : executeSolver sem .shaCh [a, b, c] [] = .ok [a * (b - c) + c] := by
  simp [executeSolver, Solver.signature, solverBody]

theorem exec_div (x y : ZMod p) (hy : y ≠ 0) : executeSolver sem .div [x, y] [] = .ok [x / y] := by
  simp [executeSolver, Solver.signature, solverBody, Fld.checkedDiv, hy, div_eq_mul_inv]

theorem exec_euclid (x y : ZMod p) (hy : y ≠ 0) : executeSolver sem .euclideanDiv [x, y] [] =
    .ok [((x.val / y.val : ℕ) : ZMod p), ((x.val % y.val : ℕ) : ZMod p)] := by
  have hy' : y.val ≠ 0 := by rwa [ne_eq, ZMod.val_eq_zero]
  have h1 : x.val / y.val < p := lt_of_le_of_lt (Nat.div_le_self _ _) (Fld.val_lt x)
  have h2 : x.val % y.val < p := lt_of_le_of_lt (Nat.mod_le _ _) (Fld.val_lt x)
  have h3 : x.val - y.val * (x.val / y.val) = x.val % y.val := by
    have := Nat.div_add_mod x.val y.val; omega
  have h4 : ∀ n, n < p → Fld.tryFromBiguint p n = some (n : ZMod p) := by
    intro n hn
    unfold Fld.tryFromBiguint
    rw [if_pos]
    rw [Fld.val_maxValue]; omega
  simp [executeSolver, Solver.signature, solverBody, hy', h3, h4 _ h1, h4 _ h2]

namespace Cmp

theorem define (e : FlatExpr (ZMod p)) : Cmp sem ρ L pre (Flt.define e : FlatM p Z _) (fun v => ρ v = e.val ρ) := by
  unfold Flt.define
  split
  · exact Cmp.pure fun _ => rfl
  · refine Cmp.bind useSym fun r => Cmp.bind (defn _ _) fun _ => Cmp.pure ?_
    rintro ⟨_, h⟩; exact h

theorem defineAll (es : List (FlatExpr (ZMod p))) :
    Cmp sem ρ L pre (Flt.defineAll es : FlatM p Z _) (fun vs => vs.map ρ = es.map (FlatExpr.val ρ)) := by
  induction es generalizing pre with
  | nil => exact Cmp.pure fun _ => rfl
  | cons e es ih =>
    refine Cmp.bind (define e) fun v => Cmp.bind ih fun vs => Cmp.pure ?_
    rintro ⟨⟨_, h1⟩, h2⟩; simp [h1, h2]

theorem linearise (e : FlatExpr (ZMod p)) :
    Cmp sem ρ L pre (Flt.linearise e : FlatM p Z _) (fun a => a.val ρ = e.val ρ) := by
  unfold Flt.linearise
  split
  · exact Cmp.pure fun _ => rfl
  · refine Cmp.bind useSym fun r => Cmp.bind (defn _ _) fun _ => Cmp.pure ?_
    rintro ⟨_, h⟩; exact h

theorem newDef (e : FlatExpr (ZMod p)) : Cmp sem ρ L pre (Flt.newDef e : FlatM p Z _) (fun v => ρ v = e.val ρ) := by
  unfold Flt.newDef
  refine Cmp.bind useSym fun r => Cmp.bind (defn _ _) fun _ => Cmp.pure ?_
  rintro ⟨_, h⟩; exact h

theorem useSyms (n : ℕ) : Cmp sem ρ L pre (Flt.useSyms n : FlatM p Z _) (fun vs => vs.length = n) := by
  induction n generalizing pre with
  | zero => exact Cmp.pure fun _ => rfl
  | succ n ih =>
    refine Cmp.bind useSym fun v => Cmp.bind ih fun vs => Cmp.pure ?_
    rintro ⟨_, h⟩; simp [h]

theorem leSyms (n : ℕ) : Cmp sem ρ L pre (Flt.leSyms n : FlatM p Z _) (fun vs => vs.length = n) := by
  induction n generalizing pre with
  | zero => exact Cmp.pure fun _ => rfl
  | succ n ih =>
    refine Cmp.bind useSym fun v => Cmp.bind useSym fun w => Cmp.bind ih fun vs => Cmp.pure ?_
    rintro ⟨_, h⟩; simp [h]

/-- The loop only emits definitions. -/
theorem leLoop (l : List (FlatExpr (ZMod p) × Bool × Variable × Variable)) :
    Cmp sem ρ L pre (Flt.leLoop l : FlatM p Z _) (fun _ => True) := by
  induction l generalizing pre with
  | nil => exact Cmp.pure fun _ => trivial
  | cons t rest ih =>
    obtain ⟨a, b, nsr, su⟩ := t
    cases b with
    | true =>
      unfold Flt.leLoop
      refine Cmp.bind (defn _ _) fun _ => Cmp.bind (P := fun _ => True) ?_ fun _ => ih
      split
      · exact (defn _ _).drop
      · exact Cmp.pure fun _ => trivial
    | false =>
      unfold Flt.leLoop
      refine Cmp.bind (P := fun _ => True) ?_ fun _ => Cmp.bind useSym fun _ => Cmp.bind (defn _ _) fun _ =>
        Cmp.bind ih fun _ => Cmp.pure fun _ => trivial
      split
      · exact (defn _ _).drop
      · exact Cmp.pure fun _ => trivial

/-- A bit of a list of bits. -/
theorem _root_.Zok.BitsRel.mem {bs : List (FlatExpr (ZMod p))} {bl : List Bool} (h : BitsRel ρ bs bl)
    {b : FlatExpr (ZMod p)} (hb : b ∈ bs) : ∃ x, b.val ρ = boolF x := by
  have : b.val ρ ∈ bs.map (FlatExpr.val ρ) := List.mem_map.2 ⟨b, hb, rfl⟩
  rw [show bs.map (FlatExpr.val ρ) = bl.map boolF from h] at this
  obtain ⟨x, _, hx⟩ := List.mem_map.1 this
  exact ⟨x, hx.symm⟩

theorem constantLeCheck (a : List (FlatExpr (ZMod p))) (b al : List Bool) :
    Cmp sem ρ L (pre ∧ BitsRel ρ a al) (Flt.constantLeCheck a b : FlatM p Z _)
      (fun conds => al.length = b.length ∧ ∃ cl, BitsRel ρ conds cl ∧ cl.length ≤ b.length ∧
        (cl.all id = true ↔ natBE al ≤ natBE b)) := by
  refine Cmp.snd (P := fun _ => True) ?_ (Sound.constantLeCheck a b al) id
  unfold Flt.constantLeCheck
  refine Cmp.bind (assert _) fun _ => Cmp.ite ?_ ?_
  · intro hb
    refine Cmp.bind (defineAll a) fun ids => Cmp.bind (emitAll _ ?_).drop fun _ => Cmp.pure fun _ => trivial
    rintro ⟨⟨⟨_, h⟩, _⟩, hi⟩ _ s hs
    obtain ⟨v, hv, rfl⟩ := List.mem_map.1 hs
    have : ρ v ∈ a.map (FlatExpr.val ρ) := by rw [← hi]; exact List.mem_map.2 ⟨v, hv, rfl⟩
    obtain ⟨e, he, hev⟩ := List.mem_map.1 this
    obtain ⟨x, hx⟩ := h.mem he
    refine .condition ?_
    simp only [FlatExpr.val, ← hev, hx, boolF_mul_self]
  · intro hb
    refine Cmp.bind (leSyms _) fun syms => ?_
    cases syms with
    | nil => exact Cmp.panic_bind
    | cons t syms => exact Cmp.bind (defn _ _) fun _ => leLoop _

theorem eqCheck (l r : FlatExpr (ZMod p)) : Cmp sem ρ L pre (Flt.eqCheck l r : FlatM p Z _)
    (fun e => e.val ρ = boolF (decide (l.val ρ = r.val ρ))) := by
  refine Cmp.snd (P := fun _ => True) (pre' := True) ?_ (Sound.eqCheck l r) fun _ => trivial
  unfold Flt.eqCheck
  refine Cmp.bind (define l) fun x => Cmp.bind (define r) fun y => Cmp.bind useSym fun b => Cmp.bind useSym
    fun m => Cmp.bind (direc (if ρ x - ρ y = 0 then [0, 1] else [1, (ρ x - ρ y)⁻¹])
      fun _ => ⟨exec_conditionEq _, by split <;> rfl⟩) fun _ =>
      Cmp.bind (cond ?_) fun _ => Cmp.bind (cond ?_) fun _ => Cmp.pure fun _ => trivial
  · rintro ⟨_, h⟩
    simp only [FlatExpr.val]
    by_cases hz : ρ x - ρ y = 0
    · rw [if_pos hz] at h
      simp only [List.map_cons, List.map_nil, List.cons.injEq, and_true] at h
      rw [h.1, hz, zero_mul]
    · rw [if_neg hz] at h
      simp only [List.map_cons, List.map_nil, List.cons.injEq, and_true] at h
      rw [h.1, h.2, mul_inv_cancel₀ hz]
  · rintro ⟨⟨_, h⟩, _⟩
    simp only [FlatExpr.val]
    by_cases hz : ρ x - ρ y = 0
    · rw [hz, mul_zero]
    · rw [if_neg hz] at h
      simp only [List.map_cons, List.map_nil, List.cons.injEq, and_true] at h
      rw [h.1]; simp

theorem enforceLeBits (a : List (FlatExpr (ZMod p))) (b al : List Bool) (err : RuntimeError) :
    Cmp sem ρ L ((pre ∧ natBE al ≤ natBE b) ∧ BitsRel ρ a al) (Flt.enforceLeBits a b err : FlatM p Z _)
      (fun _ => True) := by
  unfold Flt.enforceLeBits
  refine Cmp.bind (constantLeCheck a b al) fun conds => cond ?_
  rintro ⟨⟨⟨_, hle⟩, _⟩, _, cl, h1, _, h3⟩
  simp only [FlatExpr.val, val_sumFold_bits h1, h1.length]
  rw [count_true_eq_length.2 (h3.2 hle)]; simp

theorem freshBits (f : FlatExpr (ZMod p)) (from_ tgt : ℕ) (err : RuntimeError) (ht : tgt ≤ from_)
    (hr : from_ ≤ requiredBits p) :
    Cmp sem ρ L (pre ∧ (f.val ρ).val < 2 ^ from_) (Flt.freshBits f from_ tgt err : FlatM p Z _)
      (fun bs => BitsRel ρ bs (bitsBE tgt (f.val ρ).val)) := by
  unfold Flt.freshBits
  have rel : ∀ {vs : List Variable}, vs.map ρ = (bitsBE from_ (f.val ρ).val).map boolF →
      BitsRel ρ (vs.map FlatExpr.ident) (bitsBE from_ (f.val ρ).val) := by
    intro vs h
    unfold BitsRel
    rw [← h, List.map_map]; rfl
  have keep : ∀ {vs : List Variable}, vs.map ρ = (bitsBE from_ (f.val ρ).val).map boolF →
      BitsRel ρ ((vs.map FlatExpr.ident).drop (from_ - tgt)) (bitsBE tgt (f.val ρ).val) := by
    intro vs h
    have := (rel h).drop (from_ - tgt)
    rwa [drop_bitsBE, show from_ - (from_ - tgt) = tgt by omega] at this
  have sum : ∀ {vs : List Variable}, (f.val ρ).val < 2 ^ from_ →
      vs.map ρ = (bitsBE from_ (f.val ρ).val).map boolF → (flatFromBits (vs.map FlatExpr.ident)).val ρ = f.val ρ := by
    intro vs hlt h
    rw [val_flatFromBits (rel h), natBE_bitsBE_of_lt hlt]; exact Fld.cast_val _
  have ent : ∀ {vs : List Variable} (g : FlatExpr (ZMod p)), g.val ρ = f.val ρ → (f.val ρ).val < 2 ^ from_ →
      vs.map ρ = (bitsBE from_ (f.val ρ).val).map boolF →
      EntryH ρ g ⟨(vs.map FlatExpr.ident).drop (from_ - tgt), decide (from_ ≤ tgt)⟩ := by
    intro vs g hg hlt h
    have hl : ((vs.map FlatExpr.ident).drop (from_ - tgt) : List (FlatExpr (ZMod p))).length = tgt := by
      rw [(keep h).length]; simp
    refine ⟨by simp only [hl]; omega, ?_, ?_⟩
    · simp only [hl, hg]; exact keep h
    · intro hd
      have hd' : from_ ≤ tgt := by simpa using hd
      simp only [hl, hg]
      rwa [show tgt = from_ by omega]
  refine Cmp.bind (useSyms _) fun vs => Cmp.bind (direc ((bitsBE from_ (f.val ρ).val).map boolF) ?_) fun _ =>
    Cmp.bind (emitAll _ ?_) fun _ => Cmp.bind (cond ?_) fun _ => Cmp.bind ((setCache _ _).pre_of ?_) fun _ =>
    Cmp.bind ((setCache _ _).pre_of ?_) fun _ => Cmp.pure ?_
  · rintro ⟨_, h⟩
    exact ⟨exec_bits _ _ hr, by simp [h]⟩
  · rintro ⟨_, h⟩ _ s hs
    obtain ⟨b, hb, rfl⟩ := List.mem_map.1 hs
    obtain ⟨x, hx⟩ := (rel h).mem hb
    refine .condition ?_
    simp only [FlatExpr.val, hx, boolF_mul_self]
  · rintro ⟨⟨⟨⟨_, hlt⟩, _⟩, h⟩, _⟩
    exact (sum hlt h).symm
  · rintro ⟨⟨⟨⟨⟨_, hlt⟩, _⟩, h⟩, _⟩, _⟩
    exact ent f rfl hlt h
  · rintro ⟨⟨⟨⟨⟨⟨_, hlt⟩, _⟩, h⟩, _⟩, _⟩, _⟩
    exact ent _ (sum hlt h) hlt h
  · rintro ⟨⟨⟨⟨⟨⟨⟨_, hlt⟩, _⟩, h⟩, _⟩, _⟩, _⟩, _⟩
    exact keep h

theorem cachedBits (f : FlatExpr (ZMod p)) (c : CacheEntry p) (from_ tgt : ℕ) (err : RuntimeError)
    (ht : tgt ≤ from_) :
    Cmp sem ρ L ((pre ∧ (f.val ρ).val < 2 ^ from_) ∧ EntryH ρ f c) (Flt.cachedBits c from_ tgt err : FlatM p Z _)
      (fun bs => BitsRel ρ bs (bitsBE tgt (f.val ρ).val)) := by
  intro st a st' hL hm
  cases hm
  refine ⟨⟨_, rfl⟩, fun h => ?_, hL, ?_⟩
  · simp only [Bool.or_eq_false_iff] at h; exact h.1
  rintro ⟨⟨_, hlt⟩, h1, h2, h3⟩ hc hg _ hcl
  simp only [Bool.or_eq_false_iff] at hcl
  simp only [Bool.and_eq_false_iff, Bool.not_eq_false', decide_eq_false_iff_not,
      Bool.and_eq_true, decide_eq_true_eq] at hcl
  obtain ⟨_, hcl1, hcl2⟩ := hcl
  have hdr : (bitsBE c.bits.length (f.val ρ).val).drop (c.bits.length - tgt) =
      bitsBE (min c.bits.length tgt) (f.val ρ).val := by
    rw [drop_bitsBE]; congr 1; omega
  have hsmall : tgt < c.bits.length → (f.val ρ).val < 2 ^ tgt := by
    intro h
    rwa [show tgt = from_ by omega]
  refine ⟨goodF_snoc hg ?_, hc, ?_⟩
  · intro s hs
    simp only [List.mem_singleton] at hs
    subst hs
    refine .condition ?_
    rw [val_sumFold_bits (h2.take _)]
    by_cases h : tgt < c.bits.length
    · rw [bitsBE_pad (hsmall h) h.le]
      rw [List.take_left' (by simp)]
      simp [FlatExpr.val, List.count_replicate]
    · rw [show c.bits.length - tgt = 0 by omega]; simp [FlatExpr.val]
  · have hk := h2.drop (c.bits.length - tgt)
    rw [hdr] at hk
    have hkl := hk.length
    simp only [length_bitsBE] at hkl
    have := (BitsRel.zeros (ρ := ρ) (tgt - (c.bits.drop (c.bits.length - tgt)).length)).append hk
    suffices hh : List.replicate (tgt - (c.bits.drop (c.bits.length - tgt)).length) false ++
        bitsBE (min c.bits.length tgt) (f.val ρ).val = bitsBE tgt (f.val ρ).val by
      rw [hh] at this; exact this
    rw [hkl]
    by_cases h : tgt ≤ c.bits.length
    · rw [min_eq_right h]; simp
    · rw [min_eq_left (by omega)]
      rw [bitsBE_pad (w' := c.bits.length) (w := tgt) ?_ (by omega)]
      rcases hcl1 with h' | h'
      · exact h3 h'
      · omega

theorem constEntry (x : ZMod p) (tgt : ℕ) (ht : tgt ≤ requiredBits p) :
    EntryH ρ (.value x) ⟨(Flt.constBits tgt x).map FlatExpr.value, decide (x.val < 2 ^ tgt)⟩ := by
  have h := (Sound.constEntry (ρ := ρ) x tgt ht).1
  have hl : ((Flt.constBits tgt x).map FlatExpr.value).length = tgt := by rw [h.length]; simp
  refine ⟨by simpa only [hl] using ht, by simp only [hl]; exact h, fun hd => ?_⟩
  simp only [hl]
  exact of_decide_eq_true hd

/-- All cases of `get_bits_unchecked`. -/
theorem getBits (u : FlatU p) (from_ tgt : ℕ) (err : RuntimeError) :
    Cmp sem ρ L (pre ∧ (u.bits = none → ∀ f, u.field = some f → (∀ c, f ≠ .value c) →
        (f.val ρ).val < 2 ^ (max from_ tgt)))
      (Flt.getBits u from_ tgt err : FlatM p Z _)
      (fun bs => (∀ f, u.field = some f → u.bits = none → BitsRel ρ bs (bitsBE tgt (f.val ρ).val))) := by
  unfold Flt.getBits
  refine Cmp.bind (assert _) fun _ => Cmp.bind (assert _) fun _ => ?_
  have gen : ∀ (field : Option (FlatExpr (ZMod p))) (hv : ∀ c, field ≠ some (.value c)), Cmp sem ρ L
      (((pre ∧ (u.bits = none → ∀ f, field = some f → (∀ c, f ≠ .value c) → (f.val ρ).val < 2 ^ (max from_ tgt))) ∧
        decide (from_ ≤ requiredBits p) = true) ∧ decide (tgt ≤ requiredBits p) = true)
      (match u.bits with
        | some bs => Pure.pure bs
        | none => do
          let f ← Flt.unwrap field
          match ← Flt.getCache f with
          | Option.some entry => Flt.cachedBits entry (max from_ tgt) tgt err
          | none => Flt.freshBits f (max from_ tgt) tgt err : FlatM p Z _)
      (fun bs => ∀ f, field = some f → u.bits = none → BitsRel ρ bs (bitsBE tgt (f.val ρ).val)) := by
    intro field hv
    cases hb : u.bits with
    | some bs => exact Cmp.pure fun _ f _ h => by cases h
    | none =>
      refine Cmp.bind (unwrap _) fun f => Cmp.bind (getCache _) fun c => ?_
      by_cases hr : from_ ≤ requiredBits p ∧ tgt ≤ requiredBits p
      · cases c with
        | none =>
          refine ((freshBits f (max from_ tgt) tgt err (le_max_right _ _) (max_le hr.1 hr.2) (pre := True)).pre_of
            ?_).post ?_
          · rintro ⟨⟨⟨⟨⟨_, h⟩, _⟩, _⟩, hf⟩, _⟩
            exact ⟨trivial, h rfl f hf (fun c hc => hv c (by rw [hf, hc]))⟩
          · rintro bs ⟨⟨_, hf⟩, _⟩ h f' hf' _
            rw [hf] at hf'; cases hf'; exact h
        | some c =>
          refine ((cachedBits f c (max from_ tgt) tgt err (le_max_right _ _) (pre := True)).pre_of ?_).post ?_
          · rintro ⟨⟨⟨⟨⟨_, h⟩, _⟩, _⟩, hf⟩, hc⟩
            exact ⟨⟨trivial, h rfl f hf (fun c hc => hv c (by rw [hf, hc]))⟩, hc c rfl⟩
          · rintro bs ⟨⟨_, hf⟩, _⟩ h f' hf' _
            rw [hf] at hf'; cases hf'; exact h
      · refine (Cmp.of_mono ?_).pre_of ?_
        · cases c
          · exact Mono.freshBits _ _ _ _
          · exact Mono.cachedBits _ _ _ _
        · rintro ⟨⟨⟨⟨_, h1⟩, h2⟩, _⟩, _⟩
          exact hr ⟨by simpa using h1, by simpa using h2⟩
  obtain ⟨field, bits, ex⟩ := u
  cases field with
  | none => exact gen none (fun _ h => by cases h)
  | some f =>
    cases f with
    | value x =>
      by_cases hr : tgt ≤ requiredBits p
      · refine Cmp.bind ((setCache _ _).pre_of fun _ => constEntry x tgt hr) fun _ => Cmp.pure ?_
        rintro _ f hf _
        cases hf
        exact (Sound.constEntry x tgt hr).1
      · refine (Cmp.of_mono ?_).pre_of fun h => hr (by simpa using h.2)
        exact Mono.bind (Mono.setCache _ _) fun _ => Mono.pure _
    | ident v => exact gen _ (fun _ h => by cases h)
    | add a b => exact gen _ (fun _ h => by cases h)
    | sub a b => exact gen _ (fun _ h => by cases h)
    | mul a b => exact gen _ (fun _ h => by cases h)

/-- The bits of a field expression that is small enough. -/
theorem getBits_field (f : FlatExpr (ZMod p)) (k : ℕ) (err : RuntimeError) :
    Cmp sem ρ L (pre ∧ (f.val ρ).val < 2 ^ k) (Flt.getBits (Flt.withField f) k k err : FlatM p Z _)
      (fun bs => BitsRel ρ bs (bitsBE k (f.val ρ).val)) := by
  refine ((getBits (Flt.withField f) k k err (pre := True)).pre_of ?_).post ?_
  · rintro ⟨_, h⟩
    refine ⟨trivial, fun _ f' hf' _ => ?_⟩
    cases hf'
    rwa [Nat.max_self]
  · intro bs _ h
    exact h f rfl rfl

end Cmp

end Zok
