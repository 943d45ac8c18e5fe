import Verif.Lemmas.Gadgets

/-
Soundness of the remaining gadgets of the flattener: conditionals, selections, powers, divisions, bitwise operations
and reductions.
-/

set_option linter.unusedSectionVars false
set_option linter.unusedVariables false

namespace Zok
variable {p : ℕ} {Z : Type} [Fact p.Prime]
variable {ρ : Assignment (ZMod p)} {L : ZId → Option Variable} {E pre : Prop}

open FlatExpr Fld

/-! ### Arithmetic of bit vectors -/

theorem zipWith_bitsBE (g : Bool → Bool → Bool) (f : ℕ → ℕ → ℕ) (hg : ∀ i a b, (f a b).testBit i =
    g (a.testBit i) (b.testBit i)) (w a b : ℕ) :
    List.zipWith g (bitsBE w a) (bitsBE w b) = bitsBE w (f a b) := by
  induction w with
  | zero => rfl
  | succ w ih => simp [bitsBE, ih, hg]

/-- Bitwise operations on numbers are computed digit by digit. -/
theorem natBE_zipWith (g : Bool → Bool → Bool) (f : ℕ → ℕ → ℕ) (hg : ∀ i a b, (f a b).testBit i =
    g (a.testBit i) (b.testBit i)) (hf : ∀ w a b, a < 2 ^ w → b < 2 ^ w → f a b < 2 ^ w) {al bl : List Bool}
    (h : al.length = bl.length) : natBE (List.zipWith g al bl) = f (natBE al) (natBE bl) := by
  conv_lhs => rw [← bitsBE_natBE al, ← bitsBE_natBE bl, h, zipWith_bitsBE g f hg]
  exact natBE_bitsBE_of_lt (hf _ _ _ (h ▸ natBE_lt al) (natBE_lt bl))

theorem natBE_map_not (bl : List Bool) : natBE (bl.map (fun b => !b)) = 2 ^ bl.length - 1 - natBE bl := by
  induction bl with
  | nil => rfl
  | cons b bl ih =>
    have h := natBE_lt bl
    simp only [List.map_cons, natBE, ih, List.length_map, List.length_cons, pow_succ]
    cases b <;> simp <;> omega

theorem natBE_take (bl : List Bool) (k : ℕ) : natBE (bl.take (bl.length - k)) = natBE bl / 2 ^ k := by
  rcases Nat.lt_or_ge bl.length k with h | h
  · rw [Nat.sub_eq_zero_of_le h.le]
    have := natBE_lt bl
    rw [Nat.div_eq_of_lt (lt_trans this (Nat.pow_lt_pow_right (by norm_num) h))]
    rfl
  · conv_rhs => rw [← List.take_append_drop (bl.length - k) bl]
    rw [natBE_append, List.length_drop]
    have h1 : bl.length - (bl.length - k) = k := by omega
    have h2 := natBE_lt (bl.drop (bl.length - k))
    rw [List.length_drop, h1] at h2
    rw [h1, mul_comm, Nat.mul_add_div (by positivity), Nat.div_eq_of_lt h2, Nat.add_zero]

theorem natBE_shl (bl : List Bool) (k : ℕ) :
    natBE (bl.drop k ++ List.replicate (min k bl.length) false) = (natBE bl * 2 ^ k) % 2 ^ bl.length := by
  rw [natBE_append, natBE_replicate_false, List.length_replicate, natBE_drop, Nat.add_zero]
  rcases Nat.lt_or_ge bl.length k with h | h
  · rw [Nat.sub_eq_zero_of_le h.le]
    simp only [pow_zero, Nat.mod_one, Nat.zero_mul]
    symm
    apply Nat.mod_eq_zero_of_dvd
    exact dvd_mul_of_dvd_right (pow_dvd_pow 2 h.le) _
  · rw [Nat.min_eq_left h, ← Nat.mul_mod_mul_right, ← pow_add]
    congr 3
    omega

theorem natBE_shr (bl : List Bool) (k : ℕ) :
    natBE (List.replicate (min k bl.length) false ++ bl.take (bl.length - min k bl.length)) =
      natBE bl / 2 ^ k := by
  rw [natBE_append, natBE_replicate_false, Nat.zero_mul, Nat.zero_add]
  rcases Nat.lt_or_ge bl.length k with h | h
  · rw [Nat.min_eq_right h.le, Nat.sub_self]
    have := natBE_lt bl
    rw [Nat.div_eq_of_lt (lt_trans this (Nat.pow_lt_pow_right (by norm_num) h))]
    rfl
  · rw [Nat.min_eq_left h]; exact natBE_take bl k

/-- The number a little-endian bit vector denotes. -/
def natLSB : List Bool → ℕ
  | [] => 0
  | b :: bs => b.toNat + 2 * natLSB bs

theorem natLSB_append (a b : List Bool) : natLSB (a ++ b) = natLSB a + 2 ^ a.length * natLSB b := by
  induction a with
  | nil => simp [natLSB]
  | cons x a ih => simp only [List.cons_append, natLSB, ih, List.length_cons, pow_succ]; ring

theorem natLSB_reverse (l : List Bool) : natLSB l.reverse = natBE l := by
  induction l with
  | nil => rfl
  | cons b l ih => simp only [List.reverse_cons, natLSB_append, ih, natBE, natLSB, List.length_reverse]; ring

theorem natBE_dropWhile (l : List Bool) : natBE (l.dropWhile (fun b => !b)) = natBE l := by
  induction l with
  | nil => rfl
  | cons b l ih => cases b <;> simp [List.dropWhile, natBE, ih]

theorem natLSB_expBits {n : ℕ} (h : n < 2 ^ 128) : natLSB (Flt.expBits n) = n := by
  unfold Flt.expBits
  rw [natLSB_reverse, natBE_dropWhile, natBE_bitsBE_of_lt h]

theorem expBits_nil {n : ℕ} (h : n < 2 ^ 128) (hn : Flt.expBits n = []) : n = 0 := by
  rw [← natLSB_expBits h, hn]; rfl

theorem expBits_all_false {n : ℕ} (h : n < 2 ^ 128) (hn : ∀ b ∈ Flt.expBits n, b = false) : n = 0 := by
  rw [← natLSB_expBits h]
  generalize Flt.expBits n = l at hn
  induction l with
  | nil => rfl
  | cons b l ih => simp [natLSB, hn b (by simp), ih fun c hc => hn c (by simp [hc])]

/-- The value of `foldBits`. -/
theorem val_foldBits {w : ℕ} {bs : List (FlatExpr (ZMod p))} {bl : List Bool} (h : BitsRel ρ bs bl)
    (hl : bl.length = w) : (Flt.foldBits w bs).val ρ = (natBE bl : ZMod p) := by
  have gen : ∀ (l : List (FlatExpr (ZMod p))) (ll : List Bool) (k : ℕ) (acc : FlatExpr (ZMod p)),
      BitsRel ρ l ll → k + l.length = w →
      ((l.zipIdx k).foldl (fun acc t => FlatExpr.add acc (.mul (.value (2 ^ (w - t.2 - 1))) t.1)) acc).val ρ =
        acc.val ρ + (natBE ll : ZMod p) := by
    intro l
    induction l with
    | nil =>
      intro ll k acc hb _
      have := hb.length
      cases ll with
      | nil => simp [natBE]
      | cons _ _ => simp at this
    | cons e l ih =>
      intro ll k acc hb hk
      cases ll with
      | nil => have := hb.length; simp at this
      | cons b ll =>
        rw [bitsRel_cons] at hb
        rw [List.zipIdx_cons, List.foldl_cons, ih ll (k + 1) _ hb.2 (by simp at hk; omega)]
        simp only [FlatExpr.val, hb.1, natBE]
        have hlen := hb.2.length
        have : w - k - 1 = ll.length := by simp at hk; omega
        rw [this]
        push_cast
        cases b <;> simp [boolF] <;> ring
  unfold Flt.foldBits
  have := gen bs bl 0 (.value 0) h (by rw [h.length]; omega)
  simpa [FlatExpr.val] using this

namespace Sound

/-- `flatten_conditional_expression`. -/
theorem conditional {c t e : FlatM p Z (FlatExpr (ZMod p))} {Pc Pt Pe : FlatExpr (ZMod p) → Prop}
    (hc : Sound ρ L E pre c Pc) (ht : ∀ x, Sound ρ L E (pre ∧ Pc x) t Pt)
    (he : ∀ x y, Sound ρ L E ((pre ∧ Pc x) ∧ Pt y) e Pe) :
    Sound ρ L E pre (Flt.conditional c t e)
      (fun u => ∃ v x y z, u = Flt.withField (.ident v) ∧ Pc x ∧ Pt y ∧ Pe z ∧
        ρ v = x.val ρ * y.val ρ + (1 - x.val ρ) * z.val ρ) := by
  unfold Flt.conditional
  refine Sound.bind hc fun x => Sound.bind (newDef x) fun cId => Sound.bind ((ht x).pre_of fun h => h.1) fun y =>
    Sound.bind ((he x y).pre_of fun h => ⟨h.1.1, h.2⟩) fun z => Sound.bind (newDef y) fun tId =>
    Sound.bind (newDef z) fun eId => Sound.bind (newDef _) fun t0 => Sound.bind (newDef _) fun t1 =>
    Sound.bind (newDef _) fun r => Sound.pure ?_
  rintro ⟨⟨⟨⟨⟨⟨⟨⟨⟨_, h1⟩, h2⟩, h3⟩, h4⟩, h5⟩, h6⟩, h7⟩, h8⟩, h9⟩
  refine ⟨r, x, y, z, rfl, h1, h3, h4, ?_⟩
  simp only [FlatExpr.val] at h7 h8 h9
  rw [h9, h7, h8, h2, h5, h6]

/-- The fold of a selection. -/
theorem selFold (l : List (FlatExpr (ZMod p) × FlatExpr (ZMod p))) (rc res : FlatExpr (ZMod p)) :
    Sound ρ L E pre (Flt.selFold l rc res : FlatM p Z _)
      (fun t => t.1.val ρ = rc.val ρ + (l.map (fun t => t.1.val ρ)).sum ∧
        t.2.val ρ = res.val ρ + (l.map (fun t => t.1.val ρ * t.2.val ρ)).sum ∧
        (∀ c, t.2 = .value c → res = .value c ∧ l = [])) := by
  induction l generalizing rc res pre with
  | nil => exact Sound.pure fun _ => by simp
  | cons t l ih =>
    obtain ⟨c, e⟩ := t
    unfold Flt.selFold
    refine Sound.bind (newDef _) fun v => (ih _ _).post ?_
    rintro t ⟨_, h1⟩ ⟨h2, h3, h4⟩
    simp only [FlatExpr.val] at h1 h2 h3
    refine ⟨?_, ?_, ?_⟩
    · rw [h2]; simp; ring
    · rw [h3, h1]; simp; ring
    · intro c hc; exact absurd (h4 c hc).1 (by simp)

/-- The end of a selection, when exactly the conditions `start + j = n` are given. -/
theorem selFinish (l : List (FlatExpr (ZMod p) × FlatExpr (ZMod p))) :
    Sound ρ L E pre (Flt.selFinish l : FlatM p Z _)
      (fun u => ∃ f, u = Flt.withField f ∧ (l.map (fun t => t.1.val ρ)).sum = 1 ∧
        f.val ρ = (l.map (fun t => t.1.val ρ * t.2.val ρ)).sum ∧ (∀ c, f ≠ .value c)) := by
  unfold Flt.selFinish
  refine Sound.bind (selFold l _ _) fun t => ?_
  obtain ⟨rc, res⟩ := t
  refine Sound.bind (emit _) fun _ => Sound.pure ?_
  rintro ⟨⟨_, h1, h2, h3⟩, h4⟩
  simp only [sat_condition, FlatExpr.val, zero_add] at h1 h2 h4
  have hs : (l.map (fun t => t.1.val ρ)).sum = 1 := by rw [← h1, h4]
  refine ⟨res, rfl, hs, h2, fun c hc => ?_⟩
  have := (h3 c hc).2
  subst this
  simp at hs

/-- Repeated squaring. -/
theorem powSquares (l : List Bool) (prev : FlatExpr (ZMod p)) :
    Sound ρ L E pre (Flt.powSquares l prev : FlatM p Z _)
      (fun sq => sq.map (FlatExpr.val ρ) = (List.range l.length).map (fun j => (prev.val ρ) ^ 2 ^ (j + 1))) := by
  induction l generalizing prev pre with
  | nil => exact Sound.pure fun _ => rfl
  | cons b l ih =>
    unfold Flt.powSquares
    refine Sound.bind (newDef _) fun v => Sound.bind (ih _) fun r => Sound.pure ?_
    rintro ⟨⟨_, h1⟩, h2⟩
    simp only [FlatExpr.val] at h1 h2
    rw [List.length_cons, List.range_succ_eq_map, List.map_cons, List.map_cons, h2]
    simp only [FlatExpr.val, h1, List.map_map]
    congr 1
    · simp [pow_two]
    · apply List.map_congr_left
      intro j _
      simp only [Function.comp]
      rw [← pow_two, ← pow_mul]
      congr 1
      rw [← pow_succ']

/-- The product of the selected powers. -/
theorem powFold (l : List (Bool × FlatExpr (ZMod p))) (acc : FlatExpr (ZMod p)) (x : ZMod p)
    (hl : l.map (fun t => t.2.val ρ) = (List.range l.length).map (fun j => x ^ 2 ^ j)) :
    Sound ρ L E pre (Flt.powFold l acc : FlatM p Z _)
      (fun r => r.val ρ = acc.val ρ * x ^ natLSB (l.map Prod.fst) ∧
        (∀ c, r = .value c → acc = .value c ∧ ∀ t ∈ l, t.1 = false)) := by
  induction l generalizing acc x pre with
  | nil => exact Sound.pure fun _ => ⟨by simp [natLSB], fun c h => ⟨h, by simp⟩⟩
  | cons t l ih =>
    obtain ⟨b, e⟩ := t
    rw [List.length_cons, List.range_succ_eq_map, List.map_cons, List.map_cons, List.cons.injEq, List.map_map] at hl
    obtain ⟨h1, h2⟩ := hl
    have h2' : l.map (fun t => t.2.val ρ) = (List.range l.length).map (fun j => (x ^ 2) ^ 2 ^ j) := by
      rw [h2]
      apply List.map_congr_left
      intro j _
      simp only [Function.comp]
      rw [← pow_mul]
      congr 1
      rw [pow_succ']
    have h1' : e.val ρ = x := by simpa using h1
    cases b with
    | true =>
      unfold Flt.powFold
      refine Sound.bind (newDef _) fun v => (ih _ _ h2').post ?_
      rintro r ⟨_, h3⟩ ⟨h4, h5⟩
      simp only [FlatExpr.val] at h3 h4
      refine ⟨?_, fun c hc => absurd (h5 c hc).1 (by simp)⟩
      rw [h4, h3, h1']
      simp only [List.map_cons, natLSB, pow_add, pow_mul]
      simp; ring
    | false =>
      unfold Flt.powFold
      refine (ih _ _ h2').post ?_
      rintro r _ ⟨h4, h5⟩
      refine ⟨?_, fun c hc => ⟨(h5 c hc).1, ?_⟩⟩
      · rw [h4]
        simp only [List.map_cons, natLSB, pow_add, pow_mul]
        simp
      · intro t ht
        rcases List.mem_cons.1 ht with rfl | ht
        · rfl
        · exact (h5 c hc).2 t ht

/-- Powers. -/
theorem powFlat (base : FlatExpr (ZMod p)) (n : ℕ) (hn : n < 2 ^ 128) :
    Sound ρ L E pre (Flt.powFlat base n : FlatM p Z _)
      (fun r => r.val ρ = (base.val ρ) ^ n ∧ (∀ c, r = .value c → n = 0)) := by
  unfold Flt.powFlat
  refine Sound.bind (assert _) fun _ => ?_
  have hb := natLSB_expBits hn
  cases hbits : Flt.expBits n with
  | nil =>
    have := expBits_nil hn hbits
    subst this
    exact Sound.pure fun _ => ⟨by simp [FlatExpr.val], fun _ _ => rfl⟩
  | cons b rest =>
    refine Sound.bind (powSquares rest base) fun sq => Sound.assume ?_ ?_
    · rintro ⟨_, h⟩
      have hl : sq.length = rest.length := by have := congrArg List.length h; simpa using this
      have hz : (b :: rest).length = (base :: sq).length := by simp [hl]
      refine (powFold (List.zip (b :: rest) (base :: sq)) (.value 1) (base.val ρ) ?_).post ?_
      · have e : (fun t : Bool × FlatExpr (ZMod p) => t.2.val ρ) = (FlatExpr.val ρ) ∘ Prod.snd := rfl
        rw [e, ← List.map_map, List.map_snd_zip hz.ge, List.length_zip, ← hz, Nat.min_self, List.map_cons, h,
          List.length_cons, List.range_succ_eq_map, List.map_cons, List.map_map]
        simp [Function.comp_def]
      · rintro r _ ⟨h1, h2⟩
        rw [List.map_fst_zip hz.le, ← hbits, hb] at h1
        refine ⟨by rw [h1]; simp [FlatExpr.val], fun c hc => ?_⟩
        apply expBits_all_false hn
        rw [hbits]
        intro x hx
        rw [← List.map_fst_zip (l₁ := b :: rest) (l₂ := base :: sq) hz.le] at hx
        obtain ⟨t, ht, rfl⟩ := List.mem_map.1 hx
        exact (h2 c hc).2 t ht
    · have frame : ∀ (l : List (Bool × FlatExpr (ZMod p))) (acc : FlatExpr (ZMod p)),
          Sound ρ L E False (Flt.powFold l acc : FlatM p Z _) (fun _ => True) := by
        intro l
        induction l with
        | nil => intro acc; exact Sound.pure fun h => h.elim
        | cons t l ih =>
          intro acc
          obtain ⟨b, e⟩ := t
          cases b with
          | true => exact Sound.bind (newDef _) fun v => (ih _).pre_of fun h => h.1
          | false => exact ih acc
      exact (frame _ _).post fun _ h => h.elim

/-- Division. -/
theorem divFlat (l r : FlatExpr (ZMod p)) : Sound ρ L E pre (Flt.divFlat l r : FlatM p Z _)
    (fun e => l.val ρ = r.val ρ * e.val ρ ∧ (∀ c, e ≠ .value c)) := by
  unfold Flt.divFlat
  refine Sound.bind (newDef l) fun a => Sound.bind (newDef r) fun b => Sound.bind useSym fun i =>
    Sound.bind (emit _) fun _ => Sound.bind (emit _) fun _ => Sound.pure ?_
  rintro ⟨⟨⟨⟨⟨_, h1⟩, h2⟩, _⟩, _⟩, h3⟩
  simp only [sat_condition, FlatExpr.val, h1, h2] at h3
  exact ⟨h3, fun c hc => by cases hc⟩

/-- `euclidean_division` on reduced operands. -/
theorem euclid (hp : 2 < p) (w : ℕ) (left right : FlatExpr (ZMod p)) (hw : 2 * w + 2 ≤ requiredBits p) :
    Sound ρ L E (pre ∧ (left.val ρ).val < 2 ^ w ∧ (right.val ρ).val < 2 ^ w) (Flt.euclid w left right : FlatM p Z _)
      (fun t => (right.val ρ).val ≠ 0 ∧ (ρ t.1).val = (left.val ρ).val / (right.val ρ).val ∧
        (ρ t.2).val = (left.val ρ).val % (right.val ρ).val) := by
  unfold Flt.euclid
  refine Sound.bind (linearise left) fun n => Sound.bind (linearise right) fun d => Sound.bind useSym fun q =>
    Sound.bind useSym fun r => Sound.bind (emit _) fun _ =>
    Sound.bind ((getBits_exact hp _ _ _ (pre := _)).pre_of fun h => ⟨h, fun x h => by cases h⟩) fun _ =>
    Sound.bind ((getBits_exact hp _ _ _ (pre := _)).pre_of fun h => ⟨h, fun x h => by cases h⟩) fun _ =>
    Sound.bind ((getBits_exact hp _ _ _ (pre := _)).pre_of fun h => ⟨h, fun x h => by cases h⟩) fun _ =>
    Sound.bind (emit _) fun _ => Sound.pure ?_
  rintro ⟨⟨⟨⟨⟨⟨⟨⟨⟨⟨_, hl, hr⟩, hn, _⟩, hd, _⟩, _⟩, _⟩, _⟩, ⟨ql, _, q1, q2, _⟩⟩, ⟨rl, _, r1, r2, _⟩⟩,
    ⟨dl, _, d1, d2, _⟩⟩, h⟩
  simp only [sat_condition, FlatExpr.val, hn, hd] at h d2 q2 r2
  have hpow : 2 ^ (2 * w + 1) ≤ p := pow_le_p (by omega)
  have e1 : 2 ^ (2 * w + 1) = 2 * (2 ^ w * 2 ^ w) := by rw [pow_succ, two_mul, pow_add]; ring
  have hw1 := Nat.one_le_two_pow (n := w)
  have hww : 2 ^ w ≤ 2 ^ w * 2 ^ w := Nat.le_mul_of_pos_left _ (by omega)
  have ql' := natBE_lt ql
  have rl' := natBE_lt rl
  have dl' := natBE_lt dl
  rw [q1] at ql'; rw [r1] at rl'; rw [d1] at dl'
  have hq := val_eq_of_lt (p := p) (by omega) q2
  have hrv := val_eq_of_lt (p := p) (by omega) r2
  set N := (left.val ρ).val with hN
  set D := (right.val ρ).val with hD
  have hdv : (ρ r - right.val ρ + ((2 ^ w : ℕ) : ZMod p)) = ((natBE rl + 2 ^ w - D : ℕ) : ZMod p) := by
    rw [Nat.cast_sub (by omega), Nat.cast_add, r2, hD, cast_val]; ring
  rw [hdv] at d2
  have hd3 := natCast_inj_of_lt (p := p) (by omega) (by omega) d2
  have hlt : natBE rl < D := by omega
  have hmul : natBE ql * D < 2 ^ w * 2 ^ w := by
    have : natBE ql * D ≤ natBE ql * 2 ^ w := Nat.mul_le_mul_left _ hr.le
    have h3 : natBE ql * 2 ^ w < 2 ^ w * 2 ^ w := Nat.mul_lt_mul_of_pos_right ql' (by omega)
    omega
  have hsum : ((N : ℕ) : ZMod p) = ((natBE ql * D + natBE rl : ℕ) : ZMod p) := by
    rw [Nat.cast_add, Nat.cast_mul, q2, r2, hN, hD, cast_val, cast_val, ← h]; ring
  have hN' := natCast_inj_of_lt (p := p) (by omega) (by omega) hsum
  refine ⟨by omega, ?_, ?_⟩
  · simp only
    rw [hq, hN', mul_comm, Nat.mul_add_div (by omega), Nat.div_eq_of_lt hlt, Nat.add_zero]
  · simp only
    rw [hrv, hN', mul_comm, Nat.mul_add_mod, Nat.mod_eq_of_lt hlt]

theorem xorConst (n : ZMod p) (e : FlatExpr (ZMod p)) (x y : Bool) :
    Sound ρ L E (pre ∧ n = boolF x ∧ e.val ρ = boolF y) (Flt.xorBit.xorConst n e : FlatM p Z _)
      (fun r => r.val ρ = boolF (x ^^ y)) := by
  unfold Flt.xorBit.xorConst
  refine Sound.ite (fun h => Sound.bind (define _) fun v => Sound.pure ?_) fun h => Sound.ite
    (fun h' => Sound.bind (define _) fun v => Sound.pure ?_) fun _ => Sound.panic
  · rintro ⟨⟨_, h1, h2⟩, h3⟩
    simp only [FlatExpr.val, h3, h2]
    cases x
    · simp
    · rw [h1] at h; simp [boolF] at h
  · rintro ⟨⟨_, h1, h2⟩, h3⟩
    simp only [FlatExpr.val, h3, h2]
    cases x
    · rw [h1] at h'; simp [boolF] at h'
    · cases y <;> simp [boolF]

theorem xorBit (a b : FlatExpr (ZMod p)) (x y : Bool) :
    Sound ρ L E (pre ∧ a.val ρ = boolF x ∧ b.val ρ = boolF y) (Flt.xorBit a b : FlatM p Z _)
      (fun r => r.val ρ = boolF (x ^^ y)) := by
  unfold Flt.xorBit
  split
  · exact xorConst _ _ x y
  · refine ((xorConst _ _ y x).pre_of fun h => ⟨h.1, h.2.2, h.2.1⟩).post fun r _ h => ?_
    rw [h, Bool.xor_comm]
  · refine Sound.bind useSym fun v => Sound.bind (emit _) fun _ => Sound.bind (emit _) fun _ => Sound.pure ?_
    rintro ⟨⟨⟨⟨_, h1, h2⟩, _⟩, _⟩, h3⟩
    simp only [sat_condition, FlatExpr.val, h1, h2] at h3 ⊢
    have h4 : ρ v = boolF x + boolF y - (boolF x + boolF x) * boolF y := by rw [← h3]; ring
    rw [h4]
    cases x <;> cases y <;> simp [boolF]

theorem andConst (n : ZMod p) (e : FlatExpr (ZMod p)) (x y : Bool) :
    Sound ρ L E (pre ∧ n = boolF x ∧ e.val ρ = boolF y) (Flt.andBit.andConst n e : FlatM p Z _)
      (fun r => r.val ρ = boolF (x && y)) := by
  unfold Flt.andBit.andConst
  refine Sound.ite (fun h => Sound.pure ?_) fun h => Sound.ite (fun h' => Sound.pure ?_) fun _ => Sound.panic
  · rintro ⟨_, h1, h2⟩
    cases x
    · simp [FlatExpr.val, boolF]
    · rw [h1] at h; simp [boolF] at h
  · rintro ⟨_, h1, h2⟩
    cases x
    · rw [h1] at h'; simp [boolF] at h'
    · simpa using h2

theorem andBit (a b : FlatExpr (ZMod p)) (x y : Bool) :
    Sound ρ L E (pre ∧ a.val ρ = boolF x ∧ b.val ρ = boolF y) (Flt.andBit a b : FlatM p Z _)
      (fun r => r.val ρ = boolF (x && y)) := by
  unfold Flt.andBit
  split
  · exact andConst _ _ x y
  · refine ((andConst _ _ y x).pre_of fun h => ⟨h.1, h.2.2, h.2.1⟩).post fun r _ h => ?_
    rw [h, Bool.and_comm]
  · refine Sound.bind (define _) fun v => Sound.pure ?_
    rintro ⟨⟨_, h1, h2⟩, h3⟩
    simp only [FlatExpr.val, h1, h2] at h3 ⊢
    rw [h3]
    cases x <;> cases y <;> simp [boolF]

theorem orConst (n : ZMod p) (e : FlatExpr (ZMod p)) (x y : Bool) :
    Sound ρ L E (pre ∧ n = boolF x ∧ e.val ρ = boolF y) (Flt.orBit.orConst n e : FlatM p Z _)
      (fun r => r.val ρ = boolF (x || y)) := by
  unfold Flt.orBit.orConst
  refine Sound.ite (fun h => Sound.bind (define _) fun v => Sound.pure ?_) fun h => Sound.ite
    (fun h' => Sound.pure ?_) fun _ => Sound.panic
  · rintro ⟨⟨_, h1, h2⟩, h3⟩
    simp only [FlatExpr.val, h3, h2]
    cases x
    · simp
    · rw [h1] at h; simp [boolF] at h
  · rintro ⟨_, h1, h2⟩
    cases x
    · rw [h1] at h'; simp [boolF] at h'
    · simp [FlatExpr.val, boolF]

/-- The constraint shared by the boolean and the bitwise `or`. -/
theorem or_value {v : ZMod p} {x y : Bool} (h : (boolF x : ZMod p) + (boolF y - v) = boolF x * boolF y) :
    v = boolF (x || y) := by
  have h4 : v = boolF x + boolF y - boolF x * boolF y := by rw [← h]; ring
  rw [h4]
  cases x <;> cases y <;> simp [boolF]

theorem orBit (a b : FlatExpr (ZMod p)) (x y : Bool) :
    Sound ρ L E (pre ∧ a.val ρ = boolF x ∧ b.val ρ = boolF y) (Flt.orBit a b : FlatM p Z _)
      (fun r => r.val ρ = boolF (x || y)) := by
  unfold Flt.orBit
  split
  · exact orConst _ _ x y
  · refine ((orConst _ _ y x).pre_of fun h => ⟨h.1, h.2.2, h.2.1⟩).post fun r _ h => ?_
    rw [h, Bool.or_comm]
  · refine Sound.bind useSym fun v => Sound.bind (emit _) fun _ => Sound.bind (emit _) fun _ => Sound.pure ?_
    rintro ⟨⟨⟨⟨_, h1, h2⟩, _⟩, _⟩, h3⟩
    simp only [sat_condition, FlatExpr.val, h1, h2] at h3 ⊢
    exact or_value h3

theorem boolOr (a b : FlatExpr (ZMod p)) (x y : Bool) :
    Sound ρ L E (pre ∧ a.val ρ = boolF x ∧ b.val ρ = boolF y) (Flt.boolOr a b : FlatM p Z _)
      (fun r => r.val ρ = boolF (x || y)) := by
  unfold Flt.boolOr
  refine Sound.bind (assert _) fun _ => Sound.bind useSym fun v => Sound.bind (emit _) fun _ =>
    Sound.bind (emit _) fun _ => Sound.pure ?_
  rintro ⟨⟨⟨⟨⟨_, h1, h2⟩, _⟩, _⟩, _⟩, h3⟩
  simp only [sat_condition, FlatExpr.val, h1, h2] at h3 ⊢
  exact or_value h3

theorem notBit (a : FlatExpr (ZMod p)) (x : Bool) :
    Sound ρ L E (pre ∧ a.val ρ = boolF x) (Flt.notBit a : FlatM p Z _) (fun r => r.val ρ = boolF (!x)) := by
  unfold Flt.notBit
  refine Sound.bind (define _) fun v => Sound.pure ?_
  rintro ⟨⟨_, h1⟩, h2⟩
  simp only [FlatExpr.val, h1] at h2 ⊢
  rw [h2]; cases x <;> simp [boolF]

/-- `(a & b) ^ (!a & c)` -/
def chB (a b c : Bool) : Bool := (a && b) ^^ (!a && c)
/-- `(a & b) ^ (a & c) ^ (b & c)` -/
def majB (a b c : Bool) : Bool := ((a && b) ^^ (a && c)) ^^ (b && c)

theorem chBit (a b c : FlatExpr (ZMod p)) (x y z : Bool) :
    Sound ρ L E (pre ∧ a.val ρ = boolF x ∧ b.val ρ = boolF y ∧ c.val ρ = boolF z) (Flt.chBit a b c : FlatM p Z _)
      (fun r => r.val ρ = boolF (chB x y z)) := by
  unfold Flt.chBit
  refine Sound.bind useSym fun v => Sound.bind (emit _) fun _ => Sound.bind (emit _) fun _ => Sound.pure ?_
  rintro ⟨⟨⟨⟨_, h1, h2, h3⟩, _⟩, _⟩, h4⟩
  simp only [sat_condition, FlatExpr.val, h1, h2, h3] at h4 ⊢
  rw [sub_eq_iff_eq_add.1 h4]
  cases x <;> cases y <;> cases z <;> simp [boolF, chB]

theorem majBit (a b c : FlatExpr (ZMod p)) (x y z : Bool) :
    Sound ρ L E (pre ∧ a.val ρ = boolF x ∧ b.val ρ = boolF y ∧ c.val ρ = boolF z) (Flt.majBit a b c : FlatM p Z _)
      (fun r => r.val ρ = boolF (majB x y z)) := by
  unfold Flt.majBit
  refine Sound.bind useSym fun v => Sound.bind useSym fun bc => Sound.bind (emit _) fun _ =>
    Sound.bind (emit _) fun _ => Sound.bind (emit _) fun _ => Sound.pure ?_
  rintro ⟨⟨⟨⟨⟨⟨_, h1, h2, h3⟩, _⟩, _⟩, _⟩, h4⟩, h5⟩
  simp only [sat_condition, FlatExpr.val, h1, h2, h3] at h4 h5 ⊢
  rw [h4] at h5
  have : ρ v = boolF y * boolF z -
      (boolF y * boolF z + boolF y * boolF z - (boolF y + boolF z)) * boolF x := by rw [← h5]; ring
  rw [this]
  cases x <;> cases y <;> cases z <;> simp [boolF, majB]

theorem zipBits {f : FlatExpr (ZMod p) → FlatExpr (ZMod p) → FlatM p Z (FlatExpr (ZMod p))} (g : Bool → Bool → Bool)
    (hf : ∀ a b x y, Sound ρ L E (a.val ρ = boolF x ∧ b.val ρ = boolF y) (f a b) (fun r => r.val ρ = boolF (g x y)))
    (as bs : List (FlatExpr (ZMod p))) (al bl : List Bool) :
    Sound ρ L E (pre ∧ BitsRel ρ as al ∧ BitsRel ρ bs bl) (Flt.zipBits f as bs)
      (fun r => BitsRel ρ r (List.zipWith g al bl)) := by
  induction as generalizing bs al bl pre with
  | nil =>
    unfold Flt.zipBits
    refine Sound.pure ?_
    rintro ⟨_, h1, h2⟩
    have := h1.length
    cases al with
    | nil => simp [BitsRel]
    | cons _ _ => simp at this
  | cons a as ih =>
    cases bs with
    | nil =>
      unfold Flt.zipBits
      refine Sound.pure ?_
      rintro ⟨_, h1, h2⟩
      have := h2.length
      cases bl with
      | nil => simp [BitsRel]
      | cons _ _ => simp at this
    | cons b bs =>
      unfold Flt.zipBits
      refine Sound.assume ?_ ?_
      · rintro ⟨_, h1, h2⟩
        cases al with
        | nil => have := h1.length; simp at this
        | cons x al =>
          cases bl with
          | nil => have := h2.length; simp at this
          | cons y bl =>
            rw [bitsRel_cons] at h1 h2
            refine Sound.bind ((hf a b x y).pre_of fun _ => ⟨h1.1, h2.1⟩) fun r =>
              Sound.bind ((ih bs al bl (pre := True)).pre_of fun _ => ⟨trivial, h1.2, h2.2⟩) fun rs => Sound.pure ?_
            rintro ⟨⟨_, h3⟩, h4⟩
            exact BitsRel.cons h3 h4
      · exact Sound.bind ((hf a b true true).pre_of fun h => h.elim) fun r =>
          Sound.bind ((ih bs [] [] (pre := False)).pre_of fun h => h.1.elim) fun rs => Sound.pure fun h => h.1.1.elim

theorem zipBits3 {f : FlatExpr (ZMod p) → FlatExpr (ZMod p) → FlatExpr (ZMod p) → FlatM p Z (FlatExpr (ZMod p))}
    (g : Bool → Bool → Bool → Bool)
    (hf : ∀ a b c x y z, Sound ρ L E (a.val ρ = boolF x ∧ b.val ρ = boolF y ∧ c.val ρ = boolF z) (f a b c)
      (fun r => r.val ρ = boolF (g x y z)))
    (as bs cs : List (FlatExpr (ZMod p))) (al bl cl : List Bool) :
    Sound ρ L E (pre ∧ BitsRel ρ as al ∧ BitsRel ρ bs bl ∧ BitsRel ρ cs cl) (Flt.zipBits3 f as bs cs)
      (fun r => BitsRel ρ r ((al.zip (bl.zip cl)).map (fun t => g t.1 t.2.1 t.2.2))) := by
  induction as generalizing bs cs al bl cl pre with
  | nil =>
    unfold Flt.zipBits3
    refine Sound.pure ?_
    rintro ⟨_, h1, h2⟩
    have := h1.length
    cases al with
    | nil => simp [BitsRel]
    | cons _ _ => simp at this
  | cons a as ih =>
    cases bs with
    | nil =>
      unfold Flt.zipBits3
      refine Sound.pure ?_
      rintro ⟨_, h1, h2, h3⟩
      have := h2.length
      cases bl with
      | nil => simp [BitsRel]
      | cons _ _ => simp at this
    | cons b bs =>
      cases cs with
      | nil =>
        unfold Flt.zipBits3
        refine Sound.pure ?_
        rintro ⟨_, h1, h2, h3⟩
        have := h3.length
        cases cl with
        | nil => simp [BitsRel]
        | cons _ _ => simp at this
      | cons c cs =>
        unfold Flt.zipBits3
        refine Sound.assume ?_ ?_
        · rintro ⟨_, h1, h2, h3⟩
          cases al with
          | nil => have := h1.length; simp at this
          | cons x al =>
            cases bl with
            | nil => have := h2.length; simp at this
            | cons y bl =>
              cases cl with
              | nil => have := h3.length; simp at this
              | cons z cl =>
                rw [bitsRel_cons] at h1 h2 h3
                refine Sound.bind ((hf a b c x y z).pre_of fun _ => ⟨h1.1, h2.1, h3.1⟩) fun r =>
                  Sound.bind ((ih bs cs al bl cl (pre := True)).pre_of fun _ => ⟨trivial, h1.2, h2.2, h3.2⟩)
                  fun rs => Sound.pure ?_
                rintro ⟨⟨_, h4⟩, h5⟩
                exact BitsRel.cons h4 h5
        · exact Sound.bind ((hf a b c true true true).pre_of fun h => h.elim) fun r =>
            Sound.bind ((ih bs cs [] [] [] (pre := False)).pre_of fun h => h.1.elim) fun rs =>
            Sound.pure fun h => h.1.1.elim

theorem mapBits {f : FlatExpr (ZMod p) → FlatM p Z (FlatExpr (ZMod p))} (g : Bool → Bool)
    (hf : ∀ a x, Sound ρ L E (a.val ρ = boolF x) (f a) (fun r => r.val ρ = boolF (g x)))
    (as : List (FlatExpr (ZMod p))) (al : List Bool) :
    Sound ρ L E (pre ∧ BitsRel ρ as al) (Flt.mapBits f as) (fun r => BitsRel ρ r (al.map g)) := by
  induction as generalizing al pre with
  | nil =>
    unfold Flt.mapBits
    refine Sound.pure ?_
    rintro ⟨_, h1⟩
    have := h1.length
    cases al with
    | nil => simp [BitsRel]
    | cons _ _ => simp at this
  | cons a as ih =>
    unfold Flt.mapBits
    refine Sound.assume ?_ ?_
    · rintro ⟨_, h1⟩
      cases al with
      | nil => have := h1.length; simp at this
      | cons x al =>
        rw [bitsRel_cons] at h1
        refine Sound.bind ((hf a x).pre_of fun _ => h1.1) fun r =>
          Sound.bind ((ih al (pre := True)).pre_of fun _ => ⟨trivial, h1.2⟩) fun rs => Sound.pure ?_
        rintro ⟨⟨_, h3⟩, h4⟩
        exact BitsRel.cons h3 h4
    · exact Sound.bind ((hf a true).pre_of fun h => h.elim) fun r =>
        Sound.bind ((ih [] (pre := False)).pre_of fun h => h.1.elim) fun rs => Sound.pure fun h => h.1.1.elim

/-- `get_field_unchecked`. -/
theorem getField (w mx n : ℕ) (u : FlatU p) (hw : w < requiredBits p) :
    Sound ρ L E (pre ∧ URel ρ w mx n u) (Flt.getField u : FlatM p Z _)
      (fun f => (f.val ρ).val % 2 ^ w = n ∧ (f.val ρ).val ≤ mx ∧ (u.field = some f ∨ (f.val ρ).val = n)) := by
  unfold Flt.getField
  obtain ⟨field, bits, ex⟩ := u
  cases field with
  | some f => exact Sound.pure fun h => ⟨(h.2.field f rfl).1, (h.2.field f rfl).2, Or.inl rfl⟩
  | none =>
    cases bits with
    | none => exact Sound.panic
    | some bs =>
      refine Sound.pure ?_
      rintro ⟨_, h⟩
      obtain ⟨bl, h1, h2, h3⟩ := h.bits bs rfl
      have hv : ((flatFromBits bs).val ρ).val = n := by
        rw [val_flatFromBits h1, val_natCast_of_lt, h3]
        rw [h3]; exact lt_of_lt_of_le h.lt (pow_le_p hw)
      refine ⟨by rw [hv, Nat.mod_eq_of_lt h.lt], by rw [hv]; exact (h.hne rfl).2, Or.inr hv⟩

/-- The representation of a reduced integer. -/
structure _root_.Zok.URed (ρ : Assignment (ZMod p)) (w n : ℕ) (u : FlatU p) : Prop where
  field : ∃ f, u.field = some f ∧ (f.val ρ).val = n
  bits : ∃ bs, u.bits = some bs

/-- The reduction at the end of `flatten_uint_expression`. -/
theorem uTail (hp : 2 < p) (w n : ℕ) (max : ZMod p) (red : Bool) (res : FlatU p)
    (hmax : max.val < 2 ^ (requiredBits p - 1)) (hw : w < requiredBits p) :
    Sound ρ L E (pre ∧ URel ρ w max.val n res) (Flt.uTail w max red res : FlatM p Z _)
      (fun u => URel ρ w (if red = true then min (2 ^ w - 1) max.val else max.val) n u ∧ (red = true → URed ρ w n u)) := by
  have hb2 := requiredBits_ge_two (p := p)
  have hbits : Fld.bits max < requiredBits p := by
    rw [bits_eq]
    have : Nat.size max.val ≤ requiredBits p - 1 := Nat.size_le.2 hmax
    omega
  unfold Flt.uTail
  split
  · rename_i hred
    refine Sound.bind (getBits_reduce hp res _ w max.val n .sum (val_lt_bits max) hbits hw) fun bs => ?_
    refine Sound.ite (fun hlt => Sound.pure ?_) (fun hge => Sound.bind ((getField w max.val n res hw (pre := True)).pre_of
      fun h => ⟨trivial, h.1.2⟩) fun f => Sound.pure ?_)
    · rintro ⟨⟨_, hu⟩, bl, h1, h2, h3⟩
      have hn : n ≤ max.val := by
        cases hf : res.field with
        | none => exact (hu.hne hf).2
        | some f =>
          obtain ⟨h4, h5⟩ := hu.field f hf
          rw [← h4]; exact le_trans (Nat.mod_le _ _) h5
      have hv : ((Flt.foldBits w bs).val ρ).val = n := by
        rw [val_foldBits h1 h2, h3, val_natCast_of_lt (lt_of_lt_of_le hu.lt (pow_le_p hw))]
      have hlt' := hu.lt
      refine ⟨⟨hu.lt, ?_, ?_, ?_, ?_⟩, fun _ => ⟨⟨_, rfl, hv⟩, ⟨_, rfl⟩⟩⟩
      · intro f hf; cases hf
        rw [hv, Nat.mod_eq_of_lt hu.lt]
        exact ⟨rfl, by simp [hred]; omega⟩
      · intro bs' hbs; cases hbs; exact ⟨bl, h1, h2, h3⟩
      · intro h; cases h
      · intro _ f hf _; cases hf; exact hv
    · rintro ⟨⟨⟨_, hu⟩, bl, h1, h2, h3⟩, h4, h5, h6⟩
      have hle : Fld.bits max ≤ w := by omega
      have hv : (f.val ρ).val = n := by
        rw [← h4, Nat.mod_eq_of_lt]
        exact lt_of_le_of_lt h5 (lt_of_lt_of_le (val_lt_bits max) (Nat.pow_le_pow_right (by norm_num) hle))
      have hlt' := hu.lt
      refine ⟨⟨hu.lt, ?_, ?_, ?_, ?_⟩, fun _ => ⟨⟨f, rfl, hv⟩, ⟨_, rfl⟩⟩⟩
      · intro f' hf; cases hf
        rw [hv, Nat.mod_eq_of_lt hu.lt]
        exact ⟨rfl, by simp [hred]; omega⟩
      · intro bs' hbs; cases hbs; exact ⟨bl, h1, h2, h3⟩
      · intro h; cases h
      · intro _ f' hf _; cases hf; exact hv
  · rename_i hred
    exact Sound.pure fun h => ⟨by simpa [hred] using h.2, fun h => absurd h hred⟩

end Sound
end Zok
