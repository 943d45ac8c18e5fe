import Verif.Lemmas.FlatM

/-
Soundness of the gadgets of the flattener, in the program logic of `Verif.Lemmas.FlatM`.
-/

set_option linter.unusedSectionVars false
set_option linter.unusedVariables false

namespace Zok
variable {p : ℕ} {Z : Type} [Fact p.Prime]
variable {ρ : Assignment (ZMod p)} {L : ZId → Option Variable} {E pre : Prop}

open FlatExpr Fld

/-! ### Satisfaction of single statements -/

@[simp] theorem sat_condition {l q : FlatExpr (ZMod p)} {err : RuntimeError} :
    FlatStmt.Sat ρ (.condition l q err : FlatStmt (ZMod p) Z) ↔ l.val ρ = q.val ρ :=
  ⟨fun h => by cases h; assumption, fun h => .condition h⟩

@[simp] theorem sat_definition {x : Variable} {e : FlatExpr (ZMod p)} :
    FlatStmt.Sat ρ (.definition x e : FlatStmt (ZMod p) Z) ↔ ρ x = e.val ρ :=
  ⟨fun h => by cases h; assumption, fun h => .definition h⟩

@[simp] theorem sat_directive {o : List Variable} {s : Solver Z} {i : List (FlatExpr (ZMod p))} :
    FlatStmt.Sat ρ (.directive o s i : FlatStmt (ZMod p) Z) := .directive _ _ _

@[simp] theorem sat_bitness {x : FlatExpr (ZMod p)} {err : RuntimeError} :
    FlatStmt.Sat ρ (Flt.bitness x err : FlatStmt (ZMod p) Z) ↔ x.val ρ * x.val ρ = x.val ρ := by
  unfold Flt.bitness; rw [sat_condition]; exact eq_comm

/-! ### Lists of bits -/

theorem BitsRel.length {bs : List (FlatExpr (ZMod p))} {bl : List Bool} (h : BitsRel ρ bs bl) :
    bs.length = bl.length := by
  have := congrArg List.length h; simpa using this

theorem BitsRel.nil : BitsRel ρ [] [] := rfl

theorem bitsRel_cons {e : FlatExpr (ZMod p)} {b : Bool} {bs : List (FlatExpr (ZMod p))} {bl : List Bool} :
    BitsRel ρ (e :: bs) (b :: bl) ↔ e.val ρ = boolF b ∧ BitsRel ρ bs bl := by
  unfold BitsRel; simp

theorem BitsRel.cons {e : FlatExpr (ZMod p)} {b : Bool} {bs : List (FlatExpr (ZMod p))} {bl : List Bool}
    (h : e.val ρ = boolF b) (h' : BitsRel ρ bs bl) : BitsRel ρ (e :: bs) (b :: bl) := bitsRel_cons.2 ⟨h, h'⟩

theorem BitsRel.append {a b : List (FlatExpr (ZMod p))} {al bl : List Bool} (h : BitsRel ρ a al)
    (h' : BitsRel ρ b bl) : BitsRel ρ (a ++ b) (al ++ bl) := by
  unfold BitsRel at *; simp [h, h']

theorem BitsRel.drop {bs : List (FlatExpr (ZMod p))} {bl : List Bool} (h : BitsRel ρ bs bl) (k : ℕ) :
    BitsRel ρ (bs.drop k) (bl.drop k) := by
  unfold BitsRel at *; rw [List.map_drop, h, List.map_drop]

theorem BitsRel.take {bs : List (FlatExpr (ZMod p))} {bl : List Bool} (h : BitsRel ρ bs bl) (k : ℕ) :
    BitsRel ρ (bs.take k) (bl.take k) := by
  unfold BitsRel at *; rw [List.map_take, h, List.map_take]

theorem BitsRel.zeros (n : ℕ) : BitsRel ρ (List.replicate n (.value 0)) (List.replicate n false) := by
  unfold BitsRel; simp [FlatExpr.val, boolF]

theorem BitsRel.values (bl : List Bool) : BitsRel ρ (bl.map (fun b => FlatExpr.value (boolF b))) bl := by
  unfold BitsRel
  rw [List.map_map]
  apply List.map_congr_left
  intro b _; rfl

theorem BitsRel.unique {bs : List (FlatExpr (ZMod p))} {al bl : List Bool} (h : BitsRel ρ bs al)
    (h' : BitsRel ρ bs bl) : al = bl := map_boolF_inj (h.symm.trans h')

/-- Expressions satisfying the bitness condition are bits. -/
theorem BitsRel.exists {bs : List (FlatExpr (ZMod p))} (h : ∀ b ∈ bs, b.val ρ * b.val ρ = b.val ρ) :
    ∃ bl, BitsRel ρ bs bl := by
  obtain ⟨bl, hbl⟩ := exists_bools (l := bs.map (FlatExpr.val ρ)) (by
    intro b hb
    obtain ⟨e, he, rfl⟩ := List.mem_map.1 hb
    exact bool_of_mul_self (h e he))
  exact ⟨bl, hbl⟩

theorem sumBE_eq_sum {R : Type} [CommSemiring R] (l : List R) :
    sumBE l = (l.reverse.zipIdx.map (fun t => (2 : R) ^ t.2 * t.1)).sum := by
  induction l with
  | nil => rfl
  | cons a l ih =>
    simp only [sumBE, List.reverse_cons, List.zipIdx_append, List.map_append, List.sum_append, ih,
      List.length_reverse]
    simp
    ring

theorem val_flatFromBits {bs : List (FlatExpr (ZMod p))} {bl : List Bool} (h : BitsRel ρ bs bl) :
    (flatFromBits bs).val ρ = (natBE bl : ZMod p) := by
  unfold flatFromBits withPowers
  rw [val_flatSummands, ← sumBE_map_boolF, sumBE_eq_sum]
  rw [← h, List.map_map, ← List.map_reverse, List.zipIdx_map, List.map_map]
  rfl

theorem val_foldl_add (es : List (FlatExpr (ZMod p))) (acc : FlatExpr (ZMod p)) :
    (es.foldl FlatExpr.add acc).val ρ = acc.val ρ + (es.map (FlatExpr.val ρ)).sum := by
  induction es generalizing acc with
  | nil => simp
  | cons e es ih => simp only [List.foldl_cons, ih, List.map_cons, List.sum_cons, FlatExpr.val]; ring

theorem val_sumFold (es : List (FlatExpr (ZMod p))) :
    (Flt.sumFold es).val ρ = (es.map (FlatExpr.val ρ)).sum := by
  unfold Flt.sumFold; rw [val_foldl_add]; simp [FlatExpr.val]

theorem sum_map_boolF (bl : List Bool) : (bl.map (boolF (R := ZMod p))).sum = ((bl.count true : ℕ) : ZMod p) := by
  induction bl with
  | nil => simp
  | cons b bl ih => cases b <;> simp [ih, boolF, List.count_cons, add_comm]

theorem val_sumFold_bits {bs : List (FlatExpr (ZMod p))} {bl : List Bool} (h : BitsRel ρ bs bl) :
    (Flt.sumFold bs).val ρ = ((bl.count true : ℕ) : ZMod p) := by
  rw [val_sumFold, h, sum_map_boolF]

theorem count_true_eq_length {bl : List Bool} : bl.count true = bl.length ↔ bl.all id = true := by
  rw [List.count_eq_length, List.all_eq_true]
  constructor
  · intro h x hx; exact (h x hx).symm
  · intro h x hx; exact (h x hx).symm

theorem requiredBits_lt (hp : 2 < p) : requiredBits p < p := by
  have h := two_pow_lt (p := p) (by omega)
  rcases Nat.lt_or_ge (requiredBits p) 3 with h1 | h1
  · omega
  · have : requiredBits p - 1 < 2 ^ (requiredBits p - 1) := Nat.lt_two_pow_self
    omega

theorem natCast_inj_of_lt {a b : ℕ} (ha : a < p) (hb : b < p) (h : (a : ZMod p) = b) : a = b := by
  have := congrArg ZMod.val h
  rwa [val_natCast_of_lt ha, val_natCast_of_lt hb] at this

theorem count_zero_natBE {bl : List Bool} (h : bl.count true = 0) : bl = List.replicate bl.length false := by
  rw [List.count_eq_zero] at h
  apply List.eq_replicate_of_mem
  intro b hb
  cases b
  · rfl
  · exact absurd hb h

theorem natBE_drop (bl : List Bool) (k : ℕ) : natBE (bl.drop k) = natBE bl % 2 ^ (bl.length - k) := by
  conv_rhs => rw [← List.take_append_drop k bl]
  rw [natBE_append, List.length_append, List.length_drop, List.length_take]
  have h := natBE_lt (bl.drop k)
  rw [List.length_drop] at h
  have : min k bl.length + (bl.length - k) - k = bl.length - k := by omega
  rw [this, Nat.add_comm, Nat.add_mul_mod_self_right, Nat.mod_eq_of_lt h]

theorem natBE_all {bl : List Bool} (h : bl.all id = true) : natBE bl = 2 ^ bl.length - 1 := by
  induction bl with
  | nil => rfl
  | cons b bl ih =>
    simp only [List.all_cons, Bool.and_eq_true, id] at h
    simp only [natBE, h.1, ih h.2, Bool.toNat_true, List.length_cons, pow_succ]
    have := Nat.one_le_two_pow (n := bl.length)
    omega

namespace Sound

theorem define (e : FlatExpr (ZMod p)) : Sound ρ L E pre (Flt.define e : FlatM p Z _) (fun v => ρ v = e.val ρ) := by
  unfold Flt.define
  split
  · exact Sound.pure fun _ => rfl
  · refine Sound.bind useSym fun r => Sound.bind (emit _) fun _ => Sound.pure ?_
    rintro ⟨_, h⟩; simpa using h

theorem defineAll (es : List (FlatExpr (ZMod p))) :
    Sound ρ L E pre (Flt.defineAll es : FlatM p Z _) (fun vs => vs.map ρ = es.map (FlatExpr.val ρ)) := by
  induction es generalizing pre with
  | nil => exact Sound.pure fun _ => rfl
  | cons e es ih =>
    refine Sound.bind (define e) fun v => Sound.bind ih fun vs => Sound.pure ?_
    rintro ⟨⟨_, h1⟩, h2⟩; simp [h1, h2]

theorem linearise (e : FlatExpr (ZMod p)) :
    Sound ρ L E pre (Flt.linearise e : FlatM p Z _)
      (fun a => a.val ρ = e.val ρ ∧ (∀ c, a = .value c → e = .value c)) := by
  unfold Flt.linearise
  split
  · exact Sound.pure fun _ => ⟨rfl, fun c h => h⟩
  · refine Sound.bind useSym fun r => Sound.bind (emit _) fun _ => Sound.pure ?_
    rintro ⟨_, h⟩; exact ⟨by simpa [FlatExpr.val] using h, fun c h => by cases h⟩

theorem newDef (e : FlatExpr (ZMod p)) : Sound ρ L E pre (Flt.newDef e : FlatM p Z _) (fun v => ρ v = e.val ρ) := by
  unfold Flt.newDef
  refine Sound.bind useSym fun r => Sound.bind (emit _) fun _ => Sound.pure ?_
  rintro ⟨_, h⟩; simpa using h

theorem useSyms (n : ℕ) : Sound ρ L E pre (Flt.useSyms n : FlatM p Z _) (fun vs => vs.length = n) := by
  induction n generalizing pre with
  | zero => exact Sound.pure fun _ => rfl
  | succ n ih =>
    refine Sound.bind useSym fun v => Sound.bind ih fun vs => Sound.pure ?_
    rintro ⟨_, h⟩; simp [h]

theorem leSyms (n : ℕ) : Sound ρ L E pre (Flt.leSyms n : FlatM p Z _) (fun vs => vs.length = n) := by
  induction n generalizing pre with
  | zero => exact Sound.pure fun _ => rfl
  | succ n ih =>
    refine Sound.bind useSym fun v => Sound.bind useSym fun w => Sound.bind ih fun vs => Sound.pure ?_
    rintro ⟨_, h⟩; simp [h]

/-- A precondition can be assumed if it is not needed for the frame conditions. -/
theorem assume {α : Type} {m : FlatM p Z α} {P : α → Prop} (h : pre → Sound ρ L E True m P)
    (hs : Sound ρ L E False m P) : Sound ρ L E pre m P := by
  by_cases hp : pre
  · exact (h hp).pre_of fun _ => trivial
  · exact hs.pre_of fun h => hp h

/-- The conditions of the comparison with a constant: `s` says that the digits seen so far are equal. -/
theorem leLoop (l : List (FlatExpr (ZMod p) × Bool × Variable × Variable)) (al : List Bool) (s : Bool) :
    Sound ρ L E (pre ∧ BitsRel ρ (l.map Prod.fst) al ∧ ∀ t, l.head? = some t → ρ t.2.2.2 = boolF s)
      (Flt.leLoop l : FlatM p Z _)
      (fun conds => ∃ cl, BitsRel ρ conds cl ∧ cl.length ≤ l.length ∧
        (cl.all id = true ↔ s = false ∨ natBE al ≤ natBE (l.map (fun t => t.2.1)))) := by
  induction l generalizing al s pre with
  | nil =>
    refine Sound.pure ?_
    rintro ⟨_, h, _⟩
    have hl := h.length
    cases al with
    | nil => exact ⟨[], BitsRel.nil, by simp, by simp [natBE]⟩
    | cons _ _ => simp at hl
  | cons t rest ih =>
    obtain ⟨a, b, nsr, su⟩ := t
    cases al with
    | nil =>
      -- impossible by the lengths, but the frame is needed
      have key : ∀ {Q : Prop}, (pre ∧ BitsRel ρ (((a, b, nsr, su) :: rest).map Prod.fst) ([] : List Bool) ∧
          ∀ t, (((a, b, nsr, su) :: rest).head?) = some t → ρ t.2.2.2 = boolF s) → Q := by
        rintro Q ⟨_, h, _⟩; have := h.length; simp at this
      cases b with
      | true =>
        unfold Flt.leLoop
        refine Sound.bind (emit _) fun _ => Sound.bind (P := fun _ => True) ?_ fun _ => ?_
        · split
          · exact (emit _).post fun _ _ _ => trivial
          · exact Sound.pure fun _ => trivial
        · exact (ih (pre := False) [] s).conseq (fun h => key h.1.1) (fun h => key h.1.1) (fun _ h => key h.1.1)
      | false =>
        unfold Flt.leLoop
        refine Sound.bind (P := fun _ => True) ?_ fun _ => Sound.bind useSym fun _ => Sound.bind (emit _) fun _ =>
          Sound.bind (P := fun _ => True) ?_ fun _ => Sound.pure fun h => key h.1.1.1.1
        · split
          · exact (emit _).post fun _ _ _ => trivial
          · exact Sound.pure fun _ => trivial
        · exact (ih (pre := False) [] s).conseq (fun h => key h.1.1.1) (fun h => key h.1.1.1) (fun _ h => key h.1.1.1)
    | cons x al =>
      cases b with
      | true =>
        unfold Flt.leLoop
        refine Sound.bind (emit _) fun _ => Sound.bind
          (P := fun _ => ∀ t, rest.head? = some t → ρ t.2.2.2 = ρ su * ρ nsr) ?_ fun _ => ?_
        · split
          · refine (emit _).post fun _ _ h => ?_
            intro t ht
            simp only [List.head?_cons, Option.some.injEq] at ht
            subst ht
            simpa [FlatExpr.val] using h
          · exact Sound.pure fun _ t ht => by simp at ht
        · refine (ih (pre := True) al (s && x)).conseq ?_ (fun _ h => h) ?_
          · rintro ⟨⟨⟨_, h, hs⟩, h1⟩, h2⟩
            rw [List.map_cons, bitsRel_cons] at h
            have h1' : ρ nsr = boolF x := by rw [sat_definition] at h1; rw [h1]; exact h.1
            have hs' : ρ su = boolF s := hs _ rfl
            refine ⟨trivial, h.2, fun t ht => ?_⟩
            rw [h2 t ht, h1', hs']
            cases s <;> cases x <;> simp [boolF]
          · rintro conds ⟨⟨⟨_, h, hs⟩, h1⟩, h2⟩ ⟨cl, h3, h4, h5⟩
            have hl : al.length = rest.length := by have := h.length; simp at this; omega
            refine ⟨cl, h3, by simp only [List.length_cons]; omega, h5.trans ?_⟩
            have hb := natBE_lt al
            rw [hl] at hb
            simp only [List.map_cons, natBE, List.length_map, hl]
            cases s <;> cases x <;> simp <;> omega
      | false =>
        unfold Flt.leLoop
        refine Sound.bind
          (P := fun _ => ∀ t, rest.head? = some t → ρ t.2.2.2 = ρ su) ?_ fun _ => Sound.bind useSym fun v =>
          Sound.bind (emit _) fun _ => Sound.bind (P := fun conds => ∃ cl, BitsRel ρ conds cl ∧
            cl.length ≤ rest.length ∧ (cl.all id = true ↔ s = false ∨ natBE al ≤ natBE (rest.map (fun t => t.2.1))))
            ?_ fun res => Sound.pure ?_
        · split
          · refine (emit _).post fun _ _ h => ?_
            intro t ht
            simp only [List.head?_cons, Option.some.injEq] at ht
            subst ht
            simpa [FlatExpr.val] using h
          · exact Sound.pure fun _ t ht => by simp at ht
        · refine (ih (pre := True) al s).conseq ?_ (fun _ h => h) (fun _ _ h => h)
          rintro ⟨⟨⟨⟨_, h, hs⟩, h1⟩, _⟩, h2⟩
          rw [List.map_cons, bitsRel_cons] at h
          exact ⟨trivial, h.2, fun t ht => by rw [h1 t ht]; exact hs _ rfl⟩
        · rintro ⟨⟨⟨⟨⟨_, h, hs⟩, h1⟩, _⟩, h2⟩, cl, h3, h4, h5⟩
          rw [List.map_cons, bitsRel_cons] at h
          have hs' : ρ su = boolF s := hs _ rfl
          have hx := h.1
          refine ⟨(!(s && x)) :: cl, BitsRel.cons ?_ h3, by simp; omega, ?_⟩
          · simp only [sat_definition, FlatExpr.val] at h2
            simp only [FlatExpr.val, h2, hs']
            simp only at hx
            rw [hx]
            cases s <;> cases x <;> simp [boolF]
          · rw [List.all_cons, Bool.and_eq_true, h5]
            have hl : al.length = rest.length := by have := h.2.length; simp at this; omega
            have hb := natBE_lt (rest.map (fun t => t.2.1))
            rw [List.length_map, ← hl] at hb
            simp only [List.map_cons, natBE, List.length_map, ← hl]
            cases s <;> cases x <;> simp <;> omega

/-- `constant_le_check`: the conditions are bits, all set exactly when `a ≤ b`. -/
theorem constantLeCheck (a : List (FlatExpr (ZMod p))) (b al : List Bool) :
    Sound ρ L E (pre ∧ BitsRel ρ a al) (Flt.constantLeCheck a b : FlatM p Z _)
      (fun conds => al.length = b.length ∧ ∃ cl, BitsRel ρ conds cl ∧ cl.length ≤ b.length ∧
        (cl.all id = true ↔ natBE al ≤ natBE b)) := by
  unfold Flt.constantLeCheck
  refine Sound.bind (assert _) fun _ => Sound.ite ?_ ?_
  · intro hb
    refine Sound.bind (defineAll a) fun ids => Sound.bind (emitAll _) fun _ => Sound.pure ?_
    rintro ⟨⟨⟨⟨_, h⟩, hl⟩, _⟩, _⟩
    have hl' : a.length = b.length := by simpa using hl
    have hal := h.length
    refine ⟨by omega, [], BitsRel.nil, by simp, ?_⟩
    have h1 := natBE_lt al
    have h2 := natBE_all hb
    have : al.length = b.length := by omega
    rw [this] at h1
    simp; omega
  · intro hb
    refine Sound.bind (leSyms _) fun syms => ?_
    cases syms with
    | nil => exact Sound.panic_bind
    | cons t syms =>
      obtain ⟨nsr, su⟩ := t
      refine Sound.bind (emit _) fun _ => (leLoop _ al true (pre := True)).conseq ?_ (fun _ h => h) ?_
      · rintro ⟨⟨⟨⟨_, h⟩, hl⟩, hs⟩, hd⟩
        have hl' : a.length = b.length := by simpa using hl
        refine ⟨trivial, ?_, ?_⟩
        · rwa [List.map_fst_zip]
          rw [List.length_zip]; omega
        · intro t ht
          rw [List.head?_eq_getElem?] at ht
          cases a with
          | nil => simp at ht
          | cons x a =>
            cases b with
            | nil => simp at ht
            | cons y b =>
              simp at ht
              subst ht
              simpa [FlatExpr.val, boolF] using hd
      · rintro conds ⟨⟨⟨⟨_, h⟩, hl⟩, hs⟩, hd⟩ ⟨cl, h1, h2, h3⟩
        have hl' : a.length = b.length := by simpa using hl
        have hal := h.length
        refine ⟨by omega, cl, h1, ?_, ?_⟩
        · rw [List.length_zip, List.length_zip] at h2; omega
        · rw [h3]
          have : List.map (fun t : FlatExpr (ZMod p) × Bool × Variable × Variable => t.2.1)
              (a.zip (b.zip ((nsr, su) :: syms))) = b := by
            have e : (fun t : FlatExpr (ZMod p) × Bool × Variable × Variable => t.2.1) = Prod.fst ∘ Prod.snd := rfl
            rw [e, ← List.map_map, List.map_snd_zip, List.map_fst_zip]
            · omega
            · rw [List.length_zip]; omega
          rw [this]; simp

/-- `eq_check`: the result is the truth value of the equality. -/
theorem eqCheck (l r : FlatExpr (ZMod p)) : Sound ρ L E pre (Flt.eqCheck l r : FlatM p Z _)
    (fun e => e.val ρ = boolF (decide (l.val ρ = r.val ρ))) := by
  unfold Flt.eqCheck
  refine Sound.bind (define l) fun x => Sound.bind (define r) fun y => Sound.bind useSym fun b => Sound.bind useSym
    fun m => Sound.bind (emit _) fun _ => Sound.bind (emit _) fun _ => Sound.bind (emit _) fun _ => Sound.pure ?_
  rintro ⟨⟨⟨⟨⟨⟨⟨_, hx⟩, hy⟩, _⟩, _⟩, _⟩, h1⟩, h2⟩
  simp only [sat_condition, FlatExpr.val, hx, hy] at h1 h2 ⊢
  by_cases h : l.val ρ = r.val ρ
  · simp [h, boolF] at h1 ⊢; exact h1
  · have : l.val ρ - r.val ρ ≠ 0 := sub_ne_zero.2 h
    have h3 := (mul_eq_zero.1 h2.symm).resolve_right this
    rw [h3]; simp [h, boolF]

/-- `enforce_constant_le_check_bits`. -/
theorem enforceLeBits (hp : 2 < p) (a : List (FlatExpr (ZMod p))) (b al : List Bool) (err : RuntimeError)
    (hb : b.length ≤ requiredBits p) :
    Sound ρ L E (pre ∧ BitsRel ρ a al) (Flt.enforceLeBits a b err : FlatM p Z _)
      (fun _ => natBE al ≤ natBE b ∧ al.length = b.length) := by
  unfold Flt.enforceLeBits
  refine Sound.bind (constantLeCheck a b al) fun conds => (emit _).post ?_
  rintro _ ⟨_, hlen, cl, h1, h2, h3⟩ h
  refine ⟨?_, hlen⟩
  rw [← h3, ← count_true_eq_length]
  simp only [sat_condition, FlatExpr.val, val_sumFold_bits h1, h1.length] at h
  have hr := requiredBits_lt hp
  have hc := List.count_le_length (a := true) (l := cl)
  exact natCast_inj_of_lt (by omega) (by omega) (sub_eq_zero.1 h.symm)

/-- A new decomposition: the kept bits are the low-order bits of an integer `N` of `from_` bits representing `f`. -/
theorem freshBits (f : FlatExpr (ZMod p)) (from_ tgt : ℕ) (err : RuntimeError) (ht : tgt ≤ from_)
    (hr : from_ ≤ requiredBits p) (hx : from_ < requiredBits p ∨ from_ = tgt) :
    Sound ρ L E pre (Flt.freshBits f from_ tgt err : FlatM p Z _)
      (fun bs => ∃ bl N, BitsRel ρ bs bl ∧ bl.length = tgt ∧ N < 2 ^ from_ ∧ ((N : ℕ) : ZMod p) = f.val ρ ∧
        natBE bl = N % 2 ^ tgt) := by
  unfold Flt.freshBits
  refine Sound.bind (useSyms _) fun vs => Sound.bind (emit _) fun _ => Sound.bind (emitAll _) fun _ =>
    Sound.bind (emit _) fun _ => ?_
  have key : ∀ (hv : vs.length = from_)
      (hb : ∀ s ∈ (vs.map FlatExpr.ident).map (fun b => Flt.bitness b .bitness), FlatStmt.Sat (Z := Z) ρ s)
      (hs : FlatStmt.Sat (Z := Z) ρ (.condition f (flatFromBits (vs.map FlatExpr.ident)) err)),
      ∃ bl N, BitsRel ρ ((vs.map FlatExpr.ident).drop (from_ - tgt)) bl ∧ bl.length = tgt ∧ N < 2 ^ from_ ∧
        ((N : ℕ) : ZMod p) = f.val ρ ∧ natBE bl = N % 2 ^ tgt ∧
        (flatFromBits (vs.map FlatExpr.ident)).val ρ = f.val ρ := by
    intro hv hb hs
    obtain ⟨al, hal⟩ := BitsRel.exists (ρ := ρ) (bs := vs.map FlatExpr.ident) (by
      intro b hb'
      have := hb (Flt.bitness b .bitness) (List.mem_map.2 ⟨b, hb', rfl⟩)
      rwa [sat_bitness] at this)
    have hl : al.length = from_ := by have := hal.length; simp at this; omega
    rw [sat_condition, val_flatFromBits hal] at hs
    refine ⟨al.drop (from_ - tgt), natBE al, hal.drop _, by simp; omega, hl ▸ natBE_lt al, hs.symm, ?_, ?_⟩
    · rw [natBE_drop, hl]
      congr 2
      omega
    · rw [val_flatFromBits hal, hs]
  have ent : ∀ (g : FlatExpr (ZMod p)) (hg : g.val ρ = f.val ρ) (hv : vs.length = from_)
      (hb : ∀ s ∈ (vs.map FlatExpr.ident).map (fun b => Flt.bitness b .bitness), FlatStmt.Sat (Z := Z) ρ s)
      (hs : FlatStmt.Sat (Z := Z) ρ (.condition f (flatFromBits (vs.map FlatExpr.ident)) err)),
      EntryOk ρ g ⟨(vs.map FlatExpr.ident).drop (from_ - tgt), decide (from_ ≤ tgt)⟩ := by
    intro g hg hv hb hs
    obtain ⟨bl, N, h1, h2, h3, h4, h5, _⟩ := key hv hb hs
    refine ⟨by rw [h1.length]; omega, bl, N, h1, h4.trans hg.symm, by rw [h1.length, h2]; exact h5, ?_, ?_⟩
    · intro hd
      have hd' : from_ ≤ tgt := by simpa using hd
      have : from_ = tgt := by omega
      rw [h5, Nat.mod_eq_of_lt (this ▸ h3)]
    · by_cases hr' : from_ < requiredBits p
      · left
        exact lt_of_lt_of_le h3 (le_trans (Nat.pow_le_pow_right (by norm_num) (by omega)) (two_pow_le (p := p)))
      · right
        have : from_ = tgt := by omega
        refine ⟨by simp only [h1.length]; omega, ?_⟩
        rw [h5, Nat.mod_eq_of_lt (this ▸ h3)]
  refine Sound.bind ((setCache _ _).pre_of ?_) fun _ => Sound.bind ((setCache _ _).pre_of ?_) fun _ => Sound.pure ?_
  · rintro ⟨⟨⟨⟨_, hv⟩, _⟩, hb⟩, hs⟩
    exact ent f rfl hv hb hs
  · rintro ⟨⟨⟨⟨⟨_, hv⟩, _⟩, hb⟩, hs⟩, _⟩
    obtain ⟨_, _, _, _, _, _, _, h6⟩ := key hv hb hs
    exact ent _ h6 hv hb hs
  · rintro ⟨⟨⟨⟨⟨⟨_, hv⟩, _⟩, hb⟩, hs⟩, _⟩, _⟩
    obtain ⟨bl, N, h1, h2, h3, h4, h5, _⟩ := key hv hb hs
    exact ⟨bl, N, h1, h2, h3, h4, h5⟩

/-- The facts about an answer from the cache. -/
theorem cachedBits (hp : 2 < p) (f : FlatExpr (ZMod p)) (c : CacheEntry p) (from_ tgt : ℕ) (err : RuntimeError)
    (ht : tgt ≤ from_) :
    Sound ρ L E (pre ∧ EntryOk ρ f c) (Flt.cachedBits c from_ tgt err : FlatM p Z _)
      (fun bs => ∃ bl N, BitsRel ρ bs bl ∧ bl.length = tgt ∧ ((N : ℕ) : ZMod p) = f.val ρ ∧
        natBE bl = N % 2 ^ tgt ∧
        (from_ = tgt → natBE bl = N) ∧ (tgt < requiredBits p → N < p)) := by
  unfold Flt.cachedBits
  refine Sound.bind (emit _) fun _ => Sound.bind (raise _) fun _ => Sound.pure ?_
  rintro ⟨⟨⟨_, hlen, bl, N, hb, hN, h1, h2, h3⟩, hsat⟩, hcl⟩
  have hbl := hb.length
  rw [sat_condition, val_sumFold_bits (hb.take _)] at hsat
  simp only [FlatExpr.val] at hsat
  have hcount : (bl.take (c.bits.length - tgt)).count true = 0 := by
    have hr := requiredBits_lt hp
    have h5 := List.count_le_length (a := true) (l := bl.take (c.bits.length - tgt))
    rw [List.length_take] at h5
    refine natCast_inj_of_lt (p := p) (by omega) (by omega) ?_
    rw [← hsat]; simp
  have hz := count_zero_natBE hcount
  have hdrop : natBE (bl.drop (c.bits.length - tgt)) = natBE bl := by
    conv_rhs => rw [← List.take_append_drop (c.bits.length - tgt) bl, hz, natBE_append, natBE_replicate_false]
    simp
  have hk : (c.bits.drop (c.bits.length - tgt)).length ≤ tgt := by rw [List.length_drop]; omega
  have hkl : (bl.drop (c.bits.length - tgt)).length = (c.bits.drop (c.bits.length - tgt)).length := by
    rw [List.length_drop, List.length_drop]; omega
  refine ⟨List.replicate (tgt - (c.bits.drop (c.bits.length - tgt)).length) false ++
      bl.drop (c.bits.length - tgt), N, (BitsRel.zeros _).append (hb.drop _), ?_, hN, ?_, ?_, ?_⟩
  · rw [List.length_append, List.length_replicate, hkl]; omega
  · rw [natBE_append, natBE_replicate_false, hdrop]
    have hlt : natBE bl < 2 ^ tgt := by
      rw [← hdrop]
      exact lt_of_lt_of_le (natBE_lt _) (Nat.pow_le_pow_right (by norm_num) (by rw [hkl]; exact hk))
    simp only [Bool.or_eq_false_iff, Bool.and_eq_false_iff, Bool.not_eq_false', decide_eq_false_iff_not,
      Bool.and_eq_true, decide_eq_true_eq] at hcl
    by_cases he : c.exact = true
    · rw [← h2 he]; simp [Nat.mod_eq_of_lt hlt]
    · have h6 := hcl.1.resolve_left he
      rw [h6.1, ← h1]; simp
  · intro hft
    rw [natBE_append, natBE_replicate_false, hdrop]
    simp only [Bool.or_eq_false_iff, Bool.and_eq_false_iff, Bool.not_eq_false', decide_eq_false_iff_not,
      Bool.and_eq_true, decide_eq_true_eq] at hcl
    have he : c.exact = true := by
      rcases hcl.1 with h | h
      · exact h
      · omega
    rw [h2 he]; simp
  · intro htr
    rcases h3 with h | ⟨h, h'⟩
    · exact h
    · have hlt : natBE bl < 2 ^ tgt := by
        rw [← hdrop]
        exact lt_of_lt_of_le (natBE_lt _) (Nat.pow_le_pow_right (by norm_num) (by rw [hkl]; exact hk))
      rw [h']
      exact lt_of_lt_of_le hlt (le_trans (Nat.pow_le_pow_right (by norm_num) (by omega)) (two_pow_le (p := p)))

end Sound

theorem constBits_eq (n : ℕ) (x : ZMod p) (hn : n ≤ requiredBits p) :
    Flt.constBits n x = (bitsBE n x.val).map boolF := by
  unfold Flt.constBits
  simp only [toBitsBe_eq, drop_bitsBE, length_bitsBE]
  congr 1
  have h1 : requiredBits p - (requiredBits p - n) = n := by omega
  rw [h1]; simp

theorem pow_le_p {k : ℕ} (h : k < requiredBits p) : 2 ^ k ≤ p :=
  le_trans (Nat.pow_le_pow_right (by norm_num) (by omega)) (two_pow_le (p := p))

theorem val_eq_of_lt {n : ℕ} {x : ZMod p} (h : n < p) (hx : ((n : ℕ) : ZMod p) = x) : x.val = n := by
  rw [← hx, val_natCast_of_lt h]

namespace Sound

/-- The constant case of `get_bits_unchecked`. -/
theorem constEntry (x : ZMod p) (tgt : ℕ) (ht : tgt ≤ requiredBits p) :
    BitsRel ρ ((Flt.constBits tgt x).map FlatExpr.value) (bitsBE tgt x.val) ∧
    EntryOk ρ (.value x) ⟨(Flt.constBits tgt x).map FlatExpr.value, decide (x.val < 2 ^ tgt)⟩ := by
  have h : BitsRel ρ ((Flt.constBits tgt x).map FlatExpr.value) (bitsBE tgt x.val) := by
    rw [constBits_eq _ _ ht, List.map_map]; exact BitsRel.values _
  refine ⟨h, ?_, bitsBE tgt x.val, x.val, h, cast_val x, ?_, ?_, Or.inl (val_lt x)⟩
  · rw [h.length]; simpa using ht
  · rw [natBE_bitsBE, h.length]; simp
  · intro hd
    exact natBE_bitsBE_of_lt (by simpa using hd)

theorem getBits_exact (hp : 2 < p) (f : FlatExpr (ZMod p)) (k : ℕ) (err : RuntimeError) :
    Sound ρ L E (pre ∧ ∀ x, f = .value x → x.val < 2 ^ k)
      (Flt.getBits (Flt.withField f) k k err : FlatM p Z _)
      (fun bs => ∃ bl, BitsRel ρ bs bl ∧ bl.length = k ∧ ((natBE bl : ℕ) : ZMod p) = f.val ρ ∧
        k ≤ requiredBits p) := by
  unfold Flt.getBits
  by_cases hk : k ≤ requiredBits p
  · refine Sound.bind (assert _) fun _ => Sound.bind (assert _) fun _ => ?_
    have gen : ∀ f : FlatExpr (ZMod p), Sound ρ L E
      ((((pre ∧ ∀ x, f = .value x → x.val < 2 ^ k) ∧ decide (k ≤ requiredBits p) = true) ∧
        decide (k ≤ requiredBits p) = true))
        (do
          let f ← Flt.unwrap (Option.some f)
          match ← Flt.getCache f with
          | Option.some entry => Flt.cachedBits entry (max k k) k err
          | none => Flt.freshBits f (max k k) k err : FlatM p Z _)
      (fun bs => ∃ bl, BitsRel ρ bs bl ∧ bl.length = k ∧ ((natBE bl : ℕ) : ZMod p) = f.val ρ ∧
        k ≤ requiredBits p) := by
      intro f
      refine Sound.bind (unwrap _) fun f' => Sound.bind (getCache _) fun c => ?_
      rw [Nat.max_self]
      cases c with
      | none =>
        refine (freshBits f' k k err le_rfl hk (Or.inr rfl)).post ?_
        rintro bs ⟨⟨_, h⟩, _⟩ ⟨bl, N, h1, h2, h3, h4, h5⟩
        cases h
        refine ⟨bl, h1, h2, ?_, hk⟩
        rw [h5, Nat.mod_eq_of_lt h3, h4]
      | some c =>
        refine ((cachedBits hp f' c k k err le_rfl (pre := True)).pre_of ?_).post ?_
        · rintro ⟨_, h⟩; exact ⟨trivial, h c rfl⟩
        rintro bs ⟨⟨_, h⟩, _⟩ ⟨bl, N, h1, h2, h3, h4, h5, _⟩
        cases h
        exact ⟨bl, h1, h2, by rw [h5 rfl, h3], hk⟩
    cases f with
    | value x =>
      refine Sound.bind ((setCache _ _).pre_of fun _ => (constEntry x k hk).2) fun _ => Sound.pure ?_
      rintro ⟨⟨⟨⟨_, h⟩, _⟩, _⟩, _⟩
      refine ⟨bitsBE k x.val, (constEntry x k hk).1, by simp, ?_, hk⟩
      rw [natBE_bitsBE_of_lt (h x rfl)]
      exact cast_val x
    | ident v => exact gen _
    | add a b => exact gen _
    | sub a b => exact gen _
    | mul a b => exact gen _
  · have : Flt.assert (p := p) (Z := Z) (decide (k ≤ requiredBits p)) = Flt.panic := by
      unfold Flt.assert; simp [hk]
    rw [this]; exact Sound.panic_bind

theorem getBits_reduce (hp : 2 < p) (u : FlatU p) (from_ w mx n : ℕ) (err : RuntimeError)
    (hm : mx < 2 ^ from_) (hf : from_ < requiredBits p) (hw : w < requiredBits p) :
    Sound ρ L E (pre ∧ URel ρ w mx n u) (Flt.getBits u from_ w err : FlatM p Z _)
      (fun bs => ∃ bl, BitsRel ρ bs bl ∧ bl.length = w ∧ natBE bl = n) := by
  unfold Flt.getBits
  refine Sound.bind (assert _) fun _ => Sound.bind (assert _) fun _ => ?_
  obtain ⟨field, bits, ex⟩ := u
  have gen : Sound ρ L E (((pre ∧ URel ρ w mx n ⟨field, bits, ex⟩) ∧ decide (from_ ≤ requiredBits p) = true) ∧
      decide (w ≤ requiredBits p) = true)
      (match bits with
        | Option.some bs => Pure.pure bs
        | none => do
          let f ← Flt.unwrap field
          match ← Flt.getCache f with
          | Option.some entry => Flt.cachedBits entry (max from_ w) w err
          | none => Flt.freshBits f (max from_ w) w err : FlatM p Z _)
      (fun bs => ∃ bl, BitsRel ρ bs bl ∧ bl.length = w ∧ natBE bl = n) := by
    cases bits with
    | some bs => exact Sound.pure fun h => h.1.1.2.bits bs rfl
    | none =>
      refine Sound.bind (unwrap _) fun f => Sound.bind (getCache _) fun c => ?_
      cases c with
      | none =>
        refine (freshBits f (max from_ w) w err (le_max_right _ _) (by omega) (Or.inl (by omega))).post ?_
        rintro bs ⟨⟨⟨⟨⟨_, hu⟩, _⟩, _⟩, h⟩, _⟩ ⟨bl, N, h1, h2, h3, h4, h5⟩
        refine ⟨bl, h1, h2, ?_⟩
        have hN : N < p := lt_of_lt_of_le h3 (pow_le_p (by omega))
        rw [h5, ← val_eq_of_lt hN h4]
        exact (hu.field f h).1
      | some c =>
        refine ((cachedBits hp f c (max from_ w) w err (le_max_right _ _) (pre := True)).pre_of ?_).post ?_
        · rintro ⟨_, h⟩; exact ⟨trivial, h c rfl⟩
        rintro bs ⟨⟨⟨⟨⟨_, hu⟩, _⟩, _⟩, h⟩, _⟩ ⟨bl, N, h1, h2, h3, h4, _, h6⟩
        refine ⟨bl, h1, h2, ?_⟩
        rw [h4, ← val_eq_of_lt (h6 hw) h3]
        exact (hu.field f h).1
  cases field with
  | none => exact gen
  | some f =>
    cases f with
    | value x =>
      refine Sound.bind ((setCache _ _).pre_of fun _ => (constEntry x w hw.le).2) fun _ => Sound.pure ?_
      rintro ⟨⟨⟨⟨_, hu⟩, _⟩, _⟩, _⟩
      refine ⟨bitsBE w x.val, (constEntry x w hw.le).1, by simp, ?_⟩
      rw [natBE_bitsBE]
      exact (hu.field _ rfl).1
    | ident v => exact gen
    | add a b => exact gen
    | sub a b => exact gen
    | mul a b => exact gen

end Sound

theorem natBE_toBitsBe (c : ZMod p) : natBE (toBitsBe c) = c.val := by
  rw [toBitsBe_eq, natBE_bitsBE_of_lt (lt_trans (val_lt c) lt_two_pow_required)]

theorem length_toBitsBe (c : ZMod p) : (toBitsBe c).length = requiredBits p := by
  rw [toBitsBe_eq]; simp

theorem bits_le (c : ZMod p) : Fld.bits c ≤ requiredBits p := by
  rw [bits_eq]
  have h1 : Nat.size c.val ≤ requiredBits p := Nat.size_le.2 (lt_trans (val_lt c) lt_two_pow_required)
  have h2 := requiredBits_ge_two (p := p)
  omega

theorem val_lt_bits (c : ZMod p) : c.val < 2 ^ Fld.bits c := by
  rw [bits_eq]
  exact lt_of_lt_of_le (Nat.lt_size_self _) (Nat.pow_le_pow_right (by norm_num) (le_max_left _ _))

theorem val_sub_one {c : ZMod p} (h : c ≠ 0) : (c - 1).val = c.val - 1 := by
  have h1 : 1 ≤ c.val := by
    rcases Nat.eq_zero_or_pos c.val with h' | h'
    · exact absurd ((ZMod.val_eq_zero c).1 h') h
    · exact h'
  have : c - 1 = ((c.val - 1 : ℕ) : ZMod p) := by
    rw [Nat.cast_sub h1, cast_val]; simp
  rw [this, val_natCast_of_lt (by have := val_lt c; omega)]

theorem val_pos {c : ZMod p} (h : c ≠ 0) : 1 ≤ c.val := by
  rcases Nat.eq_zero_or_pos c.val with h' | h'
  · exact absurd ((ZMod.val_eq_zero c).1 h') h
  · exact h'

theorem val_max_sub (x : ZMod p) : (maxValue p - x).val = p - 1 - x.val := by
  have h := val_lt x
  have : maxValue p - x = ((p - 1 - x.val : ℕ) : ZMod p) := by
    rw [Nat.cast_sub (by omega), Nat.cast_sub (p_pos), cast_val]
    unfold maxValue; simp
  rw [this, val_natCast_of_lt (by omega)]

theorem val_two_pow {k : ℕ} (h : 2 ^ k < p) : ((2 : ZMod p) ^ k).val = 2 ^ k := by
  have : (2 : ZMod p) ^ k = ((2 ^ k : ℕ) : ZMod p) := by push_cast; rfl
  rw [this, val_natCast_of_lt h]

namespace Sound

/-- `enforce_constant_le_check`. -/
theorem enforceConstantLe (hp : 2 < p) (e : FlatExpr (ZMod p)) (c : ZMod p) (err : RuntimeError) :
    Sound ρ L E (pre ∧ ∀ x, e = .value x → x.val < 2 ^ Fld.bits c)
      (Flt.enforceConstantLe e c err : FlatM p Z _) (fun _ => (e.val ρ).val ≤ c.val) := by
  unfold Flt.enforceConstantLe
  refine Sound.bind (getBits_exact hp e _ err) fun bs => ?_
  have hcb : natBE ((toBitsBe c).drop (requiredBits p - Fld.bits c)) = c.val := by
    rw [natBE_drop, natBE_toBitsBe, length_toBitsBe]
    have := bits_le c
    rw [Nat.mod_eq_of_lt]
    have h : requiredBits p - (requiredBits p - Fld.bits c) = Fld.bits c := by omega
    rw [h]; exact val_lt_bits c
  have hl : ((toBitsBe c).drop (requiredBits p - Fld.bits c)).length ≤ requiredBits p := by
    rw [List.length_drop, length_toBitsBe]; omega
  by_cases h : ∃ bl, BitsRel ρ bs bl
  · obtain ⟨bl, hbl⟩ := h
    refine (enforceLeBits hp bs _ bl err hl (pre := True)).conseq (fun _ => ⟨trivial, hbl⟩) (fun _ h => h) ?_
    rintro _ ⟨_, bl', h1, h2, h3, _⟩ ⟨h4, _⟩
    cases hbl.unique h1
    rw [hcb] at h4
    rw [val_eq_of_lt (lt_of_le_of_lt h4 (val_lt c)) h3]
    exact h4
  · exact (enforceLeBits hp bs _ [] err hl (pre := False)).conseq (fun h' => absurd ⟨_, h'.2.choose_spec.1⟩ h)
      (fun _ h => h) (fun _ h' => absurd ⟨_, h'.2.choose_spec.1⟩ h)

/-- `enforce_constant_lt_check`. -/
theorem enforceConstantLt (hp : 2 < p) (e : FlatExpr (ZMod p)) (c : ZMod p) (err : RuntimeError) :
    Sound ρ L E (pre ∧ ∀ x, e = .value x → x.val < 2 ^ Fld.bits (c - 1))
      (Flt.enforceConstantLt e c err : FlatM p Z _) (fun _ => (e.val ρ).val < c.val) := by
  unfold Flt.enforceConstantLt
  refine Sound.ite (fun h => ?_) (fun h => ?_)
  · refine (emit _).post fun _ _ hs => ?_
    simp [FlatExpr.val] at hs
  · refine (enforceConstantLe hp e (c - 1) err).post fun _ _ hs => ?_
    rw [val_sub_one h] at hs
    have := val_pos h
    omega

/-- `constant_field_le_check`. -/
theorem constantFieldLe (hp : 2 < p) (e : FlatExpr (ZMod p)) (c : ZMod p) :
    Sound ρ L E pre (Flt.constantFieldLe e c : FlatM p Z _)
      (fun r => r.val ρ = boolF (decide ((e.val ρ).val ≤ c.val))) := by
  unfold Flt.constantFieldLe
  refine Sound.bind ((getBits_exact hp e _ _ (pre := pre)).pre_of ?_) fun bs => ?_
  · exact fun h => ⟨h, fun x _ => lt_trans (val_lt x) lt_two_pow_required⟩
  have hl : (toBitsBe (maxValue p)).length ≤ requiredBits p := by rw [length_toBitsBe]
  refine Sound.assume ?_ ?_
  · rintro ⟨_, bl, h1, h2, h3, _⟩
    refine Sound.bind ((enforceLeBits hp bs _ bl .le hl (pre := True)).pre_of fun _ => ⟨trivial, h1⟩) fun _ =>
      Sound.bind ((constantLeCheck bs (toBitsBe c) bl (pre := _)).pre_of fun h => ⟨h, h1⟩) fun conds =>
      (eqCheck _ _).post ?_
    rintro r ⟨⟨_, h4, _⟩, _, cl, h5, h6, h7⟩ hr
    rw [hr]
    congr 1
    rw [natBE_toBitsBe, val_maxValue] at h4
    have hpp := p_pos (p := p)
    have hv := val_eq_of_lt (p := p) (by omega) h3
    rw [hv]
    have hrb := requiredBits_lt hp
    rw [length_toBitsBe] at h6
    have hc := List.count_le_length (a := true) (l := cl)
    rw [natBE_toBitsBe] at h7
    rw [decide_eq_decide, ← h7, ← count_true_eq_length, val_sumFold_bits h5, h5.length]
    simp only [FlatExpr.val]
    constructor
    · intro h; exact (natCast_inj_of_lt (p := p) (by omega) (by omega) h).symm
    · intro h; rw [h]
  · exact Sound.bind ((enforceLeBits hp bs _ [] .le hl (pre := False)).pre_of fun h => h.elim) fun _ =>
      Sound.bind ((constantLeCheck bs (toBitsBe c) [] (pre := False)).pre_of fun h => h.1.elim) fun conds =>
      (eqCheck _ _).post fun _ h => h.1.1.elim

/-- `constant_lt_check`. -/
theorem constantLt (hp : 2 < p) (e : FlatExpr (ZMod p)) (c : ZMod p) :
    Sound ρ L E pre (Flt.constantLt e c : FlatM p Z _)
      (fun r => r.val ρ = boolF (decide ((e.val ρ).val < c.val))) := by
  unfold Flt.constantLt
  refine Sound.ite (fun h => Sound.pure fun _ => ?_) (fun h => (constantFieldLe hp e _).post fun _ _ hr => ?_)
  · subst h; simp [FlatExpr.val, boolF]
  · rw [hr, val_sub_one h]
    have := val_pos h
    congr 1
    rw [decide_eq_decide]; omega

/-- The dynamic case of `lt_check`. -/
theorem ltDynamic (hp : 2 < p) (l r : FlatExpr (ZMod p)) (w : ℕ) (hw : w + 1 < requiredBits p) :
    Sound ρ L E (pre ∧ (l.val ρ).val < 2 ^ w ∧ (r.val ρ).val < 2 ^ w) (Flt.ltDynamic l r w : FlatM p Z _)
      (fun e => e.val ρ = boolF (decide ((l.val ρ).val < (r.val ρ).val))) := by
  unfold Flt.ltDynamic
  refine Sound.bind (define l) fun x => Sound.bind (define r) fun y =>
    Sound.bind ((getBits_exact hp _ _ _ (pre := _)).pre_of fun h => ⟨h, fun x h => by cases h⟩) fun bits => ?_
  cases bits with
  | nil => exact Sound.panic
  | cons b bits =>
    refine Sound.pure ?_
    rintro ⟨⟨⟨⟨_, hl, hr⟩, hx⟩, hy⟩, bl, h1, h2, h3, _⟩
    cases bl with
    | nil => simp at h2
    | cons c bl =>
      rw [bitsRel_cons] at h1
      have hlen : bl.length = w := by simpa using h2
      have hlt := natBE_lt bl
      rw [hlen] at hlt
      simp only [FlatExpr.val, hx, hy] at h3 ⊢
      have hcast : (2 : ZMod p) ^ w + (l.val ρ - r.val ρ) =
          ((2 ^ w + (l.val ρ).val - (r.val ρ).val : ℕ) : ZMod p) := by
        rw [Nat.cast_sub (by omega)]
        push_cast
        rw [cast_val, cast_val]; ring
      have hpow : 2 ^ (w + 1) ≤ p := pow_le_p (by omega)
      have hlt2 := natBE_lt (c :: bl)
      rw [h2] at hlt2
      rw [hcast] at h3
      have h4 := natCast_inj_of_lt (p := p) (by omega) (by rw [pow_succ] at hpow; omega) h3
      simp only [natBE, hlen] at h4
      rw [h1.1]
      cases c
      · have : (l.val ρ).val < (r.val ρ).val := by simp at h4; omega
        simp [this, boolF]
      · have : ¬ (l.val ρ).val < (r.val ρ).val := by simp at h4; omega
        simp [this, boolF]

/-- `lt_check`. -/
theorem ltCheck (hp : 2 < p) (l r : FlatExpr (ZMod p)) (w : ℕ) (hw : w + 1 < requiredBits p) :
    Sound ρ L E (pre ∧ ((∀ c, l ≠ .value c) → (∀ c, r ≠ .value c) →
        (l.val ρ).val < 2 ^ w ∧ (r.val ρ).val < 2 ^ w)) (Flt.ltCheck l r w : FlatM p Z _)
      (fun e => e.val ρ = boolF (decide ((l.val ρ).val < (r.val ρ).val))) := by
  unfold Flt.ltCheck
  split
  · exact constantLt hp _ _
  · refine (constantLt hp _ _).post fun e _hh h => ?_
    rw [h]
    congr 1
    rename_i c _
    have h1 := val_lt (r.val ρ)
    have h2 := val_lt c
    rw [decide_eq_decide]
    simp only [FlatExpr.val, val_max_sub]
    omega
  · rename_i h1 h2
    exact (ltDynamic hp l r w hw (pre := True)).pre_of fun h => ⟨trivial, h.2 h1 h2⟩

/-- `le_check`. -/
theorem leCheck (hp : 2 < p) (l r : FlatExpr (ZMod p)) (w : ℕ) (hw : w + 1 < requiredBits p) :
    Sound ρ L E (pre ∧ ((∀ c, l ≠ .value c) → (∀ c, r ≠ .value c) →
        (l.val ρ).val < 2 ^ w ∧ (r.val ρ).val < 2 ^ w)) (Flt.leCheck l r w : FlatM p Z _)
      (fun e => e.val ρ = boolF (decide ((l.val ρ).val ≤ (r.val ρ).val))) := by
  unfold Flt.leCheck
  refine Sound.bind (eqCheck l r) fun e => Sound.bind ((ltCheck hp l r w hw (pre := True)).pre_of
    fun h => ⟨trivial, h.1.2⟩) fun t => Sound.pure ?_
  rintro ⟨⟨_, h1⟩, h2⟩
  simp only [FlatExpr.val, h1, h2]
  by_cases h : l.val ρ = r.val ρ
  · simp [h, boolF]
  · have h' : (l.val ρ).val ≠ (r.val ρ).val := fun h' => h (ZMod.val_injective p h')
    by_cases h3 : (l.val ρ).val < (r.val ρ).val
    · simp [h, h3, h3.le, boolF]
    · have : ¬ (l.val ρ).val ≤ (r.val ρ).val := by omega
      simp [h, h3, this, boolF]

/-- The range checks of a dynamic comparison. -/
theorem enforceSafe (hp : 2 < p) (l r : FlatExpr (ZMod p)) (hl : ∀ c, l ≠ .value c) (hr : ∀ c, r ≠ .value c) :
    Sound ρ L E pre (Flt.enforceSafe l r : FlatM p Z _)
      (fun _ => (l.val ρ).val < 2 ^ (requiredBits p - 2) ∧ (r.val ρ).val < 2 ^ (requiredBits p - 2)) := by
  have h2 := requiredBits_ge_two (p := p)
  have hv : ((2 : ZMod p) ^ (requiredBits p - 2)).val = 2 ^ (requiredBits p - 2) := by
    apply val_two_pow
    have := two_pow_le (p := p)
    have h3 : 2 ^ (requiredBits p - 1) = 2 * 2 ^ (requiredBits p - 2) := by
      rw [← pow_succ']; congr 1; omega
    have := Nat.one_le_two_pow (n := requiredBits p - 2)
    omega
  unfold Flt.enforceSafe
  refine Sound.bind ((enforceConstantLt hp l _ _ (pre := True)).pre_of fun _ => ⟨trivial, fun x h => absurd h (hl x)⟩)
    fun _ => ((enforceConstantLt hp r _ _ (pre := True)).pre_of fun _ => ⟨trivial, fun x h => absurd h (hr x)⟩).post ?_
  rintro _ ⟨_, h3⟩ h4
  rw [hv] at h3 h4
  exact ⟨h3, h4⟩

/-- A comparison of field elements. -/
theorem fieldLtCheck (hp : 2 < p) (l r : FlatExpr (ZMod p)) :
    Sound ρ L E pre (Flt.fieldLtCheck l r : FlatM p Z _)
      (fun e => e.val ρ = boolF (decide ((l.val ρ).val < (r.val ρ).val)) ∧
        ((∃ c, l = .value c) ∨ (∃ c, r = .value c) ∨
          ((l.val ρ).val < 2 ^ (requiredBits p - 2) ∧ (r.val ρ).val < 2 ^ (requiredBits p - 2)))) := by
  unfold Flt.fieldLtCheck
  split
  · exact (constantLt hp _ _).post fun e _ h => ⟨h, Or.inr (Or.inl ⟨_, rfl⟩)⟩
  · refine (constantLt hp _ _).post fun e _hh h => ⟨?_, Or.inl ⟨_, rfl⟩⟩
    rw [h]
    congr 1
    rename_i c _
    have h1 := val_lt (r.val ρ)
    have h2 := val_lt c
    rw [decide_eq_decide]
    simp only [FlatExpr.val, val_max_sub]
    omega
  · rename_i h1 h2
    have h3 := requiredBits_ge_two (p := p)
    refine Sound.bind (enforceSafe hp l r h1 h2) fun _ => ((ltCheck hp l r _ (by omega) (pre := True)).pre_of
      fun h => ⟨trivial, fun _ _ => h.2⟩).post fun e h he => ⟨he, Or.inr (Or.inr h.2)⟩

end Sound
end Zok
