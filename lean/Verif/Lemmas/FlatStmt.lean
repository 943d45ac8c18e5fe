import Verif.Lemmas.FlatAssert

/-
Soundness of the flattening of statements.
-/

set_option linter.unusedSectionVars false
set_option linter.unusedVariables false

namespace Zok
variable {p : ℕ} {Z : Type} [Fact p.Prime]
variable {ρ : Assignment (ZMod p)} {L : ZId → Option Variable} {E pre : Prop} {Γ : Ctx} {env : ZEnv p}

open FlatExpr Fld

/-- The value `v` of kind `k` is represented by the field element `x`. -/
def KVal : Kind → ZVal p → ZMod p → Prop
  | .field, v, x => v = .field x
  | .bool, v, x => ∃ b, v = .bool b ∧ x = boolF b
  | .uint w mx, v, x => ∃ n, v = .uint w n ∧ n < 2 ^ w ∧ x.val % 2 ^ w = n ∧ x.val ≤ mx

theorem varOk_iff {x : ZId} {y : Variable} {k : Kind} : VarOk env ρ x y k ↔ ∃ v, env x = some v ∧ KVal k v (ρ y) := by
  cases k with
  | field => simp [VarOk, KVal]
  | bool =>
    simp only [VarOk, KVal]
    constructor
    · rintro ⟨b, h1, h2⟩; exact ⟨_, h1, b, rfl, h2⟩
    · rintro ⟨_, h1, b, rfl, h2⟩; exact ⟨b, h1, h2⟩
  | uint w mx =>
    simp only [VarOk, KVal]
    constructor
    · rintro ⟨n, h1, h2⟩; exact ⟨_, h1, n, rfl, h2⟩
    · rintro ⟨_, h1, n, rfl, h2⟩; exact ⟨n, h1, h2⟩

/-- Extend the represented variables. -/
theorem EnvOk.set {σ : ZState p} (h : EnvOk Γ σ.env L ρ) {x : ZId} {k : Kind} {v : ZVal p} {y : Variable}
    (hk : KVal k v (ρ y)) :
    EnvOk (Γ.set x k) (σ.set x v).env (fun z => if z = x then some y else L z) ρ := by
  intro z k' hz
  simp only [Ctx.set] at hz
  by_cases hzx : z = x
  · subst hzx
    simp only [if_true, Option.some.injEq] at hz
    subst hz
    exact ⟨y, by simp, varOk_iff.2 ⟨v, by simp [ZState.set], hk⟩⟩
  · simp only [hzx, if_false] at hz
    obtain ⟨y', h1, h2⟩ := h z k' hz
    obtain ⟨v', h3, h4⟩ := varOk_iff.1 h2
    exact ⟨y', by simp [hzx, h1], varOk_iff.2 ⟨v', by simp [ZState.set, hzx, h3], h4⟩⟩

/-! ### Triples on states -/

/-- `E` escapes; otherwise `J` holds after the run. -/
def Trp (ρ : Assignment (ZMod p)) {α : Type} (E : Prop) (I : FlState p Z → Prop) (m : FlatM p Z α)
    (J : α → FlState p Z → Prop) : Prop :=
  ∀ st a st', m st = some (a, st') → I st → SatF ρ st'.out → st'.clash = false → E ∨ J a st'

namespace Trp
variable {α β : Type} {I : FlState p Z → Prop} {m : FlatM p Z α} {J : α → FlState p Z → Prop}
  {f : α → FlatM p Z β} {K : β → FlState p Z → Prop}

theorem bind (h : Trp ρ E I m J) (hm : ∀ a, MonoS (f a)) (hf : ∀ a, Trp ρ E (J a) (f a) K) :
    Trp ρ E I (m >>= f) K := by
  intro st b st' hb hI hs hc
  obtain ⟨a, st1, h1, h2⟩ := FlatM.bind_some hb
  obtain ⟨⟨o, ho⟩, hcl, _⟩ := hm a _ _ _ h2
  rcases h _ _ _ h1 hI (by rw [ho] at hs; exact hs.left) (hcl hc) with he | hJ
  · exact Or.inl he
  · exact hf a _ _ _ h2 hJ hs hc

theorem of_sound (h : ∀ st, I st → CacheOk ρ st ∧ Sound ρ st.layout E True m (fun a => ∀ st', CacheOk ρ st' →
    st'.layout = st.layout → J a st')) : Trp ρ E I m J := by
  intro st a st' hm hI hs hc
  obtain ⟨h1, h2⟩ := h st hI
  obtain ⟨_, _, hL, h3⟩ := h2 st a st' rfl hm
  rcases h3 trivial h1 hs hc with he | ⟨hc', hJ⟩
  · exact Or.inl he
  · exact Or.inr (hJ st' hc' hL)

theorem conseq {E' : Prop} {I' : FlState p Z → Prop} {J' : α → FlState p Z → Prop} (h : Trp ρ E I m J)
    (hI : ∀ st, I' st → I st) (hE : E → E') (hJ : ∀ a st, J a st → J' a st) : Trp ρ E' I' m J' :=
  fun st a st' hm hI' hs hc => (h st a st' hm (hI st hI') hs hc).imp hE (hJ a st')

/-- Bind an existential out of the invariant. -/
theorem ex {ι : Type} {I : ι → FlState p Z → Prop} (h : ∀ i, Trp ρ E (I i) m J) :
    Trp ρ E (fun st => ∃ i, I i st) m J := fun st a st' hm ⟨i, hi⟩ hs hc => h i st a st' hm hi hs hc

theorem pure {a : α} (h : ∀ st, I st → J a st) : Trp ρ E I (Pure.pure a : FlatM p Z α) J := by
  intro st b st' hm hI _ _
  have : some (a, st) = some (b, st') := hm
  cases this
  exact Or.inr (h st hI)

end Trp

/-- The cache is correct and the context represented. -/
structure StOk (ρ : Assignment (ZMod p)) (Γ : Ctx) (σ : ZState p) (st : FlState p Z) : Prop where
  cache : CacheOk ρ st
  env : EnvOk Γ σ.env st.layout ρ
  outs : ∀ vs, σ.outs = some vs → ∀ i v, vs[i]? = some v → ρ (Variable.pub i) = v.enc

theorem CacheOk.set {st : FlState p Z} (h : CacheOk ρ st) {e : FlatExpr (ZMod p)} {c : CacheEntry p}
    (he : EntryOk ρ e c) {st' : FlState p Z} (h' : st'.cache = fun e' => if e' = e then some c else st.cache e') :
    CacheOk ρ st' := by
  intro f c' hf
  rw [h'] at hf
  by_cases hfe : f = e
  · subst hfe; simp only [if_true] at hf; cases hf; exact he
  · simp only [hfe, if_false] at hf; exact h f c' hf

/-- Binding one variable. -/
theorem trp_bindVar {σ : ZState p} {x : ZId} {f : FlatExpr (ZMod p)} {k : Kind} {v : ZVal p}
    (hk : KVal k v (f.val ρ)) :
    Trp ρ E (StOk ρ Γ σ) (Flt.bindVar x f : FlatM p Z _)
      (fun y st => StOk ρ (Γ.set x k) (σ.set x v) st ∧ ρ y = f.val ρ) := by
  unfold Flt.bindVar
  split
  · rename_i w
    intro st a st' hm hI hs hc
    obtain ⟨_, st1, h1, h2⟩ := FlatM.bind_some hm
    cases h1
    have : some (w, _) = some (a, st') := h2
    cases this
    exact Or.inr ⟨⟨hI.cache, hI.env.set hk, hI.outs⟩, rfl⟩
  · intro st a st' hm hI hs hc
    obtain ⟨y, st1, h1, h2⟩ := FlatM.bind_some hm
    cases h1
    obtain ⟨_, st2, h3, h4⟩ := FlatM.bind_some h2
    cases h3
    have : some (Variable.new st.next, _) = some (a, st') := h4
    cases this
    have hv : ρ (Variable.new st.next) = f.val ρ := by
      have := hs (.definition (Variable.new st.next) f) (by simp)
      simpa using this
    refine Or.inr ⟨⟨hI.cache, hI.env.set ?_, hI.outs⟩, hv⟩
    rw [hv]; exact hk

/-- The flattened results represent the values. -/
def ResOk (ρ : Assignment (ZMod p)) (k : Kind) (v : ZVal p) (u : FlatU p) : Prop :=
  (∀ f, u.field = some f → KVal k v (f.val ρ)) ∧
    (u.field = none → ∀ bs, u.bits = some bs → KVal k v ((flatFromBits bs).val ρ))

/-- The flattened results represent the values. -/
def ResOks (ρ : Assignment (ZMod p)) : List Kind → List (ZVal p) → List (FlatU p) → Prop
  | [], [], [] => True
  | k :: ks, v :: vs, u :: us => ResOk ρ k v u ∧ ResOks ρ ks vs us
  | _, _, _ => False

theorem ResOks.length {ks : List Kind} {vs : List (ZVal p)} {us : List (FlatU p)} (h : ResOks ρ ks vs us) :
    ks.length = us.length ∧ vs.length = us.length := by
  induction ks generalizing vs us with
  | nil => cases vs <;> cases us <;> simp_all [ResOks]
  | cons k ks ih =>
    cases vs <;> cases us <;> simp_all [ResOks]
    exact ih h.2

theorem sound_getField {k : Kind} {v : ZVal p} {u : FlatU p} (h : ResOk ρ k v u) :
    Sound ρ L E True (Flt.getField u : FlatM p Z _) (fun f => KVal k v (f.val ρ)) := by
  unfold Flt.getField
  obtain ⟨field, bits, ex⟩ := u
  cases field with
  | some f => exact Sound.pure fun _ => h.1 f rfl
  | none =>
    cases bits with
    | none => exact Sound.panic
    | some bs => exact Sound.pure fun _ => h.2 rfl bs rfl

theorem trp_of_soundP {α : Type} {σ : ZState p} {m : FlatM p Z α} {P : α → Prop}
    (h : ∀ L, EnvOk Γ σ.env L ρ → Sound ρ L E True m P) :
    Trp ρ E (StOk ρ Γ σ) m (fun a st => StOk ρ Γ σ st ∧ P a) :=
  Trp.of_sound fun st hI => ⟨hI.cache, (h _ hI.env).post fun a _ hP st' hc hL =>
    ⟨⟨hc, by rw [hL]; exact hI.env, hI.outs⟩, hP⟩⟩

theorem Trp.pull {α : Type} {I : FlState p Z → Prop} {P : Prop} {m : FlatM p Z α} {J : α → FlState p Z → Prop}
    (h : P → Trp ρ E I m J) : Trp ρ E (fun st => I st ∧ P) m J := fun st a st' hm hI hs hc => h hI.2 st a st' hm hI.1 hs hc

/-- Binding a list of variables. -/
theorem trp_bindVars {σ : ZState p} {xs : List ZId} {us : List (FlatU p)} {ks : List Kind} {vs : List (ZVal p)}
    (hk : ResOks ρ ks vs us) (hl : xs.length = us.length) :
    Trp ρ E (StOk ρ Γ σ) (Flt.bindVars xs us : FlatM p Z _)
      (fun _ st => StOk ρ (Γ.setAll xs ks) (σ.setAll xs vs) st) := by
  induction xs generalizing us ks vs Γ σ with
  | nil =>
    cases us with
    | nil =>
      have := hk.length
      have h1 : ks = [] := List.eq_nil_of_length_eq_zero (by simpa using this.1)
      have h2 : vs = [] := List.eq_nil_of_length_eq_zero (by simpa using this.2)
      subst h1 h2
      rw [Flt.bindVars]
      · exact Trp.pure fun st h => by simpa [Ctx.setAll, ZState.setAll] using h
      · simp
    | cons => simp at hl
  | cons x xs ih =>
    cases us with
    | nil => simp at hl
    | cons u us =>
      cases ks with
      | nil => cases vs <;> simp [ResOks] at hk
      | cons k ks =>
        cases vs with
        | nil => simp [ResOks] at hk
        | cons v vs =>
          rw [ResOks] at hk
          rw [Flt.bindVars]
          refine Trp.bind (trp_of_soundP fun L _ => sound_getField hk.1) (fun f => ?_) fun f => ?_
          · exact MonoS.bind (MonoS.bindVar _ _) fun _ => MonoS.bind (MonoS.bindVars _ _) fun _ => (Mono.pure _).toS
          refine Trp.pull fun hf => Trp.bind (trp_bindVar hf) (fun _ => MonoS.bind (MonoS.bindVars _ _)
            fun _ => (Mono.pure _).toS) fun y => ?_
          refine Trp.pull fun _ => Trp.bind (ih hk.2 (by simpa using hl)) (fun _ => (Mono.pure _).toS) fun ys => ?_
          exact Trp.pure fun st h => by simpa [Ctx.setAll, ZState.setAll] using h

/-! ### Embedded functions -/

theorem evalZs_bools (es : List (BExpr (ZMod p))) :
    evalZs env (es.map .bool) = (evalBs env es >>= fun bl => .ok (bl.map .bool)) := by
  induction es with
  | nil => simp [evalZs, evalBs, exc_ok]
  | cons e es ih =>
    rw [List.map_cons, evalZs, ih, evalBs, evalZ]
    cases evalB env e with
    | error f => simp [exc_err]
    | ok b =>
      simp only [exc_ok]
      cases evalBs env es with
      | error f => simp [exc_err]
      | ok bl => simp [exc_ok]

theorem sound_flattenZs_bools (hp : 2 < p) (henv : EnvOk Γ env L ρ) (es : List (BExpr (ZMod p))) (h : OkBs Γ es) :
    Sound ρ L (evalBs env es = .error .divZero) True (Flt.flattenZs (es.map .bool) : FlatM p Z _)
      (fun fs => ∃ bl, evalBs env es = .ok bl ∧ BitsRel ρ fs bl) := by
  induction es with
  | nil => exact Sound.pure fun _ => ⟨[], by rw [evalBs], BitsRel.nil⟩
  | cons e es ih =>
    rw [OkBs] at h
    rw [List.map_cons, Flt.flattenZs]
    refine Sound.bind (P := fun u => ∃ f b, u = Flt.withField f ∧ evalB env e = .ok b ∧ f.val ρ = boolF b) ?_ fun u => ?_
    · rw [Flt.flattenZ]
      refine Sound.bind ((sndB_of_ok hp henv h.1).escape fun _ h => by rw [evalBs, h]; rfl) fun f => Sound.pure ?_
      rintro ⟨_, b, h1, h2⟩; exact ⟨f, b, rfl, h1, h2⟩
    · refine Sound.bind (P := fun f => u = Flt.withField f) ?_ fun f => Sound.bind ((ih h.2).escape ?_) fun fs =>
        Sound.pure ?_
      · unfold Flt.getField
        obtain ⟨field, bits, ex⟩ := u
        cases field with
        | some g =>
          refine Sound.pure fun h => ?_
          obtain ⟨_, f, b, h1, _⟩ := h
          cases h1; rfl
        | none =>
          cases bits with
          | none => exact Sound.panic
          | some bs => exact Sound.pure fun h => by obtain ⟨_, f, b, h1, _⟩ := h; cases h1
      · rintro ⟨⟨_, f, b, _, h1, _⟩, _⟩ h2; rw [evalBs, h1, exc_ok, h2]; rfl
      · rintro ⟨⟨⟨_, f, b, h0, h1, h2⟩, h3⟩, bl, h4, h5⟩
        rw [h0] at h3; cases h3
        exact ⟨b :: bl, by rw [evalBs, h1, exc_ok, h4, exc_ok], BitsRel.cons h2 h5⟩

theorem sound_flattenArgs_bools (hp : 2 < p) (henv : EnvOk Γ env L ρ) (es : List (BExpr (ZMod p))) (h : OkBs Γ es) :
    Sound ρ L (evalBs env es = .error .divZero) True (Flt.flattenArgs (es.map .bool) : FlatM p Z _)
      (fun us => ∃ t : List (FlatExpr (ZMod p)) × List Bool, us = t.1.map Flt.withField ∧ evalBs env es = .ok t.2 ∧
        BitsRel ρ t.1 t.2) := by
  induction es with
  | nil => exact Sound.pure fun _ => ⟨([], []), by simp, by rw [evalBs], BitsRel.nil⟩
  | cons e es ih =>
    rw [OkBs] at h
    rw [List.map_cons, Flt.flattenArgs]
    refine Sound.bind (P := fun _ => True) (Sound.pure fun _ => trivial) fun _ => ?_
    refine Sound.bind (P := fun u => ∃ f b, u = Flt.withField f ∧ evalB env e = .ok b ∧ f.val ρ = boolF b) ?_ fun u => ?_
    · rw [Flt.flattenZ]
      refine Sound.bind ((sndB_of_ok hp henv h.1).escape fun _ h => by rw [evalBs, h]; rfl) fun f => Sound.pure ?_
      rintro ⟨_, b, h1, h2⟩; exact ⟨f, b, rfl, h1, h2⟩
    · refine Sound.bind ((ih h.2).escape ?_) fun fs => Sound.pure ?_
      · rintro ⟨_, f, b, _, h1, _⟩ h2; rw [evalBs, h1, exc_ok, h2]; rfl
      · rintro ⟨⟨_, f, b, h0, h1, h2⟩, ⟨fs', bl⟩, h3, h4, h5⟩
        refine ⟨(f :: fs', b :: bl), by simp [h0, h3], by rw [evalBs, h1, exc_ok, h4, exc_ok], BitsRel.cons h2 h5⟩

theorem getFields_withField (fs : List (FlatExpr (ZMod p))) :
    (Flt.getFields (fs.map Flt.withField) : FlatM p Z _) = pure fs := by
  induction fs with
  | nil => rfl
  | cons f fs ih => rw [List.map_cons, Flt.getFields, ih]; rfl

theorem sound_constBools (cs : List (FlatExpr (ZMod p))) : Sound ρ L E pre (Flt.constBools cs : FlatM p Z _)
    (fun bl => cs.map (FlatExpr.val ρ) = bl.map boolF) := by
  induction cs generalizing pre with
  | nil => exact Sound.pure fun _ => rfl
  | cons c cs ih =>
    rw [Flt.constBools]
    refine Sound.bind (P := fun b => c.val ρ = boolF b) ?_ fun b => Sound.bind ih fun bs => Sound.pure ?_
    · unfold Flt.constBool
      split
      · refine Sound.ite (fun h => Sound.pure fun _ => by simp [FlatExpr.val, boolF, h]) fun _ =>
          Sound.ite (fun h => Sound.pure fun _ => by simp [FlatExpr.val, boolF, h]) fun _ => Sound.panic
      · exact Sound.panic
    · rintro ⟨⟨_, h1⟩, h2⟩; simp [h1, h2]

theorem resOks_bits {fs : List (FlatExpr (ZMod p))} {bl : List Bool} (h : BitsRel ρ fs bl) :
    ResOks ρ (List.replicate bl.length .bool) (bl.map .bool) (fs.map Flt.withField) := by
  induction fs generalizing bl with
  | nil =>
    have : bl = [] := List.eq_nil_of_length_eq_zero (by have := h.length; simpa using this.symm)
    subst this; simp [ResOks]
  | cons f fs ih =>
    cases bl with
    | nil => have := h.length; simp at this
    | cons b bl =>
      rw [bitsRel_cons] at h
      simp only [List.length_cons, List.replicate_succ, List.map_cons, ResOks]
      refine ⟨⟨?_, ?_⟩, ih h.2⟩
      · intro g hg; cases hg; exact ⟨b, rfl, h.1⟩
      · intro hn; cases hn

/-- Faults of the evaluation of an embedded call after which the circuit gives no guarantee. -/
def EmbedEsc (env : ZEnv p) (Z : Type) (embed : Embed) (g : List ℕ) (args : List (ZExpr (ZMod p))) : Prop :=
  evalZs env args = .error .divZero ∨
    ∃ vs, evalZs env args = .ok vs ∧ EmbedRes (Oracle.any p Z) embed g vs (.error .notBool)

theorem evalZs_single (e : ZExpr (ZMod p)) : evalZs env [e] = (evalZ env e >>= fun v => .ok [v]) := by
  rw [evalZs]
  cases evalZ env e with
  | error f => rfl
  | ok v => simp [exc_ok, evalZs]

theorem sound_embedCall (hp : 2 < p) (henv : EnvOk Γ env L ρ) {embed : Embed} {g : List ℕ}
    {args : List (ZExpr (ZMod p))} {ks : List Kind} (h : OkEmbed Γ embed g args ks) :
    Sound ρ L (EmbedEsc env Z embed g args) True (Flt.embedCall embed g args : FlatM p Z _)
      (fun us => ∃ vs rs, evalZs env args = .ok vs ∧ EmbedRes (Oracle.any p Z) embed g vs (.ok rs) ∧
        ResOks ρ ks rs us) := by
  unfold Flt.embedCall
  cases h with
  | @cast _ e he =>
    have hs := sndF_of_ok (Z := Z) hp henv he
    simp only [Flt.flattenArgs, Flt.assertArg, Flt.flattenZ, pure_bind, bind_assoc]
    refine Sound.bind (hs.escape fun _ h => Or.inl (by rw [evalZs_single, evalZ, h]; rfl)) fun f => ?_
    simp only [List.getLast?_singleton, Flt.unwrap, pure_bind]
    by_cases hb : ∃ b, f.val ρ = boolF b
    · obtain ⟨b, hb⟩ := hb
      refine Sound.pure ?_
      rintro ⟨_, h, _⟩
      refine ⟨[.field (f.val ρ)], [.bool b], by rw [evalZs_single, evalZ, h]; rfl, by rw [hb]; exact .castBool _ _,
        ⟨?_, ?_⟩, trivial⟩
      · intro f' hf; cases hf; exact ⟨b, rfl, hb⟩
      · intro h; cases h
    · refine Sound.assume (pre := (True ∧ evalF env e = .ok (f.val ρ) ∧ _)) ?_ ?_
      · rintro ⟨_, h, _⟩
        intro st a st' hL hm
        have : some (_, st) = some (a, st') := hm
        cases this
        refine ⟨⟨[], by simp⟩, id, hL, fun _ _ _ _ => Or.inl (Or.inr ⟨[.field (f.val ρ)], ?_, .castFault _ _ ?_ ?_⟩)⟩
        · rw [evalZs_single, evalZ, h]; rfl
        · intro h0; exact hb ⟨false, by simp [boolF, h0]⟩
        · intro h0; exact hb ⟨true, by simp [boolF, h0]⟩
      · intro st a st' hL hm
        have : some (_, st) = some (a, st') := hm
        cases this
        exact ⟨⟨[], by simp⟩, id, hL, fun h => h.elim⟩
  | @toBits _ w e he hw hr =>
    have hs := sndU_of_ok (Z := Z) hp henv he
    simp only [Flt.flattenArgs, Flt.flattenZ, pure_bind, bind_assoc]
    refine Sound.bind (P := fun _ => True) ?_ fun _ => ?_
    · unfold Flt.assertArg
      exact Sound.bind (Sound.unwrap _) fun _ => (Sound.assert _).post fun _ _ _ => trivial
    refine Sound.bind (hs.escape fun _ h => Or.inl (by rw [evalZs_single, evalZ, h]; rfl)) fun u => ?_
    simp only [List.getLast?_singleton]
    refine Sound.bind (Sound.unwrap _) fun u' => Sound.bind (Sound.unwrap _) fun bs => Sound.bind (Sound.assert _)
      fun _ => Sound.pure ?_
    rintro ⟨⟨⟨⟨_, n, h1, h2, _⟩, hu⟩, hb⟩, hl⟩
    cases hu
    obtain ⟨bl, b1, b2, b3⟩ := h2.bits bs hb
    subst hw
    have hbl : bl = bitsBE e.width n := by
      rw [← b3, ← b2, bitsBE_natBE]
    refine ⟨[.uint e.width n], (bitsBE e.width n).map .bool, by rw [evalZs_single, evalZ, h1]; rfl, .toBits _ _ _, ?_⟩
    have := resOks_bits b1
    rw [b2, hbl] at this
    exact this
  | @fromBits _ es he h1 h2 =>
    refine Sound.bind_ex ((sound_flattenArgs_bools hp henv es he).escape fun _ h => Or.inl (by
      rw [evalZs_bools, h]; rfl)) fun us t => ?_
    obtain ⟨fs, bl⟩ := t
    refine Sound.bind (P := fun r => us = fs.map Flt.withField ∧ r = fs) ?_ fun bits => ?_
    · refine Sound.assume ?_ ?_
      · rintro ⟨_, h, _⟩
        subst h
        rw [getFields_withField]
        exact Sound.pure fun _ => ⟨rfl, rfl⟩
      · intro st a st' hL hm
        obtain ⟨h1, h2, h3, _⟩ := Mono.getFields us st a st' hm
        exact ⟨h1, h2, h3.trans hL, fun h => h.elim⟩
    · refine Sound.bind (Sound.assert _) fun _ => Sound.pure ?_
      rintro ⟨⟨⟨_, _, h3, h4⟩, _, h5⟩, h6⟩
      subst h5
      simp only at h3 h4
      have hlen : bits.length = es.length := by simpa using h6
      have hbl : bl.length = es.length := by rw [← h4.length, hlen]
      refine ⟨bl.map .bool, [.uint bl.length (natBE bl)], by rw [evalZs_bools, h3]; rfl, ?_, ⟨?_, ?_⟩, trivial⟩
      · rw [← hbl]; exact .fromBits _ _
      · intro f hf; cases hf
      · intro _ bs hbs; cases hbs
        rw [val_flatFromBits h4, ← hbl]
        have := natBE_lt bl
        refine ⟨_, rfl, this, ?_⟩
        rw [val_natCast_of_lt (lt_of_lt_of_le this (pow_le_p (by omega))), Nat.mod_eq_of_lt this]
        exact ⟨rfl, by omega⟩
  | @bitArrayLe as bs ha hb hab hlen =>
    rw [← List.map_append]
    have hok : OkBs Γ (as ++ bs) := by
      clear hab hlen
      induction as with
      | nil => exact hb
      | cons a as ih => rw [OkBs] at ha; rw [List.cons_append, OkBs]; exact ⟨ha.1, ih ha.2⟩
    refine Sound.bind_ex ((sound_flattenArgs_bools hp henv (as ++ bs) hok).escape fun _ h => Or.inl (by
      rw [evalZs_bools, h]; rfl)) fun us t => ?_
    obtain ⟨fs, bl⟩ := t
    simp only [List.head?_cons, Flt.unwrap, pure_bind]
    refine Sound.bind (Sound.assert _) fun _ => ?_
    refine Sound.bind (P := fun r => us = fs.map Flt.withField ∧ r = fs.take as.length) ?_ fun es => ?_
    · refine Sound.assume ?_ ?_
      · rintro ⟨⟨_, h, _⟩, _⟩
        subst h
        rw [← List.map_take, getFields_withField]
        exact Sound.pure fun _ => ⟨rfl, rfl⟩
      · intro st a st' hL hm
        obtain ⟨h1, h2, h3, _⟩ := Mono.getFields _ st a st' hm
        exact ⟨h1, h2, h3.trans hL, fun h => h.elim⟩
    refine Sound.bind (Sound.defineAll es) fun vars => ?_
    refine Sound.bind (P := fun r => us = fs.map Flt.withField ∧ r = fs.drop as.length) ?_ fun ds => ?_
    · refine Sound.assume ?_ ?_
      · rintro ⟨⟨⟨⟨_, h, _⟩, _⟩, _⟩, _⟩
        subst h
        rw [← List.map_drop, getFields_withField]
        exact Sound.pure fun _ => ⟨rfl, rfl⟩
      · intro st a st' hL hm
        obtain ⟨h1, h2, h3, _⟩ := Mono.getFields _ st a st' hm
        exact ⟨h1, h2, h3.trans hL, fun h => h.elim⟩
    refine Sound.bind (sound_constBools ds) fun cs => ?_
    refine Sound.bind ((Sound.constantLeCheck (vars.map FlatExpr.ident) cs (bl.take as.length)).pre_of
      fun h => ⟨h, ?_⟩) fun conds => Sound.bind (Sound.eqCheck _ _) fun r => Sound.pure ?_
    · obtain ⟨⟨⟨⟨⟨⟨_, _, _, h4⟩, _⟩, _, h5⟩, h6⟩, _⟩, _⟩ := h
      unfold BitsRel
      rw [List.map_map]
      have : (FlatExpr.val ρ ∘ FlatExpr.ident) = ρ := rfl
      rw [this, h6, h5]
      exact h4.take _
    · rintro ⟨⟨⟨⟨⟨⟨⟨⟨_, _, h3, h4⟩, _⟩, _, h5⟩, h6⟩, _, h7⟩, h8⟩, h9, cl, h10, h11, h12⟩, h13⟩
      have hbl : bl.length = as.length + bs.length := by
        have : ∀ (es : List (BExpr (ZMod p))) bl, evalBs env es = .ok bl → bl.length = es.length := by
          intro es
          induction es with
          | nil => intro bl h; rw [evalBs] at h; cases h; rfl
          | cons e es ih =>
            intro bl h
            rw [evalBs] at h
            cases he : evalB env e with
            | error f => rw [he] at h; cases h
            | ok b =>
              rw [he, exc_ok] at h
              cases hes : evalBs env es with
              | error f => rw [hes] at h; cases h
              | ok l => rw [hes, exc_ok] at h; cases h; simp [ih l hes]
        have := this _ _ h3
        simpa using this
      have hcs : cs = bl.drop as.length := by
        have := h4.drop as.length
        rw [h7] at h8
        exact (BitsRel.unique (p := p) h8 this)
      have e1 : (bl.take as.length).length = as.length := by rw [List.length_take]; omega
      have e2 : (bl.drop as.length).length = as.length := by rw [List.length_drop]; omega
      refine ⟨bl.map .bool, [.bool (decide (natBE (bl.take as.length) ≤ natBE (bl.drop as.length)))],
        by rw [evalZs_bools, h3]; rfl, ?_, ⟨?_, ?_⟩, trivial⟩
      · have := EmbedRes.bitArrayLe (O := Oracle.any p Z) (bl.take as.length) (bl.drop as.length) (by rw [e1, e2])
        rw [← List.map_append, List.take_append_drop, e1] at this
        exact this
      · intro f hf; cases hf
        refine ⟨_, rfl, ?_⟩
        rw [h13, val_sumFold_bits h10, h10.length]
        congr 1
        rw [decide_eq_decide, ← hcs, ← h12, ← count_true_eq_length]
        simp only [FlatExpr.val]
        have hr := requiredBits_lt hp
        have hc := List.count_le_length (a := true) (l := cl)
        constructor
        · intro h
          exact (natCast_inj_of_lt (p := p) (by omega) (by omega) h).symm
        · intro h; rw [h]
      · intro h; cases h
  | @unpack n e he =>
    have hs := sndF_of_ok (Z := Z) hp henv he
    simp only [Flt.flattenArgs, Flt.assertArg, Flt.flattenZ, pure_bind, bind_assoc]
    refine Sound.bind (hs.escape fun _ h => Or.inl (by rw [evalZs_single, evalZ, h]; rfl)) fun f => ?_
    simp only [List.head?_cons, Flt.unwrap, pure_bind]
    unfold Flt.unpackCall
    have hg : (Flt.getFields [Flt.withField f] : FlatM p Z _) = pure [f] := getFields_withField [f]
    rw [hg, pure_bind]
    simp only
    refine Sound.bind (Sound.define f) fun x => Sound.bind (Sound.useSyms n) fun os => Sound.bind (Sound.emit _) fun _ =>
      Sound.bind (Sound.emitAll _) fun _ => Sound.bind (Sound.emit _) fun _ => Sound.bind (Sound.useSyms n) fun rs =>
      Sound.bind (Sound.emitAll _) fun _ => Sound.pure ?_
    rintro ⟨⟨⟨⟨⟨⟨⟨⟨_, h1, _⟩, h2⟩, h3⟩, _⟩, h4⟩, h5⟩, h6⟩, h7⟩
    obtain ⟨bl, hbl⟩ := BitsRel.exists (ρ := ρ) (bs := os.map FlatExpr.ident) (by
      intro b hb
      obtain ⟨o, ho, rfl⟩ := List.mem_map.1 hb
      have := h4 (Flt.bitness (.ident o) .bitness) (List.mem_map.2 ⟨o, by simpa using ho, rfl⟩)
      simpa using this)
    have hl : bl.length = n := by rw [← hbl.length, List.length_map, h3]
    simp only [sat_condition, val_flatFromBits hbl, FlatExpr.val, mul_one, h2] at h5
    refine ⟨[.field (f.val ρ)], bl.map .bool, by rw [evalZs_single, evalZ, h1]; rfl, .unpack _ _ _ ⟨hl, h5⟩, ?_⟩
    have hrs : BitsRel ρ (rs.map FlatExpr.ident) bl := by
      have : ∀ (rs os : List Variable) bl, rs.length = os.length →
          (∀ s ∈ ((List.zip rs os).map (fun t => FlatStmt.definition t.1 (.ident t.2))),
            FlatStmt.Sat (Z := Z) ρ s) → BitsRel ρ (os.map FlatExpr.ident) bl → BitsRel ρ (rs.map FlatExpr.ident) bl := by
        intro rs
        induction rs with
        | nil => intro os bl h1 h2 h3; cases os with
          | nil => exact h3
          | cons => simp at h1
        | cons r rs ih =>
          intro os bl h1 h2 h3
          cases os with
          | nil => simp at h1
          | cons o os =>
            cases bl with
            | nil => have := h3.length; simp at this
            | cons b bl =>
              simp only [List.map_cons, bitsRel_cons] at h3 ⊢
              refine ⟨?_, ih os bl (by simpa using h1) (fun s hs => h2 s ?_) h3.2⟩
              · have := h2 (.definition r (.ident o)) (by simp)
                simp only [sat_definition, FlatExpr.val] at this h3 ⊢
                rw [this]; exact h3.1
              · simp only [List.zip_cons_cons, List.map_cons, List.mem_cons]
                exact Or.inr hs
      exact this rs os bl (by rw [h6, h3]) h7 hbl
    have := resOks_bits hrs
    rw [hl, List.map_map] at this
    exact this

end Zok
