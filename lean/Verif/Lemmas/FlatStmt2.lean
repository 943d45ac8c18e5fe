import Verif.Lemmas.FlatStmt

/-
Soundness of the flattening of statements and functions.
-/

set_option linter.unusedSectionVars false
set_option linter.unusedVariables false

namespace Zok
variable {p : ℕ} {Z : Type} [Fact p.Prime]
variable {ρ : Assignment (ZMod p)} {L : ZId → Option Variable} {E pre : Prop} {Γ : Ctx} {env : ZEnv p}

open FlatExpr Fld

/-- `f` is what `get_field_unchecked` returns. -/
def FieldOf (u : FlatU p) (f : FlatExpr (ZMod p)) : Prop :=
  u.field = some f ∨ (u.field = none ∧ ∃ bs, u.bits = some bs ∧ f = flatFromBits bs)

theorem post_getField (u : FlatU p) : Post (Flt.getField u : FlatM p Z _) (FieldOf u) := by
  unfold Flt.getField
  obtain ⟨field, bits, ex⟩ := u
  cases field with
  | some f => exact Post.pure (Or.inl rfl)
  | none =>
    cases bits with
    | none => exact Post.panic
    | some bs => exact Post.pure (Or.inr ⟨rfl, bs, rfl, rfl⟩)

theorem sound_getFieldOf (u : FlatU p) : Sound ρ L E pre (Flt.getField u : FlatM p Z _) (FieldOf u) := by
  have h : Sound ρ L E pre (Flt.getField u : FlatM p Z _) (fun _ => True) := by
    unfold Flt.getField
    split
    · exact Sound.pure fun _ => trivial
    · split
      · exact Sound.pure fun _ => trivial
      · exact Sound.panic
  exact (h.withPost (post_getField u)).post fun _ _ h => h.2

/-- Soundness of the flattening of an expression of any type. -/
theorem sound_flattenZ (hp : 2 < p) (henv : EnvOk Γ env L ρ) {e : ZExpr (ZMod p)} (h : OkZ Γ e) :
    Sound ρ L (evalZ env e = .error .divZero) True (Flt.flattenZ e : FlatM p Z _)
      (fun u => ∃ v, evalZ env e = .ok v ∧ ∀ f, FieldOf u f → KVal e.kind v (f.val ρ) ∧
        (e.Reduced → f.val ρ = v.enc) ∧
        ∀ bs, u.bits = some bs → ∀ y, ρ y = f.val ρ → EntryOk ρ (.ident y) ⟨bs, u.exact⟩) := by
  cases e with
  | field e =>
    rw [Flt.flattenZ]
    refine Sound.bind ((sndF_of_ok hp henv h).escape fun _ h => by rw [evalZ, h]; rfl) fun f => Sound.pure ?_
    rintro ⟨_, h1, _⟩
    refine ⟨.field (f.val ρ), by rw [evalZ, h1]; rfl, ?_⟩
    rintro g (hg | ⟨hg, _⟩)
    · cases hg; exact ⟨rfl, fun _ => rfl, fun bs hbs => by cases hbs⟩
    · cases hg
  | bool e =>
    rw [Flt.flattenZ]
    refine Sound.bind ((sndB_of_ok hp henv h).escape fun _ h => by rw [evalZ, h]; rfl) fun f => Sound.pure ?_
    rintro ⟨_, b, h1, h2⟩
    refine ⟨.bool b, by rw [evalZ, h1]; rfl, ?_⟩
    rintro g (hg | ⟨hg, _⟩)
    · cases hg; exact ⟨⟨b, rfl, h2⟩, fun _ => h2, fun bs hbs => by cases hbs⟩
    · cases hg
  | uint e =>
    rw [Flt.flattenZ]
    have hw : 1 ≤ e.width ∧ 2 * e.width + 2 ≤ requiredBits p := okU_width h
    refine ((sndU_of_ok hp henv h).escape fun _ h => by rw [evalZ, h]; rfl).post ?_
    rintro u _ ⟨n, h1, h2, h3⟩
    refine ⟨.uint e.width n, by rw [evalZ, h1]; rfl, ?_⟩
    have hf : ∀ f, FieldOf u f → (f.val ρ).val % 2 ^ e.width = n ∧ (f.val ρ).val ≤ e.emax ∧
        (u.field = none → (f.val ρ).val = n) := by
      rintro f (hf | ⟨hf, bs, hbs, rfl⟩)
      · exact ⟨(h2.field f hf).1, (h2.field f hf).2, fun h => by rw [h] at hf; cases hf⟩
      · obtain ⟨bl, b1, b2, b3⟩ := h2.bits bs hbs
        have hv : ((flatFromBits bs).val ρ).val = n := by
          rw [val_flatFromBits b1, val_natCast_of_lt, b3]
          rw [b3]; exact lt_of_lt_of_le h2.lt (pow_le_p (by omega))
        exact ⟨by rw [hv, Nat.mod_eq_of_lt h2.lt], by rw [hv]; exact (h2.hne hf).2, fun _ => hv⟩
    intro f hfo
    obtain ⟨f1, f2, f3⟩ := hf f hfo
    refine ⟨⟨n, rfl, h2.lt, f1, f2⟩, ?_, ?_⟩
    · intro hr
      obtain ⟨g, hg, hgv⟩ := (h3 hr).field
      rcases hfo with hf | ⟨hf, _⟩
      · rw [hg] at hf; cases hf
        simp only [ZVal.enc, ← hgv, cast_val]
      · rw [hg] at hf; cases hf
    · intro bs hbs y hy
      obtain ⟨bl, b1, b2, b3⟩ := h2.bits bs hbs
      refine ⟨?_, bl, (f.val ρ).val, b1, ?_, ?_, ?_, Or.inl (val_lt _)⟩
      · simp only [b1.length, b2]; omega
      · simp only [FlatExpr.val, hy, cast_val]
      · simp only [b1.length, b2, f1, b3]
      · intro hex
        rw [b3]
        cases hfo with
        | inl hf => exact (h2.exact hex f hf (by rw [hbs]; simp)).symm
        | inr hf => exact (f3 hf.1).symm

theorem evalZs_append (as bs : List (ZExpr (ZMod p))) :
    evalZs env (as ++ bs) = (evalZs env as >>= fun x => evalZs env bs >>= fun y => .ok (x ++ y)) := by
  induction as with
  | nil =>
    simp only [List.nil_append, evalZs, exc_ok]
    cases evalZs env bs <;> simp [exc_ok, exc_err]
  | cons a as ih =>
    rw [List.cons_append, evalZs, ih, evalZs]
    cases evalZ env a with
    | error f => simp [exc_err]
    | ok v =>
      simp only [exc_ok]
      cases evalZs env as with
      | error f => simp [exc_err]
      | ok x =>
        simp only [exc_ok]
        cases evalZs env bs <;> simp [exc_ok, exc_err]

theorem sound_flattenZs (hp : 2 < p) (henv : EnvOk Γ env L ρ) (es : List (ZExpr (ZMod p))) (h : ∀ e ∈ es, OkZ Γ e) :
    Sound ρ L (evalZs env es = .error .divZero) True (Flt.flattenZs es : FlatM p Z _)
      (fun fs => ∃ vs, evalZs env es = .ok vs ∧ fs.length = vs.length ∧
        ((∀ e ∈ es, e.Reduced) → fs.map (FlatExpr.val ρ) = vs.map ZVal.enc)) := by
  induction es with
  | nil => exact Sound.pure fun _ => ⟨[], by rw [evalZs], rfl, fun _ => rfl⟩
  | cons e es ih =>
    rw [Flt.flattenZs]
    refine Sound.bind ((sound_flattenZ hp henv (h e (by simp))).escape fun _ h => by rw [evalZs, h]; rfl) fun u =>
      Sound.bind (sound_getFieldOf u) fun f => Sound.bind ((ih fun e he => h e (by simp [he])).escape ?_) fun fs =>
      Sound.pure ?_
    · rintro ⟨⟨_, v, h1, _⟩, _⟩ h2; rw [evalZs, h1, exc_ok, h2]; rfl
    · rintro ⟨⟨⟨_, v, h1, h2⟩, h3⟩, vs, h4, h5, h6⟩
      refine ⟨v :: vs, by rw [evalZs, h1, exc_ok, h4, exc_ok], by simp [h5], fun hr => ?_⟩
      simp only [List.map_cons]
      rw [(h2 f h3).2.1 (hr e (by simp)), h6 fun e he => hr e (by simp [he])]

theorem sound_flattenLog (hp : 2 < p) (henv : EnvOk Γ env L ρ) (es : List (List (ZExpr (ZMod p))))
    (h : ∀ e ∈ es.flatten, OkZ Γ e) :
    Sound ρ L (evalZs env es.flatten = .error .divZero) True (Flt.flattenLog es : FlatM p Z _)
      (fun _ => ∃ vs, evalZs env es.flatten = .ok vs) := by
  induction es with
  | nil => exact Sound.pure fun _ => ⟨[], by simp [evalZs]⟩
  | cons e es ih =>
    rw [Flt.flattenLog]
    rw [List.flatten_cons] at h ⊢
    refine Sound.bind ((sound_flattenZs hp henv e fun a ha => h a (by simp only [List.mem_append]; exact Or.inl ha)).escape
      fun _ h => by rw [evalZs_append, h]; rfl) fun fs => Sound.bind ((ih fun a ha => h a (by
        simp only [List.mem_append]; exact Or.inr ha)).escape ?_) fun _ => Sound.pure ?_
    · rintro ⟨_, v, h1, _⟩ h2; rw [evalZs_append, h1, exc_ok, h2]; rfl
    · rintro ⟨⟨_, v, h1, _⟩, vs, h2⟩
      exact ⟨v ++ vs, by rw [evalZs_append, h1, exc_ok, h2, exc_ok]⟩

theorem outputDefs_sat {fs : List (FlatExpr (ZMod p))} (h : ∀ s ∈ Flt.outputDefs (Z := Z) fs, FlatStmt.Sat ρ s) (i : ℕ)
    (f : FlatExpr (ZMod p)) (hi : fs[i]? = some f) : ρ (Variable.pub i) = f.val ρ := by
  have := h (.definition (Variable.pub i) f) (by
    unfold Flt.outputDefs
    refine List.mem_map.2 ⟨(f, i), ?_, rfl⟩
    rw [List.mem_zipIdx_iff_getElem?]
    exact hi)
  simpa using this

theorem trp_useVariable {σ : ZState p} {x : ZId} :
    Trp ρ E (StOk ρ Γ σ) (Flt.useVariable x : FlatM p Z _)
      (fun y st => StOk ρ (Γ.set x .field) (σ.set x (.field (ρ y))) st) := by
  intro st a st' hm hI hs hc
  cases hm
  exact Or.inr ⟨hI.cache, hI.env.set rfl, hI.outs⟩

theorem trp_useVariables {σ : ZState p} {xs : List ZId} :
    Trp ρ E (StOk ρ Γ σ) (Flt.useVariables xs : FlatM p Z _)
      (fun ys st => ys.length = xs.length ∧
        StOk ρ (Γ.setAll xs (xs.map fun _ => .field)) (σ.setAll xs (ys.map fun y => .field (ρ y))) st) := by
  induction xs generalizing Γ σ with
  | nil =>
    rw [Flt.useVariables]
    exact Trp.pure fun st h => ⟨rfl, by simpa [Ctx.setAll, ZState.setAll] using h⟩
  | cons x xs ih =>
    rw [Flt.useVariables]
    refine Trp.bind trp_useVariable (fun _ => MonoS.bind (MonoS.useVariables _) fun _ => (Mono.pure _).toS) fun y => ?_
    refine Trp.bind ih (fun _ => (Mono.pure _).toS) fun ys => ?_
    exact Trp.pure fun st h => ⟨by simp [h.1], by simpa [Ctx.setAll, ZState.setAll] using h.2⟩

theorem evalIds_ok {σ : ZState p} (henv : EnvOk Γ σ.env L ρ) {xs : List ZId}
    (h : ∀ x ∈ xs, Γ x = some .field ∨ Γ x = some .bool) : ∃ vs, evalIds σ.env xs = some vs := by
  induction xs with
  | nil => exact ⟨[], rfl⟩
  | cons x xs ih =>
    obtain ⟨vs, hvs⟩ := ih fun y hy => h y (by simp [hy])
    have : ∃ v, σ.env x = some v := by
      rcases h x (by simp) with hx | hx
      all_goals
        obtain ⟨y, _, h2⟩ := henv x _ hx
        obtain ⟨v, hv, _⟩ := varOk_iff.1 h2
        exact ⟨v, hv⟩
    obtain ⟨v, hv⟩ := this
    exact ⟨v :: vs, by simp [evalIds, hv, hvs]⟩

theorem lookups_state {xs : List ZId} {st st' : FlState p Z} {vs : List Variable}
    (h : Flt.lookups xs st = some (vs, st')) : st' = st := by
  induction xs generalizing vs st' with
  | nil => cases h; rfl
  | cons x xs ih =>
    rw [Flt.lookups] at h
    obtain ⟨v, st3, h5, h6⟩ := FlatM.bind_some h
    have : st3 = st := by
      unfold Flt.lookup at h5
      split at h5
      · cases h5; rfl
      · cases h5
    subst this
    obtain ⟨vs', st4, h7, h8⟩ := FlatM.bind_some h6
    have h9 : some (_, st4) = some (vs, st') := h8
    cases h9
    exact ih h7

/-- Soundness of an assembly statement. -/
theorem trp_asm (hp : 2 < p) {Γ' : Ctx} {s : ZAsm (ZMod p) Z} (h : OkAsm Γ s Γ') (σ : ZState p) :
    Trp ρ (∃ f, Undetected f ∧ ExecAsm (Oracle.any p Z) σ s (.error f)) (StOk ρ Γ σ) (Flt.flattenAsm s)
      (fun _ st => ∃ σ', ExecAsm (Oracle.any p Z) σ s (.ok σ') ∧ StOk ρ Γ' σ' st) := by
  cases h with
  | @assignment xs f args ha =>
    rw [Flt.flattenAsm]
    intro st a st' hm hI hs hc
    obtain ⟨ins, hins⟩ := evalIds_ok hI.env ha
    obtain ⟨vs, st1, h1, h2⟩ := FlatM.bind_some hm
    obtain ⟨ys, st2, h3, h4⟩ := FlatM.bind_some h2
    have hst1 : st1 = st := lookups_state h1
    subst hst1
    cases h4
    rcases trp_useVariables (E := False) (σ := σ) _ _ _ h3 hI (hs.left) hc with he | ⟨hl, hJ⟩
    · exact he.elim
    · refine Or.inr ⟨σ.setAll xs (ys.map fun y => .field (ρ y)), ?_, ⟨hJ.cache, hJ.env, hJ.outs⟩⟩
      have := ExecAsm.assignment (O := Oracle.any p Z) (σ := σ) (xs := xs) (f := f) (args := args) (ins := ins)
        (outs := ys.map ρ) hins trivial (by simp [hl])
      rw [List.map_map] at this
      exact this
  | @constraint l r info hl hr =>
    rw [Flt.flattenAsm]
    refine Trp.of_sound fun st hI => ⟨hI.cache, ?_⟩
    refine Sound.bind ((sndF_of_ok hp hI.env hl).escape fun _ h => ⟨.divZero, Or.inl rfl, .faultL h⟩) fun a =>
      Sound.bind ((sndF_of_ok hp hI.env hr).escape ?_) fun b => (Sound.emit _).post ?_
    · rintro ⟨_, h1, _⟩ h2; exact ⟨.divZero, Or.inl rfl, .faultR h1 h2⟩
    · rintro _ ⟨⟨_, h1, _⟩, h2, _⟩ h3 st' hc hL
      simp only [sat_condition] at h3
      rw [← h3] at h2
      exact ⟨σ, .ok h1 h2, ⟨hc, by rw [hL]; exact hI.env, hI.outs⟩⟩

/-- Soundness of an assembly block. -/
theorem trp_asms (hp : 2 < p) {Γ' : Ctx} {ss : List (ZAsm (ZMod p) Z)} (h : OkAsms Γ ss Γ') (σ : ZState p) :
    Trp ρ (∃ f, Undetected f ∧ ExecAsms (Oracle.any p Z) σ ss (.error f)) (StOk ρ Γ σ) (Flt.flattenAsms ss)
      (fun _ st => ∃ σ', ExecAsms (Oracle.any p Z) σ ss (.ok σ') ∧ StOk ρ Γ' σ' st) := by
  induction h generalizing σ with
  | nil => rw [Flt.flattenAsms]; exact Trp.pure fun st h => ⟨σ, .nil, h⟩
  | @cons Γ s Γ1 ss Γ2 h1 h2 ih =>
    rw [Flt.flattenAsms]
    refine Trp.bind ((trp_asm hp h1 σ).conseq (fun _ h => h) ?_ (fun _ _ h => h)) (fun _ => MonoS.flattenAsms _)
      fun _ => Trp.ex fun σ' => ?_
    · rintro ⟨f, hf, he⟩; exact ⟨f, hf, .fault he⟩
    · intro st a st' hm hI hs hc
      rcases ih σ' st a st' hm hI.2 hs hc with ⟨f, hf, he⟩ | ⟨σ2, he, hok⟩
      · exact Or.inl ⟨f, hf, .cons hI.1 he⟩
      · exact Or.inr ⟨σ2, .cons hI.1 he, hok⟩

/-- Blocks. -/
theorem trp_inBlock {I : FlState p Z → Prop} {m : FlatM p Z Unit} {J : FlState p Z → Prop}
    (hI : ∀ st o, I st → I { st with out := o }) (hJ : ∀ st o, J st → J { st with out := o })
    (h : Trp ρ E I m (fun _ => J)) : Trp ρ E I (Flt.inBlock m) (fun _ => J) := by
  intro st a st' hm hi hs hc
  unfold Flt.inBlock at hm
  cases hm1 : m { st with out := [] } with
  | none => rw [hm1] at hm; cases hm
  | some t =>
    obtain ⟨u, st1⟩ := t
    rw [hm1] at hm
    cases hm
    have hb : SatF ρ st1.out := by
      have := hs (.block st1.out) (by simp)
      cases this with
      | block h => exact h
    rcases h _ _ _ hm1 (hI _ _ hi) hb hc with he | hj
    · exact Or.inl he
    · exact Or.inr (hJ _ _ hj)

theorem embedRes_fromBits {O : Oracle p Z} {w : ℕ} {g : List ℕ} {vs rs : List (ZVal p)}
    (h : EmbedRes O (.uFromBits w) g vs (.ok rs)) :
    ∃ bl : List Bool, w = bl.length ∧ vs = bl.map .bool ∧ rs = [.uint bl.length (natBE bl)] := by
  generalize he : Embed.uFromBits w = e at h
  generalize hr : (Except.ok rs : Except Fault (List (ZVal p))) = r at h
  cases h <;> cases he
  rename_i bl
  cases hr
  exact ⟨bl, rfl, rfl, rfl⟩

mutual
/-- Soundness of a statement. -/
theorem trp_stmt (hp : 2 < p) : ∀ (s : ZStmt (ZMod p) Z) (Γ Γ' : Ctx), OkStmt Γ s Γ' → ∀ σ : ZState p,
    Trp ρ (∃ f, Undetected f ∧ Exec (Oracle.any p Z) σ s (.error f)) (StOk ρ Γ σ) (Flt.flattenStmt s)
      (fun _ st => ∃ σ', Exec (Oracle.any p Z) σ s (.ok σ') ∧ StOk ρ Γ' σ' st)
  | .ret es, Γ, Γ', h, σ => by
    cases h with
    | ret h =>
    rw [Flt.flattenStmt]
    refine Trp.of_sound fun st hI => ⟨hI.cache, ?_⟩
    refine Sound.bind ((sound_flattenZs hp hI.env es fun e he => (h e he).1).escape fun _ h =>
      ⟨.divZero, Or.inl rfl, .retFault h⟩) fun fs => (Sound.emitAll _).post ?_
    rintro _ ⟨_, vs, h1, h2, h3⟩ h4 st' hc hL
    refine ⟨_, .ret h1, hc, by rw [hL]; exact hI.env, ?_⟩
    intro vs' hvs i v hi
    simp only [Option.some.injEq] at hvs
    subst hvs
    have h5 := h3 fun e he => (h e he).2
    have h6 : (fs.map (FlatExpr.val ρ))[i]? = some v.enc := by rw [h5, List.getElem?_map, hi]; rfl
    rw [List.getElem?_map] at h6
    cases hfi : fs[i]? with
    | none => rw [hfi] at h6; cases h6
    | some f =>
      rw [hfi] at h6
      rw [outputDefs_sat h4 i f hfi]
      exact Option.some.inj h6
  | .assembly ss, Γ, Γ', h, σ => by
    cases h with
    | assembly h =>
    rw [Flt.flattenStmt]
    refine trp_inBlock ?_ ?_ ((trp_asms hp h σ).conseq (fun _ h => h) ?_ ?_)
    · intro st o h; exact ⟨h.cache, h.env, h.outs⟩
    · rintro st o ⟨σ', h1, h2⟩; exact ⟨σ', h1, h2.cache, h2.env, h2.outs⟩
    · rintro ⟨f, hf, he⟩; exact ⟨f, hf, .assembly he⟩
    · rintro _ st ⟨σ', he, hok⟩; exact ⟨σ', .assembly he, hok⟩
  | .ifElse c t e, Γ, Γ', h, σ => by
    cases h with
    | @ifElse _ _ _ _ Γ1 _ hc ht he =>
    rw [Flt.flattenStmt]
    refine Trp.bind (trp_of_soundP (P := fun _ => ∃ b, evalB σ.env c = .ok b) fun L hL =>
      ((sndB_of_ok hp hL hc).escape fun _ h => ⟨.divZero, Or.inl rfl, .ifFault h⟩).post ?_) ?_ fun f => ?_
    · rintro a _ ⟨b, hb, _⟩; exact ⟨b, hb⟩
    · intro f
      exact MonoS.bind (Mono.newDef _).toS fun _ => MonoS.bind (MonoS.flattenStmts _) fun _ => MonoS.flattenStmts _
    refine Trp.pull fun hb => ?_
    obtain ⟨b, hb⟩ := hb
    refine Trp.bind (trp_of_soundP (P := fun _ => True) fun L hL => (Sound.newDef f).post fun _ _ _ => trivial) ?_
      fun _ => Trp.pull fun _ => ?_
    · exact fun _ => MonoS.bind (MonoS.flattenStmts _) fun _ => MonoS.flattenStmts _
    refine Trp.bind ((trp_stmts hp t Γ Γ1 ht σ).conseq (fun _ h => h) ?_ (fun _ _ h => h)) (fun _ => MonoS.flattenStmts _)
      fun _ => Trp.ex fun σ' => ?_
    · rintro ⟨f, hf, he⟩; exact ⟨f, hf, .thenFault hb he⟩
    · intro st a st' hm hI hs hcl
      rcases trp_stmts hp e Γ1 Γ' he σ' st a st' hm hI.2 hs hcl with ⟨f, hf, he⟩ | ⟨σ2, he, hok⟩
      · exact Or.inl ⟨f, hf, .ifElse hb hI.1 he⟩
      · exact Or.inr ⟨σ2, .ifElse hb hI.1 he, hok⟩
  | .definition x e, Γ, Γ', h, σ => by
    cases h with
    | definition h =>
    rw [Flt.flattenStmt]
    refine Trp.bind (trp_of_soundP fun L hL => (sound_flattenZ hp hL h).escape fun _ h =>
      ⟨.divZero, Or.inl rfl, .definitionFault h⟩) (fun u => ?_) fun u => ?_
    · refine MonoS.bind (Mono.getField _).toS fun f => MonoS.bind (MonoS.bindVar _ _) fun v => ?_
      split
      · exact (Mono.setCache _ _).toS
      · exact (Mono.pure _).toS
    refine Trp.pull fun hu => ?_
    obtain ⟨v, hv, hf⟩ := hu
    refine Trp.bind (trp_of_soundP fun L hL => sound_getFieldOf u) (fun f => ?_) fun f => Trp.pull fun hfo => ?_
    · refine MonoS.bind (MonoS.bindVar _ _) fun v => ?_
      split
      · exact (Mono.setCache _ _).toS
      · exact (Mono.pure _).toS
    obtain ⟨h1, _, h3⟩ := hf f hfo
    refine Trp.bind (trp_bindVar h1) (fun y => ?_) fun y => Trp.pull fun hy => ?_
    · split
      · exact (Mono.setCache _ _).toS
      · exact (Mono.pure _).toS
    split
    · rename_i bs hbs
      intro st a st' hm hI hs hc
      cases hm
      exact Or.inr ⟨_, .definition hv, hI.cache.set (h3 bs hbs y hy) rfl, hI.env, hI.outs⟩
    · exact Trp.pure fun st hI => ⟨_, .definition hv, hI⟩
  | .assertion e err, Γ, Γ', h, σ => by
    cases h with
    | assertion h hn =>
    rw [Flt.flattenStmt]
    refine Trp.of_sound fun st hI => ⟨hI.cache, ?_⟩
    refine ((sound_assertions hp hI.env err (Flt.conjuncts e) fun c hc =>
      ⟨okB_conjuncts (mem_conjuncts hc) h, hn c (mem_conjuncts hc)⟩).escape ?_).post ?_
    · rintro _ ⟨c, hc, he⟩; exact ⟨.divZero, Or.inl rfl, .assertFault (mem_conjuncts hc) he⟩
    · intro _ _ hall st' hc hL
      exact ⟨σ, .assertOk (evalB_conjuncts hall), hc, by rw [hL]; exact hI.env, hI.outs⟩
  | .multiDef xs embed g args, Γ, Γ', h, σ => by
    cases h with
    | @multiDef _ _ _ _ _ ks hnew h =>
    rw [Flt.flattenStmt]
    refine Trp.bind (trp_of_soundP fun L hL => (sound_embedCall hp hL h).escape ?_) (fun us => ?_) fun us =>
      Trp.pull fun hus => ?_
    · rintro _ (hd | ⟨vs, h1, h2⟩)
      · exact ⟨.divZero, Or.inl rfl, .argsFault hd⟩
      · exact ⟨.notBool, Or.inr rfl, .embedFault h1 h2⟩
    · refine MonoS.bind (Mono.assert _).toS fun _ => MonoS.bind (MonoS.bindVars _ _) fun _ => ?_
      split
      · exact MonoS.bind (Mono.flattenZs _).toS fun _ => MonoS.bind (Mono.unwrap _).toS fun _ => (Mono.setCache _ _).toS
      · exact (Mono.pure _).toS
    obtain ⟨vs, rs, h1, h2, h3⟩ := hus
    refine Trp.bind (trp_of_soundP (P := fun _ => decide (xs.length = us.length) = true) fun L _ => Sound.assert _)
      (fun us => ?_) fun _ => Trp.pull fun hlen => ?_
    · refine MonoS.bind (MonoS.bindVars _ _) fun _ => ?_
      split
      · exact MonoS.bind (Mono.flattenZs _).toS fun _ => MonoS.bind (Mono.unwrap _).toS fun _ => (Mono.setCache _ _).toS
      · exact (Mono.pure _).toS
    have hlen : xs.length = us.length := by simpa using hlen
    have hex : Exec (Oracle.any p Z) σ (.multiDef xs embed g args) (.ok (σ.setAll xs rs)) :=
      .multiDef h1 h2 (by rw [h3.length.2, hlen])
    have main := trp_bindVars (E := ∃ f, Undetected f ∧ Exec (Oracle.any p Z) σ (.multiDef xs embed g args) (.error f))
      (Z := Z) (Γ := Γ) (σ := σ) h3 hlen
    cases h with
    | @fromBits _ es he hl1 hl2 =>
      -- the bits are flattened again and cached for the new variable
      obtain ⟨x, rfl⟩ : ∃ x, xs = [x] := by
        have : ([Kind.uint es.length (2 ^ es.length - 1)] : List Kind).length = us.length := h3.length.1
        simp only [List.length_singleton] at this
        match xs, hlen.trans this.symm with
        | [x], _ => exact ⟨x, rfl⟩
      obtain ⟨u, rfl⟩ : ∃ u, us = [u] := by
        match us, hlen.symm with
        | [u], _ => exact ⟨u, rfl⟩
      have hrs : ∃ bl : List Bool, evalBs σ.env es = .ok bl ∧ vs = bl.map .bool ∧ rs = [.uint bl.length (natBE bl)] ∧
          bl.length = es.length := by
        rw [evalZs_bools] at h1
        cases hb : evalBs σ.env es with
        | error f => rw [hb] at h1; cases h1
        | ok bl =>
          rw [hb, exc_ok] at h1
          cases h1
          have hinj : Function.Injective (ZVal.bool : Bool → ZVal p) := fun a b h => by cases h; rfl
          obtain ⟨bl', h4, h5, h6⟩ := embedRes_fromBits h2
          have := List.map_injective_iff.2 hinj h5
          subst this
          exact ⟨bl, rfl, rfl, h6, h4.symm⟩
      obtain ⟨bl, hbl, rfl, rfl, hblen⟩ := hrs
      simp only [ResOks, and_true] at h3
      rw [Flt.bindVars, Flt.bindVars]
      swap
      · simp
      simp only [bind_assoc, pure_bind, List.head?_cons, Flt.unwrap]
      refine Trp.bind (trp_of_soundP fun L _ => sound_getField h3) (fun f => ?_) fun f => Trp.pull fun hf => ?_
      · exact MonoS.bind (MonoS.bindVar _ _) fun v => MonoS.bind (Mono.flattenZs _).toS fun _ => (Mono.setCache _ _).toS
      refine Trp.bind (trp_bindVar hf) (fun y => ?_) fun y => Trp.pull fun hy => ?_
      · exact MonoS.bind (Mono.flattenZs _).toS fun _ => (Mono.setCache _ _).toS
      obtain ⟨n, hn, hn1, hn2, hn3⟩ := hf
      obtain ⟨_, hn⟩ := ZVal.uint.inj hn
      subst hn
      have hpl : 2 ^ es.length ≤ p := pow_le_p (by omega)
      -- arguments are evaluated in the state before the assignment
      intro st a st' hm hI hs hc
      obtain ⟨bits, st1, hb1, hb2⟩ := FlatM.bind_some hm
      cases hb2
      have henv : EnvOk Γ σ.env st.layout ρ := by
        intro z k hz
        have hzx : z ≠ x := fun h => by rw [h, hnew x (by simp)] at hz; cases hz
        obtain ⟨y', h7, h8⟩ := hI.env z k (by simpa [Ctx.set, hzx] using hz)
        obtain ⟨v', h9, h10⟩ := varOk_iff.1 h8
        exact ⟨y', h7, varOk_iff.2 ⟨v', by simpa [ZState.set, hzx] using h9, h10⟩⟩
      obtain ⟨_, _, hL, h7⟩ := sound_flattenZs_bools hp henv es he st bits st1 rfl hb1
      rcases h7 trivial hI.cache hs hc with hd | ⟨hcache, bl', h8, h9⟩
      · rw [hbl] at hd; cases hd
      · rw [hbl] at h8; cases h8
        refine Or.inr ⟨_, hex, hcache.set ?_ rfl, by rw [show _ = st.layout from hL]; exact hI.env, hI.outs⟩
        have hlb : bits.length = bl.length := h9.length
        refine ⟨by simp only [hlb, hblen]; omega, bl, natBE bl, h9, ?_, ?_, fun _ => rfl, Or.inl ?_⟩
        · simp only [FlatExpr.val, hy]
          rw [Nat.mod_eq_of_lt (by have := Nat.two_pow_pos es.length; omega)] at hn2
          rw [← hn2, cast_val]
        · simp only [hlb, Nat.mod_eq_of_lt (natBE_lt _)]
        · exact lt_of_lt_of_le (natBE_lt _) (by rw [hblen]; exact hpl)
    | _ => exact Trp.bind main (fun _ => (Mono.pure _).toS) fun _ => Trp.pure fun st hI => ⟨_, hex, hI⟩
  | .log es, Γ, Γ', h, σ => by
    cases h with
    | log h =>
    rw [Flt.flattenStmt]
    refine Trp.of_sound fun st hI => ⟨hI.cache, ?_⟩
    refine Sound.bind ((sound_flattenLog hp hI.env es h).escape fun _ h =>
      ⟨.divZero, Or.inl rfl, .logFault h⟩) fun fs => (Sound.emit _).post ?_
    rintro _ ⟨_, vs, hv⟩ _ st' hc hL
    exact ⟨σ, .log hv, hc, by rw [hL]; exact hI.env, hI.outs⟩
/-- Soundness of a list of statements. -/
theorem trp_stmts (hp : 2 < p) : ∀ (ss : List (ZStmt (ZMod p) Z)) (Γ Γ' : Ctx), OkStmts Γ ss Γ' → ∀ σ : ZState p,
    Trp ρ (∃ f, Undetected f ∧ ExecL (Oracle.any p Z) σ ss (.error f)) (StOk ρ Γ σ) (Flt.flattenStmts ss)
      (fun _ st => ∃ σ', ExecL (Oracle.any p Z) σ ss (.ok σ') ∧ StOk ρ Γ' σ' st)
  | [], Γ, Γ', h, σ => by
    cases h
    rw [Flt.flattenStmts]; exact Trp.pure fun st h => ⟨σ, .nil, h⟩
  | s :: ss, Γ, Γ', h, σ => by
    cases h with
    | @cons _ _ Γ1 _ _ h1 h2 =>
    rw [Flt.flattenStmts]
    refine Trp.bind ((trp_stmt hp s Γ Γ1 h1 σ).conseq (fun _ h => h) ?_ (fun _ _ h => h)) (fun _ => MonoS.flattenStmts _)
      fun _ => Trp.ex fun σ' => ?_
    · rintro ⟨f, hf, he⟩; exact ⟨f, hf, .fault he⟩
    · intro st a st' hm hI hs hc
      rcases trp_stmts hp ss Γ1 Γ' h2 σ' st a st' hm hI.2 hs hc with ⟨f, hf, he⟩ | ⟨σ2, he, hok⟩
      · exact Or.inl ⟨f, hf, .cons hI.1 he⟩
      · exact Or.inr ⟨σ2, .cons hI.1 he, hok⟩
end

end Zok
