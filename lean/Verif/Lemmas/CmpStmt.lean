import Verif.Lemmas.CmpAssert
import Verif.Lemmas.FlatFun

/-
Completeness of the flattening of statements and functions.
-/

set_option linter.unusedSectionVars false
set_option linter.unusedVariables false

namespace Zok
variable {p : ℕ} {Z : Type} [Fact p.Prime]
variable {sem : SolverSem (ZMod p) Z} {ρ : Assignment (ZMod p)} {L : ZId → Option Variable} {pre : Prop} {Γ : Ctx}
  {env : ZEnv p}

open FlatExpr Fld

/-! ### Triples on states -/

/-- If `I` holds, the statements emitted before the run succeed and those emitted by the run are computed honestly, then
they succeed and `J` holds after the run. -/
def CTrp (sem : SolverSem (ZMod p) Z) (ρ : Assignment (ZMod p)) {α : Type} (I : FlState p Z → Prop)
    (m : FlatM p Z α) (J : α → FlState p Z → Prop) : Prop :=
  ∀ st a st', m st = some (a, st') → I st → GoodF sem ρ st.out → HonF sem ρ st'.out → st'.clash = false →
    GoodF sem ρ st'.out ∧ J a st'

namespace CTrp
variable {α β : Type} {I : FlState p Z → Prop} {m : FlatM p Z α} {J : α → FlState p Z → Prop}
  {f : α → FlatM p Z β} {K : β → FlState p Z → Prop}

theorem bind (h : CTrp sem ρ I m J) (hm : ∀ a, MonoS (f a)) (hf : ∀ a, CTrp sem ρ (J a) (f a) K) :
    CTrp sem ρ I (m >>= f) K := by
  intro st b st' hb hI hg hh hc
  obtain ⟨a, st1, h1, h2⟩ := FlatM.bind_some hb
  obtain ⟨⟨o, ho⟩, hcl, _⟩ := hm a _ _ _ h2
  obtain ⟨hg1, hJ⟩ := h _ _ _ h1 hI hg (by rw [ho] at hh; exact hh.left) (hcl hc)
  exact hf a _ _ _ h2 hJ hg1 hh hc

theorem of_cmp (h : ∀ st, I st → CacheH ρ st ∧ Cmp sem ρ st.layout True m (fun a => ∀ st', CacheH ρ st' →
    st'.layout = st.layout → J a st')) : CTrp sem ρ I m J := by
  intro st a st' hm hI hg hh hc
  obtain ⟨h1, h2⟩ := h st hI
  obtain ⟨_, _, hL, h3⟩ := h2 st a st' rfl hm
  obtain ⟨g1, g2, g3⟩ := h3 trivial h1 hg hh hc
  exact ⟨g1, g3 st' g2 hL⟩

theorem conseq {I' : FlState p Z → Prop} {J' : α → FlState p Z → Prop} (h : CTrp sem ρ I m J)
    (hI : ∀ st, I' st → I st) (hJ : ∀ a st, J a st → J' a st) : CTrp sem ρ I' m J' :=
  fun st a st' hm hI' hg hh hc => (h st a st' hm (hI st hI') hg hh hc).imp_right (hJ a st')

theorem pure {a : α} (h : ∀ st, I st → J a st) : CTrp sem ρ I (Pure.pure a : FlatM p Z α) J := by
  intro st b st' hm hI hg _ _
  have : some (a, st) = some (b, st') := hm
  cases this
  exact ⟨hg, h st hI⟩

theorem pull {P : Prop} (h : P → CTrp sem ρ I m J) : CTrp sem ρ (fun st => I st ∧ P) m J :=
  fun st a st' hm hI hg hh hc => h hI.2 st a st' hm hI.1 hg hh hc

end CTrp

/-- The cache holds the digits of its expressions and the context is represented. -/
structure StH (ρ : Assignment (ZMod p)) (Γ : Ctx) (σ : ZState p) (st : FlState p Z) : Prop where
  cache : CacheH ρ st
  env : EnvOk Γ σ.env st.layout ρ
  outs : ∀ vs, σ.outs = some vs → ∀ i v, vs[i]? = some v → ρ (Variable.pub i) = v.enc

theorem CacheH.set {st : FlState p Z} (h : CacheH ρ st) {e : FlatExpr (ZMod p)} {c : CacheEntry p}
    (he : EntryH ρ e c) {st' : FlState p Z} (h' : st'.cache = fun e' => if e' = e then some c else st.cache e') :
    CacheH ρ st' := by
  intro f c' hf
  rw [h'] at hf
  by_cases hfe : f = e
  · subst hfe; simp only [if_true] at hf; cases hf; exact he
  · simp only [hfe, if_false] at hf; exact h f c' hf

theorem ctrp_of_cmpP {α : Type} {σ : ZState p} {m : FlatM p Z α} {P : α → Prop}
    (h : ∀ L, EnvOk Γ σ.env L ρ → Cmp sem ρ L True m P) :
    CTrp sem ρ (StH ρ Γ σ) m (fun a st => StH ρ Γ σ st ∧ P a) :=
  CTrp.of_cmp fun st hI => ⟨hI.cache, (h _ hI.env).post fun a _ hP st' hc hL =>
    ⟨⟨hc, by rw [hL]; exact hI.env, hI.outs⟩, hP⟩⟩

/-- Binding one variable. -/
theorem ctrp_bindVar {σ : ZState p} {x : ZId} {f : FlatExpr (ZMod p)} {k : Kind} {v : ZVal p}
    (hk : KVal k v (f.val ρ)) :
    CTrp sem ρ (StH ρ Γ σ) (Flt.bindVar x f : FlatM p Z _)
      (fun y st => StH ρ (Γ.set x k) (σ.set x v) st ∧ ρ y = f.val ρ) := by
  unfold Flt.bindVar
  split
  · rename_i w
    intro st a st' hm hI hg hh hc
    obtain ⟨_, st1, h1, h2⟩ := FlatM.bind_some hm
    cases h1
    have : some (w, _) = some (a, st') := h2
    cases this
    exact ⟨hg, ⟨hI.cache, hI.env.set hk, hI.outs⟩, rfl⟩
  · intro st a st' hm hI hg hh hc
    obtain ⟨y, st1, h1, h2⟩ := FlatM.bind_some hm
    cases h1
    obtain ⟨_, st2, h3, h4⟩ := FlatM.bind_some h2
    cases h3
    have : some (Variable.new st.next, _) = some (a, st') := h4
    cases this
    have hv : ρ (Variable.new st.next) = f.val ρ := by
      have := hh (.definition (Variable.new st.next) f) (by simp)
      cases this with
      | definition h => exact h
    refine ⟨Cmp.goodF_snoc hg (by simpa using FlatStmt.Good.definition hv), ⟨hI.cache, hI.env.set ?_, hI.outs⟩, hv⟩
    rw [hv]; exact hk

theorem cmp_getField {k : Kind} {v : ZVal p} {u : FlatU p} (h : ResOk ρ k v u) :
    Cmp sem ρ L pre (Flt.getField u : FlatM p Z _) (fun f => KVal k v (f.val ρ)) :=
  (Cmp.getField u).snd (sound_getField h) fun _ => trivial

theorem cmp_getFieldOf (u : FlatU p) : Cmp sem ρ L pre (Flt.getField u : FlatM p Z _) (FieldOf u) :=
  (Cmp.getField u).snd (sound_getFieldOf u (pre := True)) fun _ => trivial

/-- Binding a list of variables. -/
theorem ctrp_bindVars {σ : ZState p} {xs : List ZId} {us : List (FlatU p)} {ks : List Kind} {vs : List (ZVal p)}
    (hk : ResOks ρ ks vs us) (hl : xs.length = us.length) :
    CTrp sem ρ (StH ρ Γ σ) (Flt.bindVars xs us : FlatM p Z _)
      (fun _ st => StH ρ (Γ.setAll xs ks) (σ.setAll xs vs) st) := by
  induction xs generalizing us ks vs Γ σ with
  | nil =>
    cases us with
    | nil =>
      have := hk.length
      have h1 : ks = [] := List.eq_nil_of_length_eq_zero (by simpa using this.1)
      have h2 : vs = [] := List.eq_nil_of_length_eq_zero (by simpa using this.2)
      subst h1 h2
      rw [Flt.bindVars]
      · exact CTrp.pure fun st h => by simpa [Ctx.setAll, ZState.setAll] using h
      · simp
    | cons => simp at hl
  | cons x xs ih =>
    cases us with
    | nil => simp at hl
    | cons u us =>
      cases ks with
      | nil => cases vs <;> simp [ResOks] at hk
      | cons k ks =>
        cases vs with
        | nil => simp [ResOks] at hk
        | cons v vs =>
          rw [ResOks] at hk
          rw [Flt.bindVars]
          refine CTrp.bind (ctrp_of_cmpP fun L _ => cmp_getField hk.1) (fun f => ?_) fun f => ?_
          · exact MonoS.bind (MonoS.bindVar _ _) fun _ => MonoS.bind (MonoS.bindVars _ _) fun _ => (Mono.pure _).toS
          refine CTrp.pull fun hf => CTrp.bind (ctrp_bindVar hf) (fun _ => MonoS.bind (MonoS.bindVars _ _)
            fun _ => (Mono.pure _).toS) fun y => ?_
          refine CTrp.pull fun _ => CTrp.bind (ih hk.2 (by simpa using hl)) (fun _ => (Mono.pure _).toS) fun ys => ?_
          exact CTrp.pure fun st h => by simpa [Ctx.setAll, ZState.setAll] using h

/-! ### Expressions of any type -/

/-- The digits of an integer that is represented by a field element and by bits. -/
theorem entryH_of_urel {w mx n : ℕ} {u : FlatU p} (hw : 2 * w + 2 ≤ requiredBits p) (h : URel ρ w mx n u)
    {f : FlatExpr (ZMod p)} (hf : FieldOf u f) {bs : List (FlatExpr (ZMod p))} (hbs : u.bits = some bs) {y : Variable}
    (hy : ρ y = f.val ρ) : EntryH ρ (.ident y) ⟨bs, u.exact⟩ := by
  obtain ⟨bl, b1, b2, b3⟩ := h.bits bs hbs
  have hl : bs.length = w := by rw [b1.length, b2]
  have hbl : bl = bitsBE w n := by rw [← bitsBE_natBE bl, b2, b3]
  have hv : (f.val ρ).val % 2 ^ w = n ∧ (u.exact = true → (f.val ρ).val = n) := by
    rcases hf with hf | ⟨hf, bs', hbs', rfl⟩
    · exact ⟨(h.field f hf).1, fun he => h.exact he f hf (by rw [hbs]; simp)⟩
    · rw [hbs] at hbs'; cases hbs'
      have hv : ((flatFromBits bs).val ρ).val = n := by
        rw [val_flatFromBits b1, val_natCast_of_lt, b3]
        rw [b3]; exact lt_of_lt_of_le h.lt (pow_le_p (by omega))
      exact ⟨by rw [hv, Nat.mod_eq_of_lt h.lt], fun _ => hv⟩
  refine ⟨by simp only [hl]; omega, ?_, fun he => ?_⟩
  · simp only [hl, FlatExpr.val, hy]
    rw [← bitsBE_mod, hv.1, ← hbl]; exact b1
  · simp only [hl, FlatExpr.val, hy]
    rw [hv.2 he]; exact h.lt

theorem cmp_flattenZ (hp : 2 < p) (henv : EnvOk Γ env L ρ) {e : ZExpr (ZMod p)} (h : OkZ Γ e) {v : ZVal p}
    (hv : evalZ env e = .ok v) :
    Cmp sem ρ L pre (Flt.flattenZ e : FlatM p Z _)
      (fun u => ∀ f, FieldOf u f → KVal e.kind v (f.val ρ) ∧ (e.Reduced → f.val ρ = v.enc) ∧
        ∀ bs, u.bits = some bs → ∀ y, ρ y = f.val ρ → EntryH ρ (.ident y) ⟨bs, u.exact⟩) := by
  have key : Cmp sem ρ L pre (Flt.flattenZ e : FlatM p Z _) (fun u => ∀ f, FieldOf u f →
      ∀ bs, u.bits = some bs → ∀ y, ρ y = f.val ρ → EntryH ρ (.ident y) ⟨bs, u.exact⟩) := by
    cases e with
    | field e =>
      rw [evalZ] at hv
      obtain ⟨a, ha, _⟩ := exc_bind_ok hv
      rw [Flt.flattenZ]
      exact Cmp.bind (cmpF_of_ok hp henv h a ha _) fun _ => Cmp.pure fun _ f _ bs hbs => by cases hbs
    | bool e =>
      rw [evalZ] at hv
      obtain ⟨a, ha, _⟩ := exc_bind_ok hv
      rw [Flt.flattenZ]
      exact Cmp.bind (cmpB_of_ok hp henv h a ha _) fun _ => Cmp.pure fun _ f _ bs hbs => by cases hbs
    | uint e =>
      rw [evalZ] at hv
      obtain ⟨a, ha, _⟩ := exc_bind_ok hv
      rw [Flt.flattenZ]
      exact (cmpU_of_ok hp henv h a ha _).post fun u _ hu f hf bs hbs y hy =>
        entryH_of_urel (okU_width h).2 hu.1 hf hbs hy
  refine (key.sound (sound_flattenZ hp henv h) (fun _ => trivial) fun _ h => by rw [hv] at h; cases h).post ?_
  rintro u _ ⟨h0, v', hv', hu⟩
  rw [hv] at hv'; cases hv'
  exact fun f hf => ⟨(hu f hf).1, (hu f hf).2.1, h0 f hf⟩

theorem cmp_flattenZs (hp : 2 < p) (henv : EnvOk Γ env L ρ) (es : List (ZExpr (ZMod p))) (h : ∀ e ∈ es, OkZ Γ e)
    {vs : List (ZVal p)} (hv : evalZs env es = .ok vs) :
    Cmp sem ρ L pre (Flt.flattenZs es : FlatM p Z _)
      (fun fs => fs.length = vs.length ∧ ((∀ e ∈ es, e.Reduced) → fs.map (FlatExpr.val ρ) = vs.map ZVal.enc)) := by
  have key : Cmp sem ρ L pre (Flt.flattenZs es : FlatM p Z _) (fun _ => True) := by
    induction es generalizing pre vs with
    | nil => exact Cmp.pure fun _ => trivial
    | cons e es ih =>
      rw [evalZs] at hv
      obtain ⟨v, ws, h1, h2, _⟩ := Cmp.exc_bind2 hv
      rw [Flt.flattenZs]
      exact Cmp.bind (cmp_flattenZ hp henv (h e (by simp)) h1) fun u => Cmp.bind (Cmp.getField u) fun f =>
        Cmp.bind (ih (fun e he => h e (by simp [he])) h2) fun _ => Cmp.pure fun _ => trivial
  refine (key.sound (sound_flattenZs hp henv es h) (fun _ => trivial) fun _ h => by rw [hv] at h; cases h).post ?_
  rintro fs _ ⟨_, vs', h1, h2⟩
  rw [hv] at h1; cases h1; exact h2

theorem cmp_flattenLog (hp : 2 < p) (henv : EnvOk Γ env L ρ) (es : List (List (ZExpr (ZMod p))))
    (h : ∀ e ∈ es.flatten, OkZ Γ e) {vs : List (ZVal p)} (hv : evalZs env es.flatten = .ok vs) :
    Cmp sem ρ L pre (Flt.flattenLog es : FlatM p Z _) (fun _ => True) := by
  induction es generalizing pre vs with
  | nil => exact Cmp.pure fun _ => trivial
  | cons e es ih =>
    rw [Flt.flattenLog]
    rw [List.flatten_cons] at h hv
    rw [evalZs_append] at hv
    obtain ⟨v, ws, h1, h2, _⟩ := Cmp.exc_bind2 hv
    exact Cmp.bind (cmp_flattenZs hp henv e (fun a ha => h a (by simp only [List.mem_append]; exact Or.inl ha)) h1)
      fun _ => Cmp.bind (ih (fun a ha => h a (by simp only [List.mem_append]; exact Or.inr ha)) h2) fun _ =>
      Cmp.pure fun _ => trivial

/-! ### Embedded functions -/

theorem cmp_flattenArgs_bools (hp : 2 < p) (henv : EnvOk Γ env L ρ) (es : List (BExpr (ZMod p))) (h : OkBs Γ es)
    {bl : List Bool} (hv : evalBs env es = .ok bl) :
    Cmp sem ρ L pre (Flt.flattenArgs (es.map .bool) : FlatM p Z _)
      (fun us => ∃ fs, us = fs.map Flt.withField ∧ BitsRel ρ fs bl) := by
  have key : Cmp sem ρ L pre (Flt.flattenArgs (es.map .bool) : FlatM p Z _) (fun _ => True) := by
    induction es generalizing pre bl with
    | nil => exact Cmp.pure fun _ => trivial
    | cons e es ih =>
      rw [OkBs] at h
      rw [evalBs] at hv
      obtain ⟨v, ws, h1, h2, _⟩ := Cmp.exc_bind2 hv
      rw [List.map_cons, Flt.flattenArgs]
      refine Cmp.bind (P := fun _ => True) (Cmp.pure fun _ => trivial) fun _ => ?_
      rw [Flt.flattenZ, bind_assoc]
      refine Cmp.bind (cmpB_of_ok hp henv h.1 v h1 _) fun _ => ?_
      rw [pure_bind]
      exact Cmp.bind (ih h.2 h2) fun _ => Cmp.pure fun _ => trivial
  refine (key.sound (sound_flattenArgs_bools hp henv es h) (fun _ => trivial) fun _ h => by
    rw [hv] at h; cases h).post ?_
  rintro us _ ⟨_, t, h1, h2, h3⟩
  rw [hv] at h2; cases h2
  exact ⟨t.1, h1, h3⟩

theorem cmp_flattenZs_bools (hp : 2 < p) (henv : EnvOk Γ env L ρ) (es : List (BExpr (ZMod p))) (h : OkBs Γ es)
    {bl : List Bool} (hv : evalBs env es = .ok bl) :
    Cmp sem ρ L pre (Flt.flattenZs (es.map .bool) : FlatM p Z _) (fun fs => BitsRel ρ fs bl) := by
  have hz : evalZs env (es.map .bool) = .ok (bl.map .bool) := by rw [evalZs_bools, hv]; rfl
  have hok : ∀ e ∈ es.map ZExpr.bool, OkZ Γ e := by
    intro e he
    obtain ⟨b, hb, rfl⟩ := List.mem_map.1 he
    exact okBs_mem h b hb
  refine ((cmp_flattenZs hp henv _ hok hz).sound (sound_flattenZs_bools hp henv es h) (fun _ => trivial) fun _ h => by
    rw [hv] at h; cases h).post ?_
  rintro fs _ ⟨_, bl', h1, h2⟩
  rw [hv] at h1; cases h1; exact h2

theorem exec_bits_any (n : ℕ) (x : ZMod p) :
    executeSolver sem (.bits n) [x] [] = .ok ((bitsBE n x.val).map boolF) := by
  by_cases hn : n ≤ requiredBits p
  · exact exec_bits n x hn
  · have hx : x.val < 2 ^ requiredBits p := lt_trans (val_lt x) lt_two_pow_required
    simp only [executeSolver, Solver.signature, solverBody]
    simp only [List.length_singleton, ne_eq, not_true, if_false, toBitsBe_eq, drop_bitsBE, length_bitsBE]
    rw [show requiredBits p - (requiredBits p - n) = requiredBits p by omega, ← bitsBE_pad hx (by omega)]
    simp

/-- The values of honest choices are among those of the prover. -/
theorem EmbedRes.any {embed : Embed} {g : List ℕ} {vs : List (ZVal p)} {r : Except Fault (List (ZVal p))}
    (h : EmbedRes (Oracle.honest sem) embed g vs r) : EmbedRes (Oracle.any p Z) embed g vs r := by
  cases h with
  | castBool g b => exact .castBool _ _
  | castFault g x h1 h2 => exact .castFault _ _ h1 h2
  | toBits => exact .toBits _ _ _
  | fromBits => exact .fromBits _ _
  | bitArrayLe _ _ h => exact .bitArrayLe _ _ h
  | unpack n x bl h =>
    refine .unpack _ _ _ ⟨by rw [h.2]; simp, ?_⟩
    rw [h.2, natBE_bitsBE_of_lt h.1, cast_val]

theorem zbool_map_inj {a b : List Bool} (h : a.map (ZVal.bool (p := p)) = b.map .bool) : a = b :=
  List.map_injective_iff.2 (fun a b h => by cases h; rfl) h

/-- All embedded functions but unpacking are functions. -/
theorem EmbedRes.det {O : Oracle p Z} {embed : Embed} {g : List ℕ} {vs : List (ZVal p)}
    {r r' : Except Fault (List (ZVal p))} (he : embed ≠ .unpack) (h : EmbedRes O embed g vs r)
    (h' : EmbedRes O embed g vs r') : r = r' := by
  cases h with
  | castBool g b =>
    generalize hv : [ZVal.field (boolF b : ZMod p)] = vs at h'
    cases h' with
    | castBool g b' =>
      simp only [List.cons.injEq, ZVal.field.injEq, and_true] at hv
      rw [boolF_inj hv]
    | castFault g x h1 h2 =>
      simp only [List.cons.injEq, ZVal.field.injEq, and_true] at hv
      subst hv
      rcases boolF_eq (R := ZMod p) b with h | h
      · exact absurd h h1
      · exact absurd h h2
  | castFault g x h1 h2 =>
    generalize hv : [ZVal.field x] = vs at h'
    cases h' with
    | castBool g b' =>
      simp only [List.cons.injEq, ZVal.field.injEq, and_true] at hv
      subst hv
      rcases boolF_eq (R := ZMod p) b' with h | h
      · exact absurd h h1
      · exact absurd h h2
    | castFault g x h1 h2 => rfl
  | toBits => cases h'; rfl
  | fromBits g bl =>
    generalize hv : bl.map (ZVal.bool (p := p)) = vs at h'
    generalize hw : Embed.uFromBits bl.length = e at h'
    cases h' with
    | fromBits g bl' => have := zbool_map_inj hv; subst this; rfl
    | _ => cases hw
  | bitArrayLe al bl hl =>
    generalize hv : al.map (ZVal.bool (p := p)) ++ bl.map .bool = vs at h'
    generalize hg : [al.length] = g at h'
    cases h' with
    | bitArrayLe al' bl' hl' =>
      simp only [List.cons.injEq, and_true] at hg
      have := List.append_inj hv (by simpa using hg)
      have h1 := zbool_map_inj this.1
      have h2 := zbool_map_inj this.2
      subst h1 h2; rfl
  | unpack => exact absurd rfl he

theorem Cmp.constBools (cs : List (FlatExpr (ZMod p))) : Cmp sem ρ L pre (Flt.constBools cs : FlatM p Z _)
    (fun bl => cs.map (FlatExpr.val ρ) = bl.map boolF) := by
  have key : Cmp sem ρ L pre (Flt.constBools cs : FlatM p Z _) (fun _ => True) := by
    induction cs generalizing pre with
    | nil => exact Cmp.pure fun _ => trivial
    | cons c cs ih =>
      rw [Flt.constBools]
      refine Cmp.bind (P := fun _ => True) ?_ fun _ => Cmp.bind ih fun _ => Cmp.pure fun _ => trivial
      unfold Flt.constBool
      split
      · exact Cmp.ite (fun _ => Cmp.pure fun _ => trivial) fun _ => Cmp.ite (fun _ => Cmp.pure fun _ => trivial)
          fun _ => Cmp.panic
      · exact Cmp.panic
  exact key.snd (sound_constBools cs (pre := True)) fun _ => trivial

theorem Cmp.getFields (us : List (FlatU p)) : Cmp sem ρ L pre (Flt.getFields us : FlatM p Z _) (fun fs =>
    ∀ gs : List (FlatExpr (ZMod p)), us = gs.map Flt.withField → fs = gs) := by
  have key : Cmp sem ρ L pre (Flt.getFields us : FlatM p Z _) (fun _ => True) := by
    induction us generalizing pre with
    | nil => exact Cmp.pure fun _ => trivial
    | cons u us ih =>
      rw [Flt.getFields]
      exact Cmp.bind (Cmp.getField u) fun _ => Cmp.bind ih fun _ => Cmp.pure fun _ => trivial
  intro st a st' hL hm
  obtain ⟨h1, h2, h3, h4⟩ := key st a st' hL hm
  refine ⟨h1, h2, h3, fun hp hc hg hh hcl => ?_⟩
  obtain ⟨g1, g2, _⟩ := h4 hp hc hg hh hcl
  refine ⟨g1, g2, fun gs hgs => ?_⟩
  subst hgs
  rw [getFields_withField] at hm
  have : some (gs, st) = some (a, st') := hm
  cases this; rfl

theorem evalBs_length {es : List (BExpr (ZMod p))} {bl : List Bool} (h : evalBs env es = .ok bl) :
    bl.length = es.length := by
  induction es generalizing bl with
  | nil => rw [evalBs] at h; cases h; rfl
  | cons e es ih =>
    rw [evalBs] at h
    obtain ⟨a, b, _, hb, h⟩ := Cmp.exc_bind2 h
    cases h; simp [ih hb]

/-- Completeness of the calls of embedded functions. -/
theorem cmp_embedCall (hp : 2 < p) (henv : EnvOk Γ env L ρ) {embed : Embed} {g : List ℕ}
    {args : List (ZExpr (ZMod p))} {ks : List Kind} (h : OkEmbed Γ embed g args ks) {vs rs : List (ZVal p)}
    (hvs : evalZs env args = .ok vs) (hrs : EmbedRes (Oracle.honest sem) embed g vs (.ok rs)) :
    Cmp sem ρ L pre (Flt.embedCall embed g args : FlatM p Z _) (fun us => ResOks ρ ks rs us) := by
  have noEsc : embed ≠ .unpack → EmbedEsc env Z embed g args → False := by
    rintro he (h | ⟨vs', h1, h2⟩)
    · rw [hvs] at h; cases h
    · rw [hvs] at h1; cases h1
      have := EmbedRes.det he hrs.any h2
      cases this
  have fin : embed ≠ .unpack → Cmp sem ρ L pre (Flt.embedCall embed g args : FlatM p Z _) (fun _ => True) →
      Cmp sem ρ L pre (Flt.embedCall embed g args : FlatM p Z _) (fun us => ResOks ρ ks rs us) := by
    intro he hc
    refine (hc.sound (sound_embedCall hp henv h) (fun _ => trivial) fun _ => noEsc he).post ?_
    rintro us _ ⟨_, vs', rs', h1, h2, h3⟩
    rw [hvs] at h1; cases h1
    have := EmbedRes.det he hrs.any h2
    cases this
    exact h3
  cases h with
  | @cast _ e he =>
    refine fin (by simp) ?_
    unfold Flt.embedCall
    rw [evalZs_single, evalZ] at hvs
    obtain ⟨v, hv, _⟩ := exc_bind_ok hvs
    obtain ⟨x, hx, _⟩ := exc_bind_ok hv
    simp only [Flt.flattenArgs, Flt.assertArg, Flt.flattenZ, pure_bind, bind_assoc]
    refine Cmp.bind (cmpF_of_ok hp henv he x hx _) fun f => ?_
    simp only [List.getLast?_singleton, Flt.unwrap, pure_bind]
    exact Cmp.pure fun _ => trivial
  | @toBits _ w e he hw hr =>
    refine fin (by simp) ?_
    unfold Flt.embedCall
    rw [evalZs_single, evalZ] at hvs
    obtain ⟨v, hv, _⟩ := exc_bind_ok hvs
    obtain ⟨x, hx, _⟩ := exc_bind_ok hv
    simp only [Flt.flattenArgs, Flt.flattenZ, pure_bind, bind_assoc]
    refine Cmp.bind (P := fun _ => True) ?_ fun _ => ?_
    · unfold Flt.assertArg
      exact Cmp.bind (Cmp.unwrap _) fun _ => (Cmp.assert _).drop
    refine Cmp.bind (cmpU_of_ok hp henv he x hx _) fun u => ?_
    exact Cmp.bind (Cmp.unwrap _) fun u' => Cmp.bind (Cmp.unwrap _) fun bs => Cmp.bind (Cmp.assert _)
      fun _ => Cmp.pure fun _ => trivial
  | @fromBits _ es he h1 h2 =>
    refine fin (by simp) ?_
    unfold Flt.embedCall
    rw [evalZs_bools] at hvs
    obtain ⟨bl, hbl, _⟩ := exc_bind_ok hvs
    exact Cmp.bind (cmp_flattenArgs_bools hp henv es he hbl) fun us => Cmp.bind (Cmp.getFields us) fun _ =>
      Cmp.bind (Cmp.assert _) fun _ => Cmp.pure fun _ => trivial
  | @bitArrayLe as bs ha hb hab hlen =>
    refine fin (by simp) ?_
    have hok : OkBs Γ (as ++ bs) := by
      clear hab hlen fin hvs hrs noEsc
      induction as with
      | nil => exact hb
      | cons a as ih => rw [OkBs] at ha; rw [List.cons_append, OkBs]; exact ⟨ha.1, ih ha.2⟩
    unfold Flt.embedCall
    rw [← List.map_append] at hvs ⊢
    rw [evalZs_bools] at hvs
    obtain ⟨bl, hbl, _⟩ := exc_bind_ok hvs
    refine Cmp.bind (cmp_flattenArgs_bools hp henv _ hok hbl) fun us => ?_
    simp only [List.head?_cons, Flt.unwrap, pure_bind]
    refine Cmp.bind (Cmp.assert _) fun _ => Cmp.bind (Cmp.getFields _) fun es => Cmp.bind (Cmp.defineAll es) fun vars =>
      Cmp.bind (Cmp.getFields _) fun ds => Cmp.bind (Cmp.constBools ds) fun cs =>
      Cmp.bind ((Cmp.constantLeCheck (vars.map FlatExpr.ident) cs (bl.take as.length) (pre := True)).pre_of ?_) fun conds =>
      Cmp.bind (Cmp.eqCheck _ _) fun r => Cmp.pure fun _ => trivial
    rintro ⟨⟨⟨⟨⟨⟨_, fs, h1, h2⟩, _⟩, h3⟩, h4⟩, _⟩, _⟩
    refine ⟨trivial, ?_⟩
    unfold BitsRel
    rw [List.map_map]
    have : (FlatExpr.val ρ ∘ FlatExpr.ident) = ρ := rfl
    rw [this, h4, h3 (fs.take as.length) (by rw [h1, List.map_take])]
    exact h2.take _
  | @unpack n e he =>
    rw [evalZs_single, evalZ] at hvs
    obtain ⟨v, hv, hvs⟩ := exc_bind_ok hvs
    obtain ⟨x, hx, hv⟩ := exc_bind_ok hv
    cases hv; cases hvs
    cases hrs with
    | unpack _ _ bl hbl =>
    obtain ⟨hlt, rfl⟩ := hbl
    unfold Flt.embedCall
    simp only [Flt.flattenArgs, Flt.assertArg, Flt.flattenZ, pure_bind, bind_assoc]
    refine Cmp.bind (cmpF_of_ok hp henv he x hx _) fun f => ?_
    simp only [List.head?_cons, Flt.unwrap, pure_bind]
    unfold Flt.unpackCall
    have hg : (Flt.getFields [Flt.withField f] : FlatM p Z _) = pure [f] := getFields_withField [f]
    rw [hg, pure_bind]
    simp only
    have rel : ∀ {vs : List Variable}, vs.map ρ = (bitsBE n x.val).map boolF →
        BitsRel ρ (vs.map FlatExpr.ident) (bitsBE n x.val) := by
      intro vs h
      unfold BitsRel
      rw [List.map_map]
      exact h
    refine Cmp.bind (Cmp.define f) fun y => Cmp.bind (Cmp.useSyms n) fun os => Cmp.bind
      (Cmp.direc ((bitsBE n x.val).map boolF) ?_) fun _ =>
      Cmp.bind (Cmp.emitAll _ ?_).drop fun _ => Cmp.bind (Cmp.cond ?_) fun _ => Cmp.bind (Cmp.useSyms n) fun rs =>
      Cmp.bind (Cmp.emitAll _ ?_) fun _ => Cmp.pure ?_
    · rintro ⟨⟨⟨_, h1, _⟩, h2⟩, h3⟩
      simp only [List.map_cons, List.map_nil, FlatExpr.val, h2, h1]
      exact ⟨exec_bits_any n x, by simp [h3]⟩
    · rintro ⟨_, h4⟩ _ s hs
      obtain ⟨o, ho, rfl⟩ := List.mem_map.1 hs
      obtain ⟨b, hb⟩ := (rel h4).mem (b := .ident o) (List.mem_map.2 ⟨o, by simpa using ho, rfl⟩)
      refine .condition ?_
      simp only [FlatExpr.val] at hb ⊢
      rw [hb, boolF_mul_self]
    · rintro ⟨⟨⟨⟨⟨_, h1, _⟩, h2⟩, _⟩, h4⟩, _⟩
      rw [val_flatFromBits (rel h4), natBE_bitsBE_of_lt hlt]
      simp [FlatExpr.val, h2, h1]
    · rintro _ hh s hs
      obtain ⟨t, _, rfl⟩ := List.mem_map.1 hs
      have := hh _ hs
      cases this with
      | definition h => exact .definition h
    · rintro ⟨⟨⟨⟨⟨⟨⟨⟨_, h1, _⟩, h2⟩, h3⟩, h4⟩, _⟩, _⟩, h6⟩, h7⟩
      have hrs : BitsRel ρ (rs.map FlatExpr.ident) (bitsBE n x.val) := by
        have : ∀ (rs os : List Variable), rs.length = os.length →
            (∀ s ∈ ((List.zip rs os).map (fun t => FlatStmt.definition t.1 (.ident t.2))),
              FlatStmt.Good sem ρ s) → rs.map ρ = os.map ρ := by
          intro rs
          induction rs with
          | nil => intro os h1 h2; cases os with
            | nil => rfl
            | cons => simp at h1
          | cons r rs ih =>
            intro os h1 h2
            cases os with
            | nil => simp at h1
            | cons o os =>
              simp only [List.map_cons, List.cons.injEq]
              refine ⟨?_, ih os (by simpa using h1) fun s hs => h2 s ?_⟩
              · have := h2 (.definition r (.ident o)) (by simp)
                cases this with
                | definition h => exact h
              · simp only [List.zip_cons_cons, List.map_cons, List.mem_cons]
                exact Or.inr hs
        exact rel (by rw [this rs os (by rw [h6, h3]) h7]; exact h4)
      have := resOks_bits hrs
      rw [length_bitsBE, List.map_map] at this
      exact this

end Zok
