import Verif.Lemmas.CmpStmt
import Verif.Lemmas.Params

/-
Completeness of the flattening of statements and functions, continued.
-/

set_option linter.unusedSectionVars false
set_option linter.unusedVariables false

namespace Zok
variable {p : ℕ} {Z : Type} [Fact p.Prime]
variable {sem : SolverSem (ZMod p) Z} {ρ : Assignment (ZMod p)} {L : ZId → Option Variable} {pre : Prop} {Γ : Ctx}
  {env : ZEnv p}

open FlatExpr Fld

/-- New variables with the values `vs`. -/
theorem ctrp_useVariables {σ : ZState p} {xs : List ZId} {vs : List (ZMod p)} :
    ∀ st ys st', Flt.useVariables xs st = some (ys, (st' : FlState p Z)) → ys.length = xs.length ∧
      st'.out = st.out ∧ st'.cache = st.cache ∧ st'.clash = st.clash ∧
      (EnvOk Γ σ.env st.layout ρ → ys.map ρ = vs →
        EnvOk (Γ.setAll xs (xs.map fun _ => .field)) (σ.setAll xs (vs.map .field)).env st'.layout ρ) := by
  induction xs generalizing Γ σ vs with
  | nil =>
    intro st ys st' h
    cases h
    refine ⟨rfl, rfl, rfl, rfl, fun h _ => ?_⟩
    simpa [Ctx.setAll, ZState.setAll] using h
  | cons x xs ih =>
    intro st ys st' h
    rw [Flt.useVariables] at h
    obtain ⟨y, st1, h1, h2⟩ := FlatM.bind_some h
    obtain ⟨ys', st2, h3, h4⟩ := FlatM.bind_some h2
    have h5 : some (y :: ys', st2) = some (ys, st') := h4
    cases h5
    cases h1
    obtain ⟨g1, g2, g3, g4, g5⟩ := ih (Γ := Γ.set x .field) (σ := σ.set x (.field (ρ (Variable.new st.next))))
      (vs := vs.tail) _ _ _ h3
    refine ⟨by simp [g1], g2, g3, g4, fun henv hv => ?_⟩
    cases vs with
    | nil => cases hv
    | cons v vs =>
      simp only [List.map_cons, List.cons.injEq] at hv
      have := g5 (EnvOk.set henv rfl) hv.2
      rw [hv.1] at this
      simpa [Ctx.setAll, ZState.setAll] using this

theorem ZState.setAll_outs (σ : ZState p) (xs : List ZId) (vs : List (ZVal p)) : (σ.setAll xs vs).outs = σ.outs := by
  induction xs generalizing σ vs with
  | nil => rfl
  | cons x xs ih => cases vs with
    | nil => rfl
    | cons v vs => rw [ZState.setAll, ih]; rfl

/-- Looked-up variables have the values of the environment. -/
theorem lookups_vals {σ : ZState p} {xs : List ZId} (hx : ∀ x ∈ xs, Γ x = some .field ∨ Γ x = some .bool)
    {st st' : FlState p Z} {ys : List Variable} (h : Flt.lookups xs st = some (ys, st'))
    (henv : EnvOk Γ σ.env st.layout ρ) {vs : List (ZVal p)} (hv : evalIds σ.env xs = some vs) :
    ys.map ρ = vs.map ZVal.enc := by
  induction xs generalizing ys vs st' with
  | nil => cases h; cases hv; rfl
  | cons x xs ih =>
    rw [Flt.lookups] at h
    obtain ⟨y, st3, h5, h6⟩ := FlatM.bind_some h
    obtain ⟨ys', st4, h7, h8⟩ := FlatM.bind_some h6
    have h9 : some (y :: ys', st4) = some (ys, st') := h8
    cases h9
    have hy : st.layout x = some y ∧ st3 = st := by
      unfold Flt.lookup at h5
      split at h5
      · rename_i hl; cases h5; exact ⟨hl, rfl⟩
      · cases h5
    obtain ⟨hy, rfl⟩ := hy
    rw [evalIds] at hv
    split at hv
    · rename_i v vs' h1 h2
      cases hv
      rw [List.map_cons, List.map_cons, ih (fun z hz => hx z (by simp [hz])) h7 h2]
      congr 1
      rcases hx x (by simp) with hk | hk
      · obtain ⟨y', g1, g2⟩ := henv x _ hk
        obtain ⟨v', g3, g4⟩ := varOk_iff.1 g2
        rw [hy] at g1; cases g1
        rw [h1] at g3; cases g3
        cases g4; rfl
      · obtain ⟨y', g1, g2⟩ := henv x _ hk
        obtain ⟨v', g3, g4⟩ := varOk_iff.1 g2
        rw [hy] at g1; cases g1
        rw [h1] at g3; cases g3
        obtain ⟨b, rfl, hb⟩ := g4
        exact hb
    · cases hv

/-- Completeness of an assembly statement. -/
theorem ctrp_asm (hp : 2 < p) {Γ' : Ctx} {s : ZAsm (ZMod p) Z} (h : OkAsm Γ s Γ') {σ σ' : ZState p}
    (hex : ExecAsm (Oracle.honest sem) σ s (.ok σ')) :
    CTrp sem ρ (StH ρ Γ σ) (Flt.flattenAsm s) (fun _ st => StH ρ Γ' σ' st) := by
  cases h with
  | @assignment xs f args ha =>
    cases hex with
    | @assignment _ _ _ ins outs hins hhint hlen =>
    rw [Flt.flattenAsm]
    intro st a st' hm hI hg hh hc
    obtain ⟨vs, st1, h1, h2⟩ := FlatM.bind_some hm
    obtain ⟨ys, st2, h3, h4⟩ := FlatM.bind_some h2
    have hst1 : st1 = st := lookups_state h1
    subst hst1
    cases h4
    obtain ⟨g1, g2, g3, g4, g5⟩ := ctrp_useVariables (ρ := ρ) (Γ := Γ) (σ := σ) (vs := outs) _ _ _ h3
    have hin := lookups_vals ha h1 hI.env hins
    have hin' : (vs.map FlatExpr.ident).map (FlatExpr.val ρ) = ins.map ZVal.enc := by
      rw [List.map_map, ← hin]; rfl
    have hhon := hh (.directive ys (.zir f) (vs.map FlatExpr.ident)) (by simp)
    have hys : ys.map ρ = outs := by
      cases hhon with
      | directive hd => exact hd outs (by rw [hin']; exact hhint) (by rw [hlen, g1])
    refine ⟨Cmp.goodF_snoc (by rw [g2]; exact hg) ?_, ⟨?_, g5 hI.env hys, ?_⟩⟩
    · intro s hs
      rw [List.mem_singleton] at hs
      subst hs
      exact .directive (by rw [hin', hys]; exact hhint)
    · intro e c he; exact hI.cache e c (by rw [← g3]; exact he)
    · intro vs' hvs; rw [ZState.setAll_outs] at hvs; exact hI.outs vs' hvs
  | @constraint l r info hl hr =>
    cases hex with
    | ok hv1 hv2 =>
    rw [Flt.flattenAsm]
    refine CTrp.of_cmp fun st hI => ⟨hI.cache, ?_⟩
    refine Cmp.bind (cmpF_of_ok hp hI.env hl _ hv1 _) fun a => Cmp.bind (cmpF_of_ok hp hI.env hr _ hv2 _) fun b =>
      (Cmp.cond ?_).post fun _ _ _ st' hc hL => ⟨hc, by rw [hL]; exact hI.env, hI.outs⟩
    rintro ⟨⟨_, h1, _⟩, h2, _⟩
    rw [h1, h2]

theorem ctrp_asms (hp : 2 < p) {Γ' : Ctx} {ss : List (ZAsm (ZMod p) Z)} (h : OkAsms Γ ss Γ') {σ σ' : ZState p}
    (hex : ExecAsms (Oracle.honest sem) σ ss (.ok σ')) :
    CTrp sem ρ (StH ρ Γ σ) (Flt.flattenAsms ss) (fun _ st => StH ρ Γ' σ' st) := by
  induction h generalizing σ with
  | nil => cases hex; rw [Flt.flattenAsms]; exact CTrp.pure fun st h => h
  | @cons Γ s Γ1 ss Γ2 h1 h2 ih =>
    cases hex with
    | @cons _ _ _ σ1 _ e1 e2 =>
    rw [Flt.flattenAsms]
    exact CTrp.bind (ctrp_asm hp h1 e1) (fun _ => MonoS.flattenAsms _) fun _ => ih e2

theorem ctrp_inBlock {I : FlState p Z → Prop} {m : FlatM p Z Unit} {J : FlState p Z → Prop}
    (hI : ∀ st o, I st → I { st with out := o }) (hJ : ∀ st o, J st → J { st with out := o })
    (h : CTrp sem ρ I m (fun _ => J)) : CTrp sem ρ I (Flt.inBlock m) (fun _ => J) := by
  intro st a st' hm hi hg hh hc
  unfold Flt.inBlock at hm
  cases hm1 : m { st with out := [] } with
  | none => rw [hm1] at hm; cases hm
  | some t =>
    obtain ⟨u, st1⟩ := t
    rw [hm1] at hm
    cases hm
    have hb : HonF sem ρ st1.out := by
      have := hh (.block st1.out) (by simp)
      cases this with
      | block h => exact h
    obtain ⟨h1, h2⟩ := h _ _ _ hm1 (hI _ _ hi) (fun s hs => by cases hs) hb hc
    refine ⟨Cmp.goodF_snoc hg ?_, hJ _ _ h2⟩
    intro s hs
    rw [List.mem_singleton] at hs
    subst hs
    exact .block h1

theorem outputDefs_good {fs : List (FlatExpr (ZMod p))} (h : ∀ s ∈ Flt.outputDefs (Z := Z) fs, FlatStmt.Hon sem ρ s) :
    ∀ s ∈ Flt.outputDefs (Z := Z) fs, FlatStmt.Good sem ρ s := by
  intro s hs
  have := h s hs
  unfold Flt.outputDefs at hs
  obtain ⟨t, _, rfl⟩ := List.mem_map.1 hs
  cases this with
  | definition h => exact .definition h

mutual
/-- Completeness of a statement. -/
theorem ctrp_stmt (hp : 2 < p) : ∀ (s : ZStmt (ZMod p) Z) (Γ Γ' : Ctx), OkStmt Γ s Γ' → ∀ σ σ' : ZState p,
    Exec (Oracle.honest sem) σ s (.ok σ') →
    CTrp sem ρ (StH ρ Γ σ) (Flt.flattenStmt s) (fun _ st => StH ρ Γ' σ' st)
  | .ret es, Γ, Γ', h, σ, σ', hex => by
    cases h with
    | ret h =>
    cases hex with
    | @ret _ _ vs hvs =>
    rw [Flt.flattenStmt]
    refine CTrp.of_cmp fun st hI => ⟨hI.cache, ?_⟩
    refine Cmp.bind (cmp_flattenZs hp hI.env es (fun e he => (h e he).1) hvs) fun fs =>
      (Cmp.emitAll _ fun _ hh => outputDefs_good hh).post ?_
    rintro _ ⟨_, h2, h3⟩ h4 st' hc hL
    refine ⟨hc, by rw [hL]; exact hI.env, ?_⟩
    intro vs' hvs i v hi
    simp only [Option.some.injEq] at hvs
    subst hvs
    have h5 := h3 fun e he => (h e he).2
    have h6 : (fs.map (FlatExpr.val ρ))[i]? = some v.enc := by rw [h5, List.getElem?_map, hi]; rfl
    rw [List.getElem?_map] at h6
    cases hfi : fs[i]? with
    | none => rw [hfi] at h6; cases h6
    | some f =>
      rw [hfi] at h6
      rw [outputDefs_sat (Z := Z) (fun s hs => (h4 s hs).sat) i f hfi]
      exact Option.some.inj h6
  | .assembly ss, Γ, Γ', h, σ, σ', hex => by
    cases h with
    | assembly h =>
    cases hex with
    | assembly hex =>
    rw [Flt.flattenStmt]
    refine ctrp_inBlock ?_ ?_ (ctrp_asms hp h hex)
    · intro st o h; exact ⟨h.cache, h.env, h.outs⟩
    · intro st o h; exact ⟨h.cache, h.env, h.outs⟩
  | .ifElse c t e, Γ, Γ', h, σ, σ', hex => by
    cases h with
    | @ifElse _ _ _ _ Γ1 _ hc ht he =>
    cases hex with
    | @ifElse _ _ _ _ b σ1 _ hb e1 e2 =>
    rw [Flt.flattenStmt]
    refine CTrp.bind (ctrp_of_cmpP fun L hL => cmpB_of_ok hp hL hc b hb _) ?_ fun f => CTrp.pull fun _ => ?_
    · intro f
      exact MonoS.bind (Mono.newDef _).toS fun _ => MonoS.bind (MonoS.flattenStmts _) fun _ => MonoS.flattenStmts _
    refine CTrp.bind (ctrp_of_cmpP fun L hL => Cmp.newDef f) ?_ fun _ => CTrp.pull fun _ => ?_
    · exact fun _ => MonoS.bind (MonoS.flattenStmts _) fun _ => MonoS.flattenStmts _
    exact CTrp.bind (ctrp_stmts hp t Γ Γ1 ht σ σ1 e1) (fun _ => MonoS.flattenStmts _) fun _ =>
      ctrp_stmts hp e Γ1 Γ' he σ1 σ' e2
  | .definition x e, Γ, Γ', h, σ, σ', hex => by
    cases h with
    | definition h =>
    cases hex with
    | @definition _ _ _ v hv =>
    rw [Flt.flattenStmt]
    refine CTrp.bind (ctrp_of_cmpP fun L hL => cmp_flattenZ hp hL h hv) (fun u => ?_) fun u => CTrp.pull fun hf => ?_
    · refine MonoS.bind (Mono.getField _).toS fun f => MonoS.bind (MonoS.bindVar _ _) fun v => ?_
      split
      · exact (Mono.setCache _ _).toS
      · exact (Mono.pure _).toS
    refine CTrp.bind (ctrp_of_cmpP fun L hL => cmp_getFieldOf u) (fun f => ?_) fun f => CTrp.pull fun hfo => ?_
    · refine MonoS.bind (MonoS.bindVar _ _) fun v => ?_
      split
      · exact (Mono.setCache _ _).toS
      · exact (Mono.pure _).toS
    obtain ⟨h1, _, h3⟩ := hf f hfo
    refine CTrp.bind (ctrp_bindVar h1) (fun y => ?_) fun y => CTrp.pull fun hy => ?_
    · split
      · exact (Mono.setCache _ _).toS
      · exact (Mono.pure _).toS
    split
    · rename_i bs hbs
      intro st a st' hm hI hg hh hc
      cases hm
      exact ⟨hg, hI.cache.set (h3 bs hbs y hy) rfl, hI.env, hI.outs⟩
    · exact CTrp.pure fun st hI => hI
  | .assertion e err, Γ, Γ', h, σ, σ', hex => by
    cases h with
    | assertion h hn =>
    cases hex with
    | assertOk hv =>
    rw [Flt.flattenStmt]
    refine CTrp.of_cmp fun st hI => ⟨hI.cache, ?_⟩
    exact (cmp_assertions hp hI.env err (Flt.conjuncts e) fun c hc =>
      ⟨okB_conjuncts (mem_conjuncts hc) h, evalB_conjunct (mem_conjuncts hc) hv⟩).post
      fun _ _ _ st' hc hL => ⟨hc, by rw [hL]; exact hI.env, hI.outs⟩
  | .multiDef xs embed g args, Γ, Γ', h, σ, σ', hex => by
    cases h with
    | @multiDef _ _ _ _ _ ks hnew h =>
    cases hex with
    | @multiDef _ _ _ _ _ vs rs h1 h2 hlr =>
    rw [Flt.flattenStmt]
    refine CTrp.bind (ctrp_of_cmpP fun L hL => cmp_embedCall hp hL h h1 h2) (fun us => ?_) fun us =>
      CTrp.pull fun h3 => ?_
    · refine MonoS.bind (Mono.assert _).toS fun _ => MonoS.bind (MonoS.bindVars _ _) fun _ => ?_
      split
      · exact MonoS.bind (Mono.flattenZs _).toS fun _ => MonoS.bind (Mono.unwrap _).toS fun _ => (Mono.setCache _ _).toS
      · exact (Mono.pure _).toS
    refine CTrp.bind (ctrp_of_cmpP (P := fun _ => decide (xs.length = us.length) = true) fun L _ => Cmp.assert _)
      (fun us => ?_) fun _ => CTrp.pull fun hlen => ?_
    · refine MonoS.bind (MonoS.bindVars _ _) fun _ => ?_
      split
      · exact MonoS.bind (Mono.flattenZs _).toS fun _ => MonoS.bind (Mono.unwrap _).toS fun _ => (Mono.setCache _ _).toS
      · exact (Mono.pure _).toS
    have hlen : xs.length = us.length := by simpa using hlen
    have main := ctrp_bindVars (sem := sem) (Z := Z) (Γ := Γ) (σ := σ) h3 hlen
    cases h with
    | @fromBits _ es he hl1 hl2 =>
      -- the bits are flattened again and cached for the new variable
      obtain ⟨x, rfl⟩ : ∃ x, xs = [x] := by
        have : ([Kind.uint es.length (2 ^ es.length - 1)] : List Kind).length = us.length := h3.length.1
        simp only [List.length_singleton] at this
        match xs, hlen.trans this.symm with
        | [x], _ => exact ⟨x, rfl⟩
      obtain ⟨u, rfl⟩ : ∃ u, us = [u] := by
        match us, hlen.symm with
        | [u], _ => exact ⟨u, rfl⟩
      have hrs : ∃ bl : List Bool, evalBs σ.env es = .ok bl ∧ vs = bl.map .bool ∧ rs = [.uint bl.length (natBE bl)] ∧
          bl.length = es.length := by
        rw [evalZs_bools] at h1
        obtain ⟨bl, hb, h1⟩ := exc_bind_ok h1
        cases h1
        obtain ⟨bl', h4, h5, h6⟩ := embedRes_fromBits h2
        have := zbool_map_inj h5
        subst this
        exact ⟨bl, hb, rfl, h6, h4.symm⟩
      obtain ⟨bl, hbl, rfl, rfl, hblen⟩ := hrs
      simp only [ResOks, and_true] at h3
      rw [Flt.bindVars, Flt.bindVars]
      swap
      · simp
      simp only [bind_assoc, pure_bind, List.head?_cons, Flt.unwrap]
      refine CTrp.bind (ctrp_of_cmpP fun L _ => cmp_getField h3) (fun f => ?_) fun f => CTrp.pull fun hf => ?_
      · exact MonoS.bind (MonoS.bindVar _ _) fun v => MonoS.bind (Mono.flattenZs _).toS fun _ => (Mono.setCache _ _).toS
      refine CTrp.bind (ctrp_bindVar hf) (fun y => ?_) fun y => CTrp.pull fun hy => ?_
      · exact MonoS.bind (Mono.flattenZs _).toS fun _ => (Mono.setCache _ _).toS
      obtain ⟨n, hn, hn1, hn2, hn3⟩ := hf
      obtain ⟨_, hn⟩ := ZVal.uint.inj hn
      subst hn
      -- arguments are evaluated in the state before the assignment
      intro st a st' hm hI hg hh hc
      obtain ⟨bits, st1, hb1, hb2⟩ := FlatM.bind_some hm
      cases hb2
      have henv : EnvOk Γ σ.env st.layout ρ := by
        intro z k hz
        have hzx : z ≠ x := fun h => by rw [h, hnew x (by simp)] at hz; cases hz
        obtain ⟨y', h7, h8⟩ := hI.env z k (by simpa [Ctx.set, hzx] using hz)
        obtain ⟨v', h9, h10⟩ := varOk_iff.1 h8
        exact ⟨y', h7, varOk_iff.2 ⟨v', by simpa [ZState.set, hzx] using h9, h10⟩⟩
      obtain ⟨_, _, hL, h7⟩ := cmp_flattenZs_bools (sem := sem) hp henv es he hbl st bits st1 rfl hb1
      obtain ⟨g1, g2, g3⟩ := h7 trivial hI.cache hg hh hc
      refine ⟨g1, g2.set ?_ rfl, by rw [show _ = st.layout from hL]; exact hI.env, hI.outs⟩
      have hlb : bits.length = bl.length := g3.length
      have hval : (FlatExpr.val ρ (.ident y)).val = natBE bl := by
        simp only [FlatExpr.val, hy]
        rwa [Nat.mod_eq_of_lt (by have := Nat.two_pow_pos es.length; omega)] at hn2
      refine ⟨by simp only [hlb, hblen]; omega, ?_, fun _ => ?_⟩
      · simp only [hval, hlb, bitsBE_natBE]; exact g3
      · simp only [hval, hlb]; exact natBE_lt _
    | _ => exact CTrp.bind main (fun _ => (Mono.pure _).toS) fun _ => CTrp.pure fun st hI => hI
  | .log es, Γ, Γ', h, σ, σ', hex => by
    cases h with
    | log h =>
    cases hex with
    | log hv =>
    rw [Flt.flattenStmt]
    refine CTrp.of_cmp fun st hI => ⟨hI.cache, ?_⟩
    exact Cmp.bind (cmp_flattenLog hp hI.env es h hv) fun fs => (Cmp.emit _ fun _ _ => .log fs).post
      fun _ _ _ st' hc hL => ⟨hc, by rw [hL]; exact hI.env, hI.outs⟩
/-- Completeness of a list of statements. -/
theorem ctrp_stmts (hp : 2 < p) : ∀ (ss : List (ZStmt (ZMod p) Z)) (Γ Γ' : Ctx), OkStmts Γ ss Γ' → ∀ σ σ' : ZState p,
    ExecL (Oracle.honest sem) σ ss (.ok σ') →
    CTrp sem ρ (StH ρ Γ σ) (Flt.flattenStmts ss) (fun _ st => StH ρ Γ' σ' st)
  | [], Γ, Γ', h, σ, σ', hex => by
    cases h
    cases hex
    rw [Flt.flattenStmts]; exact CTrp.pure fun st h => h
  | s :: ss, Γ, Γ', h, σ, σ', hex => by
    cases h with
    | @cons _ _ Γ1 _ _ h1 h2 =>
    cases hex with
    | @cons _ _ _ σ1 _ e1 e2 =>
    rw [Flt.flattenStmts]
    exact CTrp.bind (ctrp_stmt hp s Γ Γ1 h1 σ σ1 e1) (fun _ => MonoS.flattenStmts _) fun _ =>
      ctrp_stmts hp ss Γ1 Γ' h2 σ1 σ' e2
end

/-! ### Parameters and functions -/

/-- One parameter. -/
theorem ctrp_useParameter (hp : 2 < p) (q : ZParam) {σ : ZState p} {st st' : FlState p Z}
    {a : Parameter} (hm : Flt.useParameter q st = some (a, st')) (hI : StH ρ Γ σ st) (hg : GoodF sem ρ st.out)
    (hh : HonF sem ρ st'.out) (hc : st'.clash = false) {v : ZVal p} (hv : decodeArg q.ty (ρ a.id) = some v) :
    GoodF sem ρ st'.out ∧ StH ρ (Γ.set q.id q.ty.kind) (σ.set q.id v) st' := by
  unfold Flt.useParameter at hm
  obtain ⟨y, st1, h1, h2⟩ := FlatM.bind_some hm
  obtain ⟨_, st2, h3, h4⟩ := FlatM.bind_some h2
  have h5 : some (⟨y, q.priv⟩, st2) = some (a, st') := h4
  cases h5
  cases h1
  have fin : ∀ (st3 : FlState p Z), CacheH ρ st3 →
      st3.layout = (fun y => if y = q.id then some (Variable.new st.next) else st.layout y) →
      StH ρ (Γ.set q.id q.ty.kind) (σ.set q.id v) st3 := fun st3 hc hL =>
    ⟨hc, by rw [hL]; exact hI.env.set (kval_of_decode hv), hI.outs⟩
  cases ht : q.ty with
  | field =>
    rw [ht] at h3 fin
    cases h3
    exact ⟨hg, fin _ hI.cache rfl⟩
  | bool =>
    rw [ht] at h3 fin hv
    cases h3
    refine ⟨Cmp.goodF_snoc hg ?_, fin _ hI.cache rfl⟩
    intro s hs
    rw [List.mem_singleton] at hs
    subst hs
    refine .condition ?_
    simp only [decodeArg] at hv
    simp only [FlatExpr.val]
    split at hv
    · rename_i h0; simp [h0]
    · split at hv
      · rename_i h0; simp [h0]
      · cases hv
  | uint w =>
    rw [ht] at h3 fin hv
    obtain ⟨bs, st3, h6, h7⟩ := FlatM.bind_some h3
    have h8 : some ((), st3) = some (_, st') := h7
    cases h8
    obtain ⟨_, _, hL, h9⟩ := Cmp.getBits_field (sem := sem) (ρ := ρ) (pre := True)
      (.ident (Variable.new st.next)) w .sum _ _ _ rfl h6
    have hlt : (ρ (Variable.new st.next)).val < 2 ^ w := by
      simp only [decodeArg] at hv
      split at hv
      · assumption
      · cases hv
    obtain ⟨g1, g2, _⟩ := h9 ⟨trivial, hlt⟩ hI.cache hg hh hc
    exact ⟨g1, fin _ g2 hL⟩

theorem ctrp_useParameters (hp : 2 < p) (qs : List ZParam) {σ : ZState p} {st st' : FlState p Z}
    {as : List Parameter} (hm : Flt.useParameters qs st = some (as, st')) (hI : StH ρ Γ σ st) (hg : GoodF sem ρ st.out)
    (hh : HonF sem ρ st'.out) (hc : st'.clash = false) {vs : List (ZVal p)}
    (hv : decodeArgs qs (as.map fun a => ρ a.id) = some vs) :
    GoodF sem ρ st'.out ∧
      StH ρ (Γ.setAll (qs.map ZParam.id) (qs.map fun q => q.ty.kind)) (σ.setAll (qs.map ZParam.id) vs) st' := by
  induction qs generalizing Γ σ st as vs with
  | nil => cases hm; exact ⟨hg, by simpa [Ctx.setAll, ZState.setAll] using hI⟩
  | cons q qs ih =>
    rw [Flt.useParameters] at hm
    obtain ⟨a, st1, h1, h2⟩ := FlatM.bind_some hm
    obtain ⟨as', st2, h3, h4⟩ := FlatM.bind_some h2
    have h5 : some (a :: as', st2) = some (as, st') := h4
    cases h5
    rw [List.map_cons, decodeArgs] at hv
    split at hv
    · rename_i v vs' hv1 hv2
      cases hv
      obtain ⟨⟨o, ho⟩, hcl, _⟩ := MonoS.useParameters _ _ _ _ h3
      obtain ⟨g1, g2⟩ := ctrp_useParameter hp q h1 hI hg (by rw [ho] at hh; exact hh.left) (hcl hc) hv1
      obtain ⟨g3, g4⟩ := ih h3 g2 g1 hv2
      exact ⟨g3, by simpa [Ctx.setAll, ZState.setAll] using g4⟩
    · cases hv

/-- Completeness of the flattening of a function: if it returns on the arguments and the statements are computed
honestly, then they all succeed and the outputs are the returned values. -/
theorem flattenFun_complete (hp : 2 < p) {f : ZFun (ZMod p) Z} (hf : OkFun f) {args : List Parameter}
    {st' : FlState p Z} (hm : Flt.flattenFun f (FlState.init p Z) = some (args, st')) (hc : st'.clash = false)
    (hh : HonF sem ρ st'.out) {outs : List (ZMod p)}
    (hr : Returns (Oracle.honest sem) f (args.map fun a => ρ a.id) outs) :
    GoodF sem ρ st'.out ∧ outs.length = f.returnCount ∧ ∀ i v, outs[i]? = some v → ρ (Variable.pub i) = v := by
  obtain ⟨vs, σ', rs, hvs, hex, hrs, rfl⟩ := hr
  unfold Flt.flattenFun at hm
  obtain ⟨args', st1, h1, h2⟩ := FlatM.bind_some hm
  obtain ⟨_, st2, h3, h4⟩ := FlatM.bind_some h2
  have h5 : some (args', st2) = some (args, st') := h4
  cases h5
  obtain ⟨⟨o, ho⟩, hcl, _⟩ := MonoS.flattenStmts _ _ _ _ h3
  have hinit : StH ρ (fun _ => none) (⟨fun _ => none, none⟩ : ZState p) (FlState.init p Z) :=
    ⟨(fun f c h => by cases h), (fun x k h => by cases h), (fun vs h => by cases h)⟩
  obtain ⟨g1, g2⟩ := ctrp_useParameters (sem := sem) hp f.params h1 hinit (fun s hs => by cases hs)
    (by rw [ho] at hh; exact hh.left) (hcl hc) hvs
  obtain ⟨ss, es, Γ', hb1, hb2, hb3⟩ := hf.body
  obtain ⟨g3, g4⟩ := ctrp_stmts hp f.body _ Γ' hb3 _ _ hex _ _ _ h3 g2 g1 hh hc
  refine ⟨g3, ?_, ?_⟩
  · rw [hb1] at hex
    rcases execL_append hex with ⟨σ1, _, h9⟩ | ⟨_, h9, _⟩
    · cases h9 with
      | cons h10 h11 =>
        cases h11
        cases h10 with
        | ret h12 =>
          cases hrs
          rw [List.length_map, evalZs_length h12, hb2]
    · cases h9
  · intro i v hi
    rw [List.getElem?_map] at hi
    cases hri : rs[i]? with
    | none => rw [hri] at hi; cases hi
    | some w =>
      rw [hri] at hi
      cases hi
      exact g4.outs rs hrs i w hri

end Zok
