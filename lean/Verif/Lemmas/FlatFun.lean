import Verif.Lemmas.FlatStmt2

/-
Soundness of the flattening of parameters and functions.
-/

set_option linter.unusedSectionVars false
set_option linter.unusedVariables false

namespace Zok
variable {p : ℕ} {Z : Type} [Fact p.Prime]
variable {ρ : Assignment (ZMod p)} {L : ZId → Option Variable} {E pre : Prop} {Γ : Ctx} {env : ZEnv p}

open FlatExpr Fld

theorem kval_of_decode {t : ZType} {x : ZMod p} {v : ZVal p} (h : decodeArg t x = some v) : KVal t.kind v x := by
  cases t with
  | field => cases h; rfl
  | bool =>
    simp only [decodeArg] at h
    split at h
    · rename_i h0; cases h; exact ⟨false, rfl, by simp [h0, boolF]⟩
    · split at h
      · rename_i h0; cases h; exact ⟨true, rfl, by simp [h0, boolF]⟩
      · cases h
  | uint w =>
    simp only [decodeArg] at h
    split at h
    · rename_i h0
      cases h
      exact ⟨x.val, rfl, h0, Nat.mod_eq_of_lt h0, by have := Nat.two_pow_pos w; show x.val ≤ 2 ^ w - 1; omega⟩
    · cases h

/-- One parameter. -/
theorem trp_useParameter (hp : 2 < p) (q : ZParam) (hq : q.ty.Ok p) (σ : ZState p) :
    Trp ρ False (StOk ρ Γ σ) (Flt.useParameter q : FlatM p Z _) (fun a st =>
      ∃ v, decodeArg q.ty (ρ a.id) = some v ∧ a.priv = q.priv ∧
        StOk ρ (Γ.set q.id q.ty.kind) (σ.set q.id v) st) := by
  unfold Flt.useParameter
  intro st a st' hm hI hs hc
  obtain ⟨v, st1, h1, h2⟩ := FlatM.bind_some hm
  obtain ⟨_, st2, h3, h4⟩ := FlatM.bind_some h2
  have h5 : some (⟨v, q.priv⟩, st2) = some (a, st') := h4
  cases h5
  cases h1
  -- the rest of the invariant
  have fin : ∀ (w : ZVal p) (st3 : FlState p Z), decodeArg q.ty (ρ (Variable.new st.next)) = some w → CacheOk ρ st3 →
      st3.layout = (fun y => if y = q.id then some (Variable.new st.next) else st.layout y) →
      StOk ρ (Γ.set q.id q.ty.kind) (σ.set q.id w) st3 := fun w st3 hw hc hL =>
    ⟨hc, by rw [hL]; exact hI.env.set (kval_of_decode hw), hI.outs⟩
  refine Or.inr ?_
  cases ht : q.ty with
  | field =>
    rw [ht] at h3
    cases h3
    rw [ht] at fin
    exact ⟨_, rfl, rfl, fin _ _ rfl hI.cache rfl⟩
  | bool =>
    rw [ht] at h3
    cases h3
    rw [ht] at fin
    have hb := hs (Flt.bitness (.ident (Variable.new st.next)) .argumentBitness) (by simp)
    simp only [Flt.bitness, sat_condition, FlatExpr.val] at hb
    rcases bool_of_mul_self hb.symm with h0 | h0
    · have : decodeArg ZType.bool (ρ (Variable.new st.next)) = some (.bool false) := by simp [decodeArg, h0]
      exact ⟨_, this, rfl, fin _ _ this hI.cache rfl⟩
    · have : decodeArg ZType.bool (ρ (Variable.new st.next)) = some (.bool true) := by simp [decodeArg, h0]
      exact ⟨_, this, rfl, fin _ _ this hI.cache rfl⟩
  | uint w =>
    rw [ht] at h3 fin hq
    simp only [ZType.Ok] at hq
    obtain ⟨bs, st3, h6, h7⟩ := FlatM.bind_some h3
    have h8 : some ((), st3) = some (_, st') := h7
    cases h8
    obtain ⟨_, _, hL, h9⟩ := Sound.getBits_exact (ρ := ρ) (Z := Z) (E := False) (pre := True) hp
      (.ident (Variable.new st.next)) w .sum _ _ _ rfl h6
    rcases h9 ⟨trivial, fun x h => by cases h⟩ hI.cache hs hc with he | ⟨hcache, bl, b1, b2, b3, b4⟩
    · exact he.elim
    · have hlt : natBE bl < 2 ^ w := by rw [← b2]; exact natBE_lt bl
      have hv := val_eq_of_lt (lt_of_lt_of_le hlt (pow_le_p (by omega))) b3
      have : decodeArg (ZType.uint w) (ρ (Variable.new st.next)) = some (.uint w (natBE bl)) := by
        simp only [FlatExpr.val] at hv
        simp [decodeArg, hv, hlt]
      exact ⟨_, this, rfl, fin _ _ this hcache hL⟩

theorem MonoS.useParameter (q : ZParam) : MonoS (Flt.useParameter q : FlatM p Z _) := by
  unfold Flt.useParameter
  refine MonoS.bind (MonoS.useVariable _) fun v => MonoS.bind ?_ fun _ => (Mono.pure _).toS
  split
  · exact MonoS.bind (Mono.getBits _ _ _ _).toS fun _ => (Mono.pure _).toS
  · exact (Mono.emit _).toS
  · exact (Mono.pure _).toS

theorem MonoS.useParameters (qs : List ZParam) : MonoS (Flt.useParameters qs : FlatM p Z _) := by
  induction qs with
  | nil => exact (Mono.pure _).toS
  | cons q qs ih =>
    rw [Flt.useParameters]
    exact MonoS.bind (MonoS.useParameter q) fun _ => MonoS.bind ih fun _ => (Mono.pure _).toS

/-- All parameters. -/
theorem trp_useParameters (hp : 2 < p) (qs : List ZParam) (hq : ∀ q ∈ qs, q.ty.Ok p) (Γ : Ctx) (σ : ZState p) :
    Trp ρ False (StOk ρ Γ σ) (Flt.useParameters qs : FlatM p Z _) (fun as st =>
      ∃ vs, decodeArgs qs (as.map fun a => ρ a.id) = some vs ∧ as.map Parameter.priv = qs.map ZParam.priv ∧
        StOk ρ (Γ.setAll (qs.map ZParam.id) (qs.map fun q => q.ty.kind)) (σ.setAll (qs.map ZParam.id) vs) st) := by
  induction qs generalizing Γ σ with
  | nil =>
    rw [Flt.useParameters]
    exact Trp.pure fun st h => ⟨[], rfl, rfl, by simpa [Ctx.setAll, ZState.setAll] using h⟩
  | cons q qs ih =>
    rw [Flt.useParameters]
    refine Trp.bind (trp_useParameter hp q (hq q (by simp)) σ) (fun _ => MonoS.bind (MonoS.useParameters _) fun _ =>
      (Mono.pure _).toS) fun a => Trp.ex fun v => ?_
    intro st as st' hm hI hs hc
    obtain ⟨as', st1, h1, h2⟩ := FlatM.bind_some hm
    have h3 : some (a :: as', st1) = some (as, st') := h2
    cases h3
    rcases ih (fun q hq' => hq q (by simp [hq'])) _ _ st as' st' h1 hI.2.2 hs hc with he | ⟨vs, h4, h5, h6⟩
    · exact he.elim
    · refine Or.inr ⟨v :: vs, ?_, ?_, ?_⟩
      · simp only [List.map_cons, decodeArgs, hI.1, h4]
      · simp [h5, hI.2.1]
      · simpa [Ctx.setAll, ZState.setAll] using h6

theorem execL_append {O : Oracle p Z} {σ : ZState p} {as bs : List (ZStmt (ZMod p) Z)} {r : Except Fault (ZState p)} :
    ExecL O σ (as ++ bs) r → (∃ σ', ExecL O σ as (.ok σ') ∧ ExecL O σ' bs r) ∨ ∃ f, r = .error f ∧ ExecL O σ as r := by
  induction as generalizing σ with
  | nil => intro h; exact Or.inl ⟨σ, .nil, h⟩
  | cons a as ih =>
    intro h
    cases h with
    | fault h => exact Or.inr ⟨_, rfl, .fault h⟩
    | cons h1 h2 =>
      rcases ih h2 with ⟨σ', h3, h4⟩ | ⟨f, rfl, h3⟩
      · exact Or.inl ⟨σ', .cons h1 h3, h4⟩
      · exact Or.inr ⟨f, rfl, .cons h1 h3⟩

theorem evalZs_length {es : List (ZExpr (ZMod p))} {vs : List (ZVal p)} (h : evalZs env es = .ok vs) :
    vs.length = es.length := by
  induction es generalizing vs with
  | nil => cases h; rfl
  | cons e es ih =>
    rw [evalZs] at h
    cases h1 : evalZ env e with
    | error f => rw [h1] at h; cases h
    | ok v =>
      rw [h1, exc_ok] at h
      cases h2 : evalZs env es with
      | error f => rw [h2] at h; cases h
      | ok ws => rw [h2, exc_ok] at h; cases h; simp [ih h2]

/-- Soundness of the flattening of a function. -/
theorem flattenFun_sound (hp : 2 < p) {f : ZFun (ZMod p) Z} (hf : OkFun f) {args : List Parameter}
    {st' : FlState p Z} (hm : Flt.flattenFun f (FlState.init p Z) = some (args, st')) (hc : st'.clash = false)
    (hs : SatF ρ st'.out) :
    Returns (Oracle.any p Z) f (args.map fun a => ρ a.id) ((List.range f.returnCount).map fun i => ρ (Variable.pub i)) ∨
    ∃ e, Undetected e ∧ Faults (Oracle.any p Z) f (args.map fun a => ρ a.id) e := by
  unfold Flt.flattenFun at hm
  obtain ⟨args', st1, h1, h2⟩ := FlatM.bind_some hm
  obtain ⟨_, st2, h3, h4⟩ := FlatM.bind_some h2
  have h5 : some (args', st2) = some (args, st') := h4
  cases h5
  obtain ⟨⟨o, ho⟩, hcl, _⟩ := MonoS.flattenStmts _ _ _ _ h3
  have hinit : StOk ρ (fun _ => none) (⟨fun _ => none, none⟩ : ZState p) (FlState.init p Z) :=
    ⟨(fun f c h => by cases h), (fun x k h => by cases h), (fun vs h => by cases h)⟩
  rcases trp_useParameters hp f.params hf.params _ _ _ _ _ h1 hinit (by rw [ho] at hs; exact hs.left) (hcl hc) with
    he | ⟨vs, h6, h7, h8⟩
  · exact he.elim
  obtain ⟨ss, es, Γ', hb1, hb2, hb3⟩ := hf.body
  rcases trp_stmts hp f.body _ Γ' hb3 _ _ _ _ h3 h8 hs hc with ⟨e, he, hex⟩ | ⟨σ', hex, hok⟩
  · exact Or.inr ⟨e, he, vs, h6, hex⟩
  · refine Or.inl ?_
    have : ∃ rs, σ'.outs = some rs ∧ rs.length = f.returnCount := by
      rw [hb1] at hex
      rcases execL_append hex with ⟨σ1, _, h9⟩ | ⟨_, h9, _⟩
      · cases h9 with
        | cons h10 h11 =>
          cases h11
          cases h10 with
          | ret h12 => exact ⟨_, rfl, by rw [evalZs_length h12, hb2]⟩
      · cases h9
    obtain ⟨rs, h9, h10⟩ := this
    refine ⟨vs, σ', rs, h6, hex, h9, ?_⟩
    apply List.ext_getElem?
    intro i
    rw [List.getElem?_map, List.getElem?_map]
    by_cases hi : i < f.returnCount
    · rw [List.getElem?_range hi, List.getElem?_eq_getElem (by omega)]
      simp only [Option.map_some]
      rw [hok.outs rs h9 i rs[i] (List.getElem?_eq_getElem (by omega))]
    · rw [List.getElem?_eq_none (by omega), List.getElem?_eq_none (by simp; omega)]
      rfl

end Zok
