import Verif.Lemmas.PipelineProp
import Verif.Lemmas.FlattenTypesFun

/-
Failing assertions are kept by the flattening of types and by the propagation of constants.
-/

set_option linter.unusedSectionVars false

namespace Zok
open Prop' Pl
variable {p : ℕ} {Z : Type} [Fact p.Prime] {O : Oracle p Z}

theorem AssertFails.faults {f : ZFun (ZMod p) Z} {ins : List (ZMod p)} (h : AssertFails O f ins) : Faults O f ins .assertionFailed := by
  obtain ⟨vs, pre, e, err, post, σ, h1, h2, h3, h4⟩ := h
  refine ⟨vs, h1, ?_⟩
  rw [h2]
  exact Prop'.execL_append h3 (.fault (.assertFailed h4))

theorem failsOutside_append {t : List (ZStmt (ZMod p) Z)} {e : Fault} : ∀ {pre : List (ZStmt (ZMod p) Z)} {σ σ' : ZState p}, ExecL O σ pre (.ok σ') →
    FailsOutsideL O σ' t e → FailsOutsideL O σ (pre ++ t) e
  | [], _, _, h, h' => by cases h; exact h'
  | _ :: _, _, _, h, h' => by
    cases h with
    | cons h1 h2 => exact .tail h1 (failsOutside_append h2 h')

theorem AssertFails.outside {f : ZFun (ZMod p) Z} {ins : List (ZMod p)} (h : AssertFails O f ins) :
    ∃ e vs, decodeArgs f.params ins = some vs ∧ FailsOutsideL O (initState f vs) f.body e := by
  obtain ⟨vs, pre, e, err, post, σ, h1, h2, h3, h4⟩ := h
  refine ⟨.assertionFailed, vs, h1, ?_⟩
  rw [h2]
  exact failsOutside_append h3 (.head (.assertFailed h4))

/-! ### Propagation -/

variable {H : HintFolder p Z} {err : String → RuntimeError} {ar : Z → ℕ}

theorem propSs_append : ∀ {s t : List (ZStmt (ZMod p) Z)} {c c' : Consts p} {ss}, propSs H err c (s ++ t) = .ok (c', ss) →
    ∃ c₁ s' t', propSs H err c s = .ok (c₁, s') ∧ propSs H err c₁ t = .ok (c', t') ∧ ss = s' ++ t'
  | [], t, c, c', ss, h => ⟨c, [], ss, by simp only [propSs], h, rfl⟩
  | x :: s, t, c, c', ss, h => by
    simp only [List.cons_append, propSs] at h
    obtain ⟨⟨c₁, x'⟩, h1, h⟩ := Prop'.exc_bind_ok h
    obtain ⟨⟨c₂, s'⟩, h2, h⟩ := Prop'.exc_bind_ok h
    simp only [Except.ok.injEq, Prod.mk.injEq] at h
    obtain ⟨rfl, rfl⟩ := h
    obtain ⟨c₃, u, v, h3, h4, rfl⟩ := propSs_append h2
    exact ⟨c₃, x' ++ u, v, by simp only [propSs, h1, h3, exc_ok_bind], h4, by simp⟩

theorem dom_execL {K : ZId → Prop} : ∀ {s : List (ZStmt (ZMod p) Z)} {K : ZId → Prop} {σ σ₁ : ZState p} {t : List (ZStmt (ZMod p) Z)}, TyStmts ar K (s ++ t) →
    Dom K σ → ExecL O σ s (.ok σ₁) → ∃ K', Dom K' σ₁ ∧ TyStmts ar K' t
  | [], K, _, _, _, ht, hd, h => by cases h; exact ⟨K, hd, ht⟩
  | _ :: _, _, _, _, _, ht, hd, h => by
    cases h with
    | cons h1 h2 => exact dom_execL (K := K) ht.2 (dom_exec ht.1 hd h1) h2

theorem noAsmL_left : ∀ {s t : List (ZStmt (ZMod p) Z)}, ZStmt.NoAsmL (s ++ t) → ZStmt.NoAsmL s
  | [], _, _ => trivial
  | _ :: _, _, h => ⟨h.1, noAsmL_left h.2⟩

theorem tyStmts_left : ∀ {s t : List (ZStmt (ZMod p) Z)} {K : ZId → Prop}, TyStmts ar K (s ++ t) → TyStmts ar K s
  | [], _, _, _ => trivial
  | _ :: _, _, _, h => ⟨h.1, tyStmts_left h.2⟩

/-- A failing assertion fails behind the propagation, or is reported by it. -/
theorem AssertFails.propagate {f f' : ZFun (ZMod p) Z} (hf : ZStmt.NoAsmL f.body) (ht : TyFun ar f) (hp : propagate H err f = .ok f')
    {ins : List (ZMod p)} (h : AssertFails O f ins) : AssertFails (noHints O) f' ins := by
  rw [propagate_hints (H' := noFolder p Z) hf] at hp
  obtain ⟨c', h1, hpar, hrc⟩ := propagate_inv hp
  have hi : ∀ vs, initState f' vs = initState f vs := by intro vs; simp only [initState, hpar]
  obtain ⟨vs, pre, e, er, post, σ, hd, hb, hx, hv⟩ := h
  obtain ⟨hs, hdom⟩ := init_sim hd
  rw [TyFun, hb] at ht
  rw [hb] at h1
  obtain ⟨c₁, s', t', g1, g2, g3⟩ := propSs_append h1
  obtain ⟨c₂, s'', k1, σ', k2, hs'⟩ := propSs_fwd (err := err) (hintOk_none ar O) hs hdom (tyStmts_left ht)
    (execL_congr (O := O) (O' := noHints O) rfl (by
      rw [hb] at hf
      exact noAsmL_left hf) hx)
  rw [g1] at k1
  cases k1
  obtain ⟨K', d1, d2⟩ := dom_execL (K := fun _ => False) ht hdom hx
  obtain ⟨e', j2, _, j3⟩ := propB_ok hs'.agree hs'.ok e false d2.1 hv
  simp only [propSs] at g2
  obtain ⟨⟨c₃, a⟩, m1, m2⟩ := Prop'.exc_bind_ok g2
  obtain ⟨⟨c₄, b⟩, m3, m4⟩ := Prop'.exc_bind_ok m2
  simp only [Except.ok.injEq, Prod.mk.injEq] at m4
  obtain ⟨rfl, rfl⟩ := m4
  simp only [propS, j2, exc_ok_bind] at m1
  cases hbv : bval? e' with
  | some b =>
    have := ev_bval hbv j3.2; subst this
    rw [hbv] at m1
    cases m1
  | none =>
    rw [hbv] at m1
    cases m1
    exact ⟨vs, s', e', er, b, σ', by rw [hpar]; exact hd, by rw [g3]; rfl, by rw [hi]; exact k2, j3.2.false_eq⟩

end Zok

namespace Zok.Typed
open Abi
variable {p : ℕ} {Z : Type} [Fact p.Prime] {O : Oracle p Z} {nm : SId → ZId}

theorem flatStmts_append : ∀ {s t : List (TStmt (ZMod p))} {ss : List (ZStmt (ZMod p) Z)}, flatStmts nm (s ++ t) = some ss →
    ∃ a b, flatStmts nm s = some a ∧ flatStmts nm t = some b ∧ ss = a ++ b
  | [], t, ss, h => ⟨[], ss, rfl, h, rfl⟩
  | x :: s, t, ss, h => by
    simp only [List.cons_append, flatStmts] at h
    split at h
    · rename_i a b h1 h2
      cases h
      obtain ⟨u, v, h3, h4, rfl⟩ := flatStmts_append h2
      exact ⟨a ++ u, v, by simp only [flatStmts, h1, h3], h4, by simp⟩
    · cases h

/-- A failing assertion fails in the flattened function. -/
theorem AssertFailsT.flat (hnm : Function.Injective nm) (hp : 2 ^ 64 ≤ p) {f : TFun (ZMod p)} {g : ZFun (ZMod p) Z} (hw : f.Wt)
    (hsim : ∀ s ∈ f.body, s.Simultaneous nm) (hf : flatFun nm f = some g) {args : List (AVal (ZMod p))} (h : AssertFailsT O f args) :
    AssertFails O g (encodeL args) := by
  obtain ⟨h1, h2, h3⟩ := flatFun_some hf
  obtain ⟨ht, pre, e, err, post, σ, hb, hx, hv⟩ := h
  rw [hb] at h2
  obtain ⟨a, b, i1, i2, i3⟩ := flatStmts_append h2
  have hm : ∀ s ∈ pre, s ∈ f.body := fun s hs => by rw [hb]; exact List.mem_append_left _ hs
  have hwe := hw.body (.assertion e err) (by rw [hb]; simp)
  obtain ⟨τ, j1, j2⟩ := flatStmts_forward hnm (sim_init hnm hw h1 ht) (fun s hs => hw.body s (hm s hs)) (fun s hs => hsim s (hm s hs)) i1 hx
  simp only [flatStmts] at i2
  split at i2
  · rename_i u v k1 k2
    cases i2
    simp only [flatStmt] at k1
    split at k1
    · rename_i c hc
      cases k1
      refine ⟨_, a, c, err, v, τ, params_decode hp h1 ht, by rw [i3]; rfl, j2, ?_⟩
      obtain ⟨zs, l1, l2⟩ := bind_some hc
      have hev := flat_ev j1.1 e zs _ hwe.2 l1 hv
      simp only [prims] at hev
      exact popB_ev hev l2
    · cases k1
  · cases i2

end Zok.Typed
