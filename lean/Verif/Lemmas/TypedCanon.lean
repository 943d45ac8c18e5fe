import Verif.Lemmas.TypedFold
import Verif.Lemmas.VariableWriteStmt
import Verif.Lemmas.BooleanArray

/-
Constant propagation on typed programs: constants in canonical form.
-/

set_option linter.unusedSectionVars false
set_option linter.unusedSimpArgs false

namespace Zok.Typed
open Abi
variable {p : ℕ} [Fact p.Prime]

theorem pbind_ok {α β : Type} {x : Except PErr α} {f : α → Except PErr β} {v : β} (h : x.bind f = .ok v) : ∃ a, x = .ok a ∧ f a = .ok v :=
  Prop'.exc_bind_ok h

theorem perr_bind {α β : Type} {x : Except PErr α} {f : α → Except PErr β} {er : PErr} (h : x.bind f = .error er) : x = .error er ∨ ∃ a, x = .ok a ∧ f a = .error er := by
  cases x with
  | error e => cases h; exact .inl rfl
  | ok a => exact .inr ⟨a, rfl, h⟩

mutual
/-- Constants in canonical form: array values without spreads. -/
def TExpr.IsCanon {F : Type} : TExpr F → Prop
  | .fval _ | .bval _ | .uval _ _ => True
  | .array _ _ es => IsCanonS es
  | .struct _ es | .tuple _ es => IsCanonL es
  | _ => False
/-- For lists. -/
def IsCanonL {F : Type} : List (TExpr F) → Prop
  | [] => True
  | e :: es => e.IsCanon ∧ IsCanonL es
/-- For the elements of arrays. -/
def IsCanonS {F : Type} : List (TSpread F) → Prop
  | [] => True
  | .expr e :: es => e.IsCanon ∧ IsCanonS es
  | .spread _ :: _ => False
end

/-- The constant `c` has the value `v` everywhere. -/
def Denotes (c : TExpr (ZMod p)) (v : AVal (ZMod p)) : Prop := ∀ env, evalT env c = .ok v

theorem isCanonL_iff {F : Type} {es : List (TExpr F)} : IsCanonL es ↔ ∀ e ∈ es, e.IsCanon := by
  induction es with
  | nil => simp [IsCanonL]
  | cons e es ih => simp [IsCanonL, ih]

theorem isCanonS_iff {F : Type} {es : List (TExpr F)} : IsCanonS (es.map TSpread.expr) ↔ ∀ e ∈ es, e.IsCanon := by
  induction es with
  | nil => simp [IsCanonS]
  | cons e es ih => simp [IsCanonS, ih]

theorem isCanonS_map {F : Type} : ∀ {es : List (TSpread F)}, IsCanonS es → ∃ xs : List (TExpr F), es = xs.map TSpread.expr ∧ ∀ x ∈ xs, x.IsCanon
  | [], _ => ⟨[], rfl, by simp⟩
  | .expr e :: es, h => by
    obtain ⟨xs, rfl, h2⟩ := isCanonS_map h.2
    exact ⟨e :: xs, rfl, by simpa using ⟨h.1, h2⟩⟩
  | .spread _ :: _, h => h.elim

theorem spreadCount_map {F : Type} {t : CType} {es : List (TExpr F)} {n : ℕ} : spreadCount t (es.map TSpread.expr) n ↔ n = es.length := by
  induction es generalizing n with
  | nil => simp [spreadCount]
  | cons e es ih => simp [spreadCount, ih]

theorem wtS_map {F : Type} {t : CType} {es : List (TExpr F)} : WtS t (es.map TSpread.expr) ↔ ∀ e ∈ es, e.ty = t ∧ e.Wt := by
  induction es with
  | nil => simp [WtS]
  | cons e es ih => simp [WtS, ih]

theorem wtL_all {F : Type} {es : List (TExpr F)} : WtL es ↔ ∀ e ∈ es, e.Wt := by
  induction es with
  | nil => simp [WtL]
  | cons e es ih => simp [WtL, ih]

theorem denotes_evalS {cs : List (TExpr (ZMod p))} {vs : List (AVal (ZMod p))} (h : List.Forall₂ Denotes cs vs) (env : TEnv p) :
    evalS env (cs.map TSpread.expr) = .ok vs := evalS_exprs (h.imp fun _ _ g => g env)
theorem denotes_evalL {cs : List (TExpr (ZMod p))} {vs : List (AVal (ZMod p))} (h : List.Forall₂ Denotes cs vs) (env : TEnv p) :
    evalL env cs = .ok vs := evalL_forall₂ (h.imp fun _ _ g => g env)

theorem denotes_array {t : CType} {n : ℕ} {cs : List (TExpr (ZMod p))} {vs : List (AVal (ZMod p))} (h : List.Forall₂ Denotes cs vs) :
    Denotes (.array t n (cs.map TSpread.expr)) (.array vs) := fun env => by simp only [evalT, denotes_evalS h env]; rfl

theorem forall₂_drop {α β : Type} {R : α → β → Prop} {a : List α} {b : List β} (h : List.Forall₂ R a b) (n : ℕ) : List.Forall₂ R (a.drop n) (b.drop n) := by
  induction h generalizing n with
  | nil => simp
  | cons h1 h2 ih => cases n with
    | zero => exact .cons h1 h2
    | succ n => exact ih n
theorem forall₂_take {α β : Type} {R : α → β → Prop} {a : List α} {b : List β} (h : List.Forall₂ R a b) (n : ℕ) : List.Forall₂ R (a.take n) (b.take n) := by
  induction h generalizing n with
  | nil => simp
  | cons h1 h2 ih => cases n with
    | zero => exact .nil
    | succ n => exact .cons h1 (ih n)
theorem forall₂_replicate {α β : Type} {R : α → β → Prop} {a : α} {b : β} (h : R a b) (n : ℕ) : List.Forall₂ R (List.replicate n a) (List.replicate n b) := by
  induction n with
  | zero => exact .nil
  | succ n ih => exact .cons h ih

theorem canonA_canon {e : TExpr (ZMod p)} {n : ℕ} {t : CType} {cs : List (TExpr (ZMod p))} (ht : e.ty = .array n t) (h : canonA e = .ok cs) :
    canon e = .ok (.array t n (cs.map TSpread.expr)) := by
  match e, ht, h with
  | .array t' n' es, ht, h =>
    simp only [TExpr.ty, CType.array.injEq] at ht
    obtain ⟨rfl, rfl⟩ := ht
    simp only [canonA] at h
    simp only [canon]
    rw [h]
    rfl
  | .slice t' n' (.array _ _ es) (.uval _ l) (.uval _ r), ht, h =>
    simp only [TExpr.ty, CType.array.injEq] at ht
    obtain ⟨rfl, rfl⟩ := ht
    simp only [canonA] at h
    simp only [canon]
    obtain ⟨c, h1, h⟩ := pbind_ok h
    rw [h1]
    change (if _ then _ else _) = _
    split at h
    · cases h
    · rename_i hl; cases h; rw [if_neg hl]
  | .repeat_ t' n' a (.uval _ k), ht, h =>
    simp only [TExpr.ty, CType.array.injEq] at ht
    obtain ⟨rfl, rfl⟩ := ht
    simp only [canonA] at h
    simp only [canon]
    obtain ⟨c, h1, h⟩ := pbind_ok h
    rw [h1]
    cases h
    rfl

theorem denotes_of_evalS : ∀ {c : List (TExpr (ZMod p))} {us : List (AVal (ZMod p))}, (∀ env, evalS env (c.map TSpread.expr) = .ok us) → List.Forall₂ Denotes c us
  | [], us, h => by
    have := h fun _ => none
    simp only [List.map_nil, evalS] at this
    cases this; exact .nil
  | x :: c, us, h => by
    obtain ⟨a, as, k1, k2, rfl, _⟩ := expr_ok (h fun _ => none)
    have hh : ∀ env, evalT env x = .ok a ∧ evalS env (c.map TSpread.expr) = .ok as := fun env => by
      obtain ⟨a', as', k3, k4, k5, _⟩ := expr_ok (h env)
      cases k5; exact ⟨k3, k4⟩
    exact .cons (fun env => (hh env).1) (denotes_of_evalS fun env => (hh env).2)

theorem denotes_elems {t : CType} {n : ℕ} {c : List (TExpr (ZMod p))} {v : AVal (ZMod p)} (h : Denotes (.array t n (c.map TSpread.expr)) v) :
    ∃ us, v = .array us ∧ List.Forall₂ Denotes c us := by
  obtain ⟨us, g1, rfl, _⟩ := array_ok (h fun _ => none)
  refine ⟨us, rfl, denotes_of_evalS fun env => ?_⟩
  obtain ⟨us', k1, k2, _⟩ := array_ok (h env)
  cases k2; exact k1

mutual
/-- A constant and its canonical form have the same value and the same type. -/
theorem canon_spec : ∀ (e c : TExpr (ZMod p)), canon e = .ok c → e.Wt → ∃ v, Denotes e v ∧ Denotes c v ∧ c.ty = e.ty ∧ c.Wt ∧ c.IsCanon
  | .fval n, c, h, w => by simp only [canon] at h; cases h; exact ⟨.field n, fun _ => by simp only [evalT], fun _ => by simp only [evalT], rfl, w, trivial⟩
  | .bval n, c, h, w => by simp only [canon] at h; cases h; exact ⟨.bool n, fun _ => by simp only [evalT], fun _ => by simp only [evalT], rfl, w, trivial⟩
  | .uval u n, c, h, w => by simp only [canon] at h; cases h; exact ⟨.uint u n, fun _ => by simp only [evalT], fun _ => by simp only [evalT], rfl, w, trivial⟩
  | .array t n es, c, h, w => by
    simp only [canon] at h
    obtain ⟨cs, h1, h⟩ := pbind_ok h
    cases h
    obtain ⟨vs, e1, e2, e3, e4⟩ := canonS_spec t es n cs h1 w.2.2 w.2.1
    refine ⟨.array vs, fun env => by simp only [evalT, e1 env]; rfl, denotes_array e2, rfl, ⟨w.1, spreadCount_map.2 e3.symm, wtS_map.2 fun c hc => ⟨(e4 c hc).1, (e4 c hc).2.1⟩⟩,
      isCanonS_iff.2 fun c hc => (e4 c hc).2.2⟩
  | .slice t n a lo hi, c, h, w => by
    obtain ⟨⟨k, l, r, ht, rfl, rfl, hl, hr, rfl⟩, wa⟩ := w
    cases a <;> try (simp only [canon, reduceCtorEq] at h; done)
    rename_i t' k' es
    simp only [TExpr.ty, CType.array.injEq] at ht
    obtain ⟨rfl, rfl⟩ := ht
    simp only [canon] at h
    obtain ⟨cs, h1, h⟩ := pbind_ok h
    rw [if_neg (by omega)] at h
    cases h
    obtain ⟨vs, e1, e2, e3, e4⟩ := canonS_spec _ es _ cs h1 wa.2.2 wa.2.1
    have hlen : vs.length = _ := e2.length_eq.symm.trans e3
    have e5 := forall₂_take (forall₂_drop e2 l) (r - l)
    have hmem : ∀ c ∈ (cs.drop l).take (r - l), c ∈ cs := fun c hc => List.mem_of_mem_drop (List.mem_of_mem_take hc)
    refine ⟨.array ((vs.drop l).take (r - l)), fun env => ?_, denotes_array e5, rfl, ⟨wa.1, spreadCount_map.2 ?_, wtS_map.2 fun c hc => ⟨(e4 c (hmem c hc)).1, (e4 c (hmem c hc)).2.1⟩⟩,
      isCanonS_iff.2 fun c hc => (e4 c (hmem c hc)).2.2⟩
    · simp only [evalT, e1 env]
      change (if l ≤ r ∧ r ≤ vs.length then _ else _) = _
      rw [if_pos ⟨hl, by omega⟩, List.drop_take]
    · simp only [List.length_take, List.length_drop]; omega
  | .repeat_ t n e k, c, h, w => by
    obtain ⟨⟨ht, rfl⟩, rfl, we⟩ := w
    simp only [canon] at h
    obtain ⟨c, h1, h⟩ := pbind_ok h
    cases h
    obtain ⟨v, e1, e2, e3, e4, e5⟩ := canon_spec e c h1 we
    refine ⟨.array (List.replicate n v), fun env => ?_, denotes_array (forall₂_replicate e2 n), rfl, ⟨ht, spreadCount_map.2 (by simp), wtS_map.2 fun c hc => ?_⟩,
      isCanonS_iff.2 fun c hc => ?_⟩
    · simp only [evalT, e1 env]; rfl
    · rw [List.eq_of_mem_replicate hc]; exact ⟨e3, e4⟩
    · rw [List.eq_of_mem_replicate hc]; exact e5
  | .struct ms es, c, h, w => by
    simp only [canon] at h
    obtain ⟨cs, h1, h⟩ := pbind_ok h
    cases h
    obtain ⟨vs, e1, e2, e3, e4⟩ := canonL_spec es cs h1 w.2.2
    exact ⟨.struct ((ms.map Prod.fst).zip vs), fun env => by simp only [evalT, e1 env]; rfl, fun env => by simp only [evalT, denotes_evalL e2 env]; rfl, rfl,
      ⟨w.1, e3.trans w.2.1, wtL_all.2 fun c hc => (e4 c hc).1⟩, isCanonL_iff.2 fun c hc => (e4 c hc).2⟩
  | .tuple ts es, c, h, w => by
    simp only [canon] at h
    obtain ⟨cs, h1, h⟩ := pbind_ok h
    cases h
    obtain ⟨vs, e1, e2, e3, e4⟩ := canonL_spec es cs h1 w.2
    exact ⟨.tuple vs, fun env => by simp only [evalT, e1 env]; rfl, fun env => by simp only [evalT, denotes_evalL e2 env]; rfl, rfl,
      ⟨e3.trans w.1, wtL_all.2 fun c hc => (e4 c hc).1⟩, isCanonL_iff.2 fun c hc => (e4 c hc).2⟩
  | .ident _ _, c, h, w | .fbin _ _ _, c, h, w | .fubin _ _ _, c, h, w | .fneg _, c, h, w | .fpos _, c, h, w | .ubin _ _ _ _, c, h, w
  | .unot _ _, c, h, w | .uneg _ _, c, h, w | .upos _ _, c, h, w | .bbin _ _ _, c, h, w | .bnot _, c, h, w | .fcmp _ _ _, c, h, w | .ucmp _ _ _, c, h, w
  | .eq _ _, c, h, w | .cond _ _ _ _, c, h, w | .select _ _ _, c, h, w | .member _ _ _, c, h, w | .element _ _ _, c, h, w | .removed _, c, h, w => by
    simp only [canon, reduceCtorEq] at h
theorem canonL_spec : ∀ (es cs : List (TExpr (ZMod p))), canonL es = .ok cs → WtL es → ∃ vs, (∀ env, evalL env es = .ok vs) ∧ List.Forall₂ Denotes cs vs ∧
    cs.map TExpr.ty = es.map TExpr.ty ∧ ∀ c ∈ cs, c.Wt ∧ c.IsCanon
  | [], cs, h, w => by simp only [canonL] at h; cases h; exact ⟨[], fun _ => by simp only [evalL], .nil, rfl, by simp⟩
  | e :: es, cs, h, w => by
    simp only [canonL] at h
    obtain ⟨c, h1, h⟩ := pbind_ok h
    obtain ⟨cs, h2, h⟩ := pbind_ok h
    cases h
    obtain ⟨v, e1, e2, e3, e4, e5⟩ := canon_spec e c h1 w.1
    obtain ⟨vs, f1, f2, f3, f4⟩ := canonL_spec es cs h2 w.2
    exact ⟨v :: vs, fun env => by simp only [evalL, e1 env, f1 env]; rfl, .cons e2 f2, by simp [e3, f3], by simpa using ⟨⟨e4, e5⟩, f4⟩⟩
theorem canonS_spec (t : CType) : ∀ (es : List (TSpread (ZMod p))) (n : ℕ) (cs : List (TExpr (ZMod p))), canonS es = .ok cs → WtS t es → spreadCount t es n →
    ∃ vs, (∀ env, evalS env es = .ok vs) ∧ List.Forall₂ Denotes cs vs ∧ cs.length = n ∧ ∀ c ∈ cs, c.ty = t ∧ c.Wt ∧ c.IsCanon
  | [], n, cs, h, w, hn => by simp only [canonS] at h; cases h; exact ⟨[], fun _ => by simp only [evalS], .nil, hn.symm, by simp⟩
  | .expr e :: es, n, cs, h, w, hn => by
    simp only [canonS] at h
    obtain ⟨c, h1, h⟩ := pbind_ok h
    obtain ⟨cs, h2, h⟩ := pbind_ok h
    cases h
    obtain ⟨k, rfl, hn⟩ := hn
    obtain ⟨v, e1, e2, e3, e4, e5⟩ := canon_spec e c h1 w.1.2
    obtain ⟨vs, f1, f2, f3, f4⟩ := canonS_spec t es k cs h2 w.2 hn
    exact ⟨v :: vs, fun env => by simp only [evalS, e1 env, f1 env]; rfl, .cons e2 f2, by simp [f3], by simpa using ⟨⟨e3.trans w.1.1, e4, e5⟩, f4⟩⟩
  | .spread e :: es, n, cs, h, w, hn => by
    simp only [canonS] at h
    obtain ⟨c, h1, h⟩ := pbind_ok h
    obtain ⟨cs, h2, h⟩ := pbind_ok h
    cases h
    obtain ⟨m, k, ht, rfl, hn⟩ := hn
    obtain ⟨v, e1, e2, e3, e4, e5⟩ := canon_spec e _ (canonA_canon ht h1) w.1
    obtain ⟨vs, f1, f2, f3, f4⟩ := canonS_spec t es k cs h2 w.2 hn
    have hm := spreadCount_map.1 e4.2.1
    have hw := wtS_map.1 e4.2.2
    have hc := isCanonS_iff.1 e5
    have e6 := denotes_elems e2
    obtain ⟨us, rfl, e6⟩ := e6
    refine ⟨us ++ vs, fun env => by simp only [evalS, e1 env, f1 env]; rfl, List.rel_append e6 f2, by simp [f3, hm], fun x hx => ?_⟩
    rcases List.mem_append.1 hx with hx | hx
    · exact ⟨(hw x hx).1, (hw x hx).2, hc x hx⟩
    · exact f4 x hx
end

theorem evalL_length {env : TEnv p} : ∀ {es : List (TExpr (ZMod p))} {vs : List (AVal (ZMod p))}, evalL env es = .ok vs → vs.length = es.length
  | [], vs, h => by simp only [evalL] at h; cases h; rfl
  | e :: es, vs, h => by
    obtain ⟨a, as, _, h2, rfl, _⟩ := cons_ok h
    simp [evalL_length h2]

theorem zip_inj {α β : Type} : ∀ {a : List α} {b c : List β}, a.length = b.length → a.length = c.length → a.zip b = a.zip c → b = c
  | [], b, c, h1, h2, _ => by
    cases b <;> cases c <;> simp_all
  | x :: a, b, c, h1, h2, h => by
    cases b with
    | nil => simp at h1
    | cons y b => cases c with
      | nil => simp at h2
      | cons z c =>
        simp only [List.zip_cons_cons, List.cons.injEq, Prod.mk.injEq, true_and] at h
        rw [h.1, zip_inj (by simpa using h1) (by simpa using h2) h.2]

mutual
theorem canon_undetected : ∀ {e : TExpr (ZMod p)} {er : PErr}, canon e = .error er → ¬ er.Detected
  | .fval _, _, h | .bval _, _, h | .uval _ _, _, h => by simp only [canon, reduceCtorEq] at h
  | .array t n es, er, h => by
    simp only [canon] at h
    rcases perr_bind h with h | ⟨a, _, h⟩
    · exact canonS_undetected h
    · cases h
  | .slice t n a lo hi, er, h => by
    unfold canon at h
    split at h <;> try (cases h; done)
    all_goals try (rename_i heq; cases heq; done)
    · rename_i heq
      cases heq
      rcases perr_bind h with h | ⟨a, _, h⟩
      · exact canonS_undetected h
      · split at h
        · cases h; simp [PErr.Detected]
        · cases h
    all_goals cases h; simp [PErr.Detected]
  | .repeat_ t n e c, er, h => by
    unfold canon at h
    split at h <;> try (cases h; done)
    all_goals try (rename_i heq; cases heq; done)
    · rename_i heq
      cases heq
      rcases perr_bind h with h | ⟨a, _, h⟩
      · exact canon_undetected h
      · cases h
    all_goals cases h; simp [PErr.Detected]
  | .struct ms es, er, h => by
    simp only [canon] at h
    rcases perr_bind h with h | ⟨a, _, h⟩
    · exact canonL_undetected h
    · cases h
  | .tuple ts es, er, h => by
    simp only [canon] at h
    rcases perr_bind h with h | ⟨a, _, h⟩
    · exact canonL_undetected h
    · cases h
  | .ident _ _, _, h | .fbin _ _ _, _, h | .fubin _ _ _, _, h | .fneg _, _, h | .fpos _, _, h | .ubin _ _ _ _, _, h
  | .unot _ _, _, h | .uneg _ _, _, h | .upos _ _, _, h | .bbin _ _ _, _, h | .bnot _, _, h | .fcmp _ _ _, _, h | .ucmp _ _ _, _, h
  | .eq _ _, _, h | .cond _ _ _ _, _, h | .select _ _ _, _, h | .member _ _ _, _, h | .element _ _ _, _, h | .removed _, _, h => by
    simp only [canon] at h; cases h; simp [PErr.Detected]
theorem canonL_undetected : ∀ {es : List (TExpr (ZMod p))} {er : PErr}, canonL es = .error er → ¬ er.Detected
  | [], _, h => by simp only [canonL, reduceCtorEq] at h
  | e :: es, er, h => by
    simp only [canonL] at h
    rcases perr_bind h with h | ⟨a, _, h⟩
    · exact canon_undetected h
    · rcases perr_bind h with h | ⟨a, _, h⟩
      · exact canonL_undetected h
      · cases h
theorem canonA_undetected : ∀ {e : TExpr (ZMod p)} {er : PErr}, canonA e = .error er → ¬ er.Detected
  | .array t n es, er, h => by
    simp only [canonA] at h
    exact canonS_undetected h
  | .slice t n a lo hi, er, h => by
    unfold canonA at h
    split at h <;> try (cases h; done)
    all_goals try (rename_i heq; cases heq; done)
    · rename_i heq
      cases heq
      rcases perr_bind h with h | ⟨a, _, h⟩
      · exact canonS_undetected h
      · split at h
        · cases h; simp [PErr.Detected]
        · cases h
    all_goals cases h; simp [PErr.Detected]
  | .repeat_ t n e c, er, h => by
    unfold canonA at h
    split at h <;> try (cases h; done)
    all_goals try (rename_i heq; cases heq; done)
    · rename_i heq
      cases heq
      rcases perr_bind h with h | ⟨a, _, h⟩
      · exact canon_undetected h
      · cases h
    all_goals cases h; simp [PErr.Detected]
  | .ident _ _, _, h | .fbin _ _ _, _, h | .fubin _ _ _, _, h | .fneg _, _, h | .fpos _, _, h | .ubin _ _ _ _, _, h | .fval _, _, h | .bval _, _, h | .uval _ _, _, h
  | .unot _ _, _, h | .uneg _ _, _, h | .upos _ _, _, h | .bbin _ _ _, _, h | .bnot _, _, h | .fcmp _ _ _, _, h | .ucmp _ _ _, _, h | .struct _ _, _, h | .tuple _ _, _, h
  | .eq _ _, _, h | .cond _ _ _ _, _, h | .select _ _ _, _, h | .member _ _ _, _, h | .element _ _ _, _, h | .removed _, _, h => by
    simp only [canonA] at h; cases h; simp [PErr.Detected]
theorem canonS_undetected : ∀ {es : List (TSpread (ZMod p))} {er : PErr}, canonS es = .error er → ¬ er.Detected
  | [], _, h => by simp only [canonS, reduceCtorEq] at h
  | .expr e :: es, er, h => by
    simp only [canonS] at h
    rcases perr_bind h with h | ⟨a, _, h⟩
    · exact canon_undetected h
    · rcases perr_bind h with h | ⟨a, _, h⟩
      · exact canonS_undetected h
      · cases h
  | .spread e :: es, er, h => by
    simp only [canonS] at h
    rcases perr_bind h with h | ⟨a, _, h⟩
    · exact canonA_undetected h
    · rcases perr_bind h with h | ⟨a, _, h⟩
      · exact canonS_undetected h
      · cases h
end

mutual
/-- Constants in canonical form are determined by their types and their values. -/
theorem canon_inj {env : TEnv p} : ∀ (c d : TExpr (ZMod p)) (v : AVal (ZMod p)), c.IsCanon → d.IsCanon → c.Wt → d.Wt → c.ty = d.ty → evalT env c = .ok v →
    evalT env d = .ok v → c = d
  | .fval n, d, v, k1, k2, w1, w2, ht, h1, h2 => by
    cases d <;> simp only [TExpr.IsCanon, TExpr.ty, reduceCtorEq] at k2 ht
    simp only [evalT] at h1 h2; cases h1; cases h2; rfl
  | .bval n, d, v, k1, k2, w1, w2, ht, h1, h2 => by
    cases d <;> simp only [TExpr.IsCanon, TExpr.ty, reduceCtorEq] at k2 ht
    simp only [evalT] at h1 h2; cases h1; cases h2; rfl
  | .uval w n, d, v, k1, k2, w1, w2, ht, h1, h2 => by
    cases d <;> simp only [TExpr.IsCanon, TExpr.ty, reduceCtorEq] at k2 ht
    simp only [evalT] at h1 h2; cases h1; cases h2; rfl
  | .array t n es, d, v, k1, k2, w1, w2, ht, h1, h2 => by
    cases d <;> simp only [TExpr.IsCanon, TExpr.ty, reduceCtorEq] at k2 ht
    cases ht
    obtain ⟨vs, g1, rfl, _⟩ := array_ok h1
    obtain ⟨vs', g2, g3, _⟩ := array_ok h2
    cases g3
    rw [canonS_inj t es _ vs k1 k2 w1.2.2 w2.2.2 g1 g2]
  | .struct ms es, d, v, k1, k2, w1, w2, ht, h1, h2 => by
    cases d <;> simp only [TExpr.IsCanon, TExpr.ty, reduceCtorEq] at k2 ht
    rename_i ms' es'
    cases ht
    obtain ⟨vs, g1, _⟩ := struct_ok h1
    obtain ⟨vs', g2, _⟩ := struct_ok h2
    have l1 := evalL_length g1
    have l2 := evalL_length g2
    have l3 := congrArg List.length w1.2.1
    have l4 := congrArg List.length w2.2.1
    simp only [List.length_map] at l3 l4
    simp only [evalT, g1] at h1
    simp only [evalT, g2] at h2
    cases h1
    have heq : (ms.map Prod.fst).zip vs' = (ms.map Prod.fst).zip vs := AVal.struct.inj (Except.ok.inj h2)
    have : vs' = vs := zip_inj (by simp; omega) (by simp; omega) heq
    subst this
    rw [canonL_inj es es' _ k1 k2 w1.2.2 w2.2.2 (w1.2.1.trans w2.2.1.symm) g1 g2]
  | .tuple ts es, d, v, k1, k2, w1, w2, ht, h1, h2 => by
    cases d <;> simp only [TExpr.IsCanon, TExpr.ty, reduceCtorEq] at k2 ht
    rename_i ts' es'
    cases ht
    obtain ⟨vs, g1, _⟩ := tuple_ok h1
    obtain ⟨vs', g2, _⟩ := tuple_ok h2
    simp only [evalT, g1] at h1
    simp only [evalT, g2] at h2
    cases h1
    cases h2
    rw [canonL_inj es es' _ k1 k2 w1.2 w2.2 (w1.1.trans w2.1.symm) g1 g2]
  | .ident _ _, _, _, h, _, _, _, _, _, _ | .fbin _ _ _, _, _, h, _, _, _, _, _, _ | .fubin _ _ _, _, _, h, _, _, _, _, _, _ | .fneg _, _, _, h, _, _, _, _, _, _
  | .fpos _, _, _, h, _, _, _, _, _, _ | .ubin _ _ _ _, _, _, h, _, _, _, _, _, _ | .unot _ _, _, _, h, _, _, _, _, _, _ | .uneg _ _, _, _, h, _, _, _, _, _, _
  | .upos _ _, _, _, h, _, _, _, _, _, _ | .bbin _ _ _, _, _, h, _, _, _, _, _, _ | .bnot _, _, _, h, _, _, _, _, _, _ | .fcmp _ _ _, _, _, h, _, _, _, _, _, _
  | .ucmp _ _ _, _, _, h, _, _, _, _, _, _ | .eq _ _, _, _, h, _, _, _, _, _, _ | .cond _ _ _ _, _, _, h, _, _, _, _, _, _ | .select _ _ _, _, _, h, _, _, _, _, _, _
  | .member _ _ _, _, _, h, _, _, _, _, _, _ | .element _ _ _, _, _, h, _, _, _, _, _, _ | .removed _, _, _, h, _, _, _, _, _, _
  | .slice _ _ _ _ _, _, _, h, _, _, _, _, _, _ | .repeat_ _ _ _ _, _, _, h, _, _, _, _, _, _ => h.elim
theorem canonL_inj {env : TEnv p} : ∀ (c d : List (TExpr (ZMod p))) (vs : List (AVal (ZMod p))), IsCanonL c → IsCanonL d → WtL c → WtL d →
    c.map TExpr.ty = d.map TExpr.ty → evalL env c = .ok vs → evalL env d = .ok vs → c = d
  | [], d, vs, k1, k2, w1, w2, ht, h1, h2 => by
    cases d with
    | nil => rfl
    | cons => simp at ht
  | c :: cs, d, vs, k1, k2, w1, w2, ht, h1, h2 => by
    cases d with
    | nil => simp at ht
    | cons d ds =>
      simp only [List.map_cons, List.cons.injEq] at ht
      obtain ⟨a, as, g1, g2, rfl, _⟩ := cons_ok h1
      obtain ⟨a', as', g3, g4, g5, _⟩ := cons_ok h2
      cases g5
      rw [canon_inj c d a k1.1 k2.1 w1.1 w2.1 ht.1 g1 g3, canonL_inj cs ds as k1.2 k2.2 w1.2 w2.2 ht.2 g2 g4]
theorem canonS_inj {env : TEnv p} (t : CType) : ∀ (c d : List (TSpread (ZMod p))) (vs : List (AVal (ZMod p))), IsCanonS c → IsCanonS d → WtS t c → WtS t d →
    evalS env c = .ok vs → evalS env d = .ok vs → c = d
  | [], d, vs, k1, k2, w1, w2, h1, h2 => by
    simp only [evalS] at h1
    cases h1
    match d, k2 with
    | [], _ => rfl
    | .expr d :: ds, k2 =>
      obtain ⟨a, as, _, _, g5, _⟩ := expr_ok h2
      cases g5
  | .expr c :: cs, d, vs, k1, k2, w1, w2, h1, h2 => by
    obtain ⟨a, as, g1, g2, rfl, _⟩ := expr_ok h1
    match d, k2 with
    | [], _ => simp only [evalS] at h2; cases h2
    | .expr d :: ds, k2 =>
      obtain ⟨a', as', g3, g4, g5, _⟩ := expr_ok h2
      cases g5
      rw [canon_inj c d a k1.1 k2.1 w1.1.2 w2.1.2 (w1.1.1.trans w2.1.1.symm) g1 g3, canonS_inj t cs ds as k1.2 k2.2 w1.2 w2.2 g2 g4]
  | .spread _ :: _, _, _, h, _, _, _, _, _ => h.elim
end

theorem foldEq_keeps {env : TEnv p} {v : AVal (ZMod p)} {l r : TExpr (ZMod p)} (wl : l.Wt) (wr : r.Wt) (h : evalT env (.eq l r) = .ok v) : Keeps env v (foldEq l r) := by
  have h0 := h
  simp only [evalT] at h
  obtain ⟨a, h1, h⟩ := bind_ok h
  obtain ⟨b, h2, h⟩ := bind_ok h
  cases h
  unfold foldEq
  split
  · simp [Keeps, PErr.Detected]
  · rename_i ht
    simp only [ne_eq, not_not] at ht
    split
    · rename_i he
      subst he
      rw [h1] at h2
      cases h2
      simp [Keeps, evalT]
    · split
      · cases hl : canon l with
        | error er => simp only [bind, Except.bind, Keeps]; exact canon_undetected hl
        | ok l' => cases hr : canon r with
          | error er => simp only [bind, Except.bind, Keeps]; exact canon_undetected hr
          | ok r' =>
            obtain ⟨x, e1, e2, e3, e4, e5⟩ := canon_spec l l' hl wl
            obtain ⟨y, f1, f2, f3, f4, f5⟩ := canon_spec r r' hr wr
            have ha : x = a := by have := e1 env; rw [h1] at this; cases this; rfl
            have hb : y = b := by have := f1 env; rw [h2] at this; cases this; rfl
            subst ha hb
            simp only [bind, Except.bind, Keeps, evalT]
            congr 2
            rw [decide_eq_decide]
            constructor
            · rintro rfl
              have := e2 env
              rw [f2 env] at this
              cases this; rfl
            · rintro rfl
              exact canon_inj l' r' x e5 f5 e4 f4 (by rw [e3, f3, ht]) (e2 env) (f2 env)
      · exact h0

end Zok.Typed
