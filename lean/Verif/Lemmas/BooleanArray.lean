import Verif.Model.BooleanArray
import Verif.Lemmas.TypedNode
import Verif.Lemmas.TypedPass
import Verif.Lemmas.Bits
import Verif.Lemmas.Field
import Verif.Spec.ConditionRedefiner

/-
The comparison of arrays of booleans.
-/

set_option linter.unusedSectionVars false
set_option linter.unusedSimpArgs false

namespace Zok.Typed
open Abi
variable {p : ℕ} [Fact p.Prime] {env : TEnv p}

/-! ### Sums -/

theorem sumRec_eval {d : TExpr (ZMod p)} (hd : evalT env d = .ok (.field 0)) : ∀ (fuel : ℕ) (es : List (TExpr (ZMod p))) (xs : List (ZMod p)),
    es.length ≤ fuel → List.Forall₂ (fun e x => evalT env e = .ok (.field x)) es xs → evalT env (sumRec d fuel es) = .ok (.field xs.sum)
  | 0, es, xs, hf, h => by
    have : es = [] := List.length_eq_zero_iff.1 (by omega)
    subst this; cases h; simpa [sumRec] using hd
  | fuel + 1, [], xs, hf, h => by cases h; simpa [sumRec] using hd
  | fuel + 1, [a], xs, hf, h => by
    cases h with | cons h1 h2 => cases h2; simpa [sumRec] using h1
  | fuel + 1, a :: b :: es, xs, hf, h => by
    have hl : 2 ≤ (a :: b :: es).length := by simp
    generalize hL : a :: b :: es = l at *
    have e : sumRec d (fuel + 1) l = .fbin .add (sumRec d fuel (l.take (l.length / 2))) (sumRec d fuel (l.drop (l.length / 2))) := by
      rw [← hL]; rfl
    have h1 := sumRec_eval hd fuel (l.take (l.length / 2)) (xs.take (l.length / 2)) (by rw [List.length_take]; omega) (List.forall₂_take _ h)
    have h2 := sumRec_eval hd fuel (l.drop (l.length / 2)) (xs.drop (l.length / 2)) (by rw [List.length_drop]; omega) (List.forall₂_drop _ h)
    rw [e]
    simp only [evalT, h1, h2, Except.bind, bind, asField, FOp.eval]
    rw [← List.sum_append, List.take_append_drop]

theorem sumRec_ind {P : TExpr (ZMod p) → Prop} {d : TExpr (ZMod p)} (hd : P d) (hadd : ∀ a b, P a → P b → P (.fbin .add a b)) :
    ∀ (fuel : ℕ) (es : List (TExpr (ZMod p))), (∀ e ∈ es, P e) → P (sumRec d fuel es)
  | 0, _, _ => hd
  | fuel + 1, [], _ => hd
  | fuel + 1, [a], h => h a (by simp)
  | fuel + 1, a :: b :: es, h => by
    refine hadd _ _ (sumRec_ind hd hadd fuel _ fun e he => h e (List.mem_of_mem_take he)) (sumRec_ind hd hadd fuel _ fun e he => h e (List.mem_of_mem_drop he))

theorem weights_sum (bs : List Bool) (k : ℕ) : ((bs.zipIdx k).map fun bj => if bj.1 then (2 : ZMod p) ^ (bs.length + k - 1 - bj.2) else 0).sum = (natBE bs : ℕ) := by
  induction bs generalizing k with
  | nil => simp [natBE]
  | cons b bs ih =>
    have := ih (k + 1)
    simp only [List.zipIdx_cons, List.map_cons, List.sum_cons, List.length_cons, natBE, Nat.cast_add, Nat.cast_mul, Nat.cast_pow, Nat.cast_ofNat]
    rw [← this]
    congr 1
    · cases b
      · simp
      · simp
    · refine congrArg List.sum (List.map_congr_left fun x hx => ?_)
      rw [show bs.length + 1 + k - 1 - x.2 = bs.length + (k + 1) - 1 - x.2 by omega]

theorem packChunk_eval {chunk : List (TExpr (ZMod p))} {bs : List Bool} (h : List.Forall₂ (fun e b => evalT env e = .ok (.bool b)) chunk bs) :
    evalT env (packChunk chunk) = .ok (.field ((natBE bs : ℕ) : ZMod p)) := by
  have hl := h.length_eq
  have := sumRec_eval (env := env) (d := .fval 0) (by simp [evalT]) chunk.length (chunk.zipIdx.map fun cj =>
    .cond .field cj.1 (.fubin .pow (.fval 2) (.uval .b32 (chunk.length - 1 - cj.2))) (.fval 0))
    (bs.zipIdx.map fun bj => if bj.1 then (2 : ZMod p) ^ (bs.length - 1 - bj.2) else 0) (by simp) ?_
  · rw [packChunk, this]
    have := weights_sum (p := p) bs 0
    simp only [Nat.add_zero] at this
    rw [this]
  · rw [← hl, List.forall₂_map_left_iff, List.forall₂_map_right_iff]
    have key : ∀ (m : ℕ) (c : List (TExpr (ZMod p))) (b : List Bool) (k : ℕ), List.Forall₂ (fun e b => evalT env e = .ok (.bool b)) c b →
        List.Forall₂ (fun (cj : TExpr (ZMod p) × ℕ) (bj : Bool × ℕ) => evalT env (.cond .field cj.1 (.fubin .pow (.fval 2) (.uval .b32 (m - 1 - cj.2))) (.fval 0)) =
          .ok (.field (if bj.1 then (2 : ZMod p) ^ (m - 1 - bj.2) else 0))) (c.zipIdx k) (b.zipIdx k) := by
      intro m c b k hcb
      induction hcb generalizing k with
      | nil => simp
      | @cons e b c bs h1 h2 ih =>
        rw [List.zipIdx_cons, List.zipIdx_cons]
        refine .cons ?_ (ih (k + 1))
        cases b <;> simp [evalT, h1, Except.bind, bind, asField, asBool, asUint]
    exact key _ _ _ _ h

/-! ### Chunks -/

theorem chunks_map {α β : Type _} (g : α → β) (n : ℕ) : ∀ (fuel : ℕ) (l : List α), chunks n fuel (l.map g) = (chunks n fuel l).map (List.map g)
  | 0, _ => rfl
  | fuel + 1, [] => rfl
  | fuel + 1, a :: l => by
    have := chunks_map g n fuel ((a :: l).drop n)
    simp only [List.map_cons, chunks] at this ⊢
    rw [← List.map_cons, ← List.map_take, ← List.map_drop, chunks_map g n fuel]

theorem chunks_forall₂ {α β : Type _} {R : α → β → Prop} (n : ℕ) : ∀ (fuel : ℕ) {l : List α} {l' : List β}, List.Forall₂ R l l' →
    List.Forall₂ (List.Forall₂ R) (chunks n fuel l) (chunks n fuel l')
  | 0, _, _, _ => .nil
  | fuel + 1, _, _, .nil => .nil
  | fuel + 1, _, _, .cons h h' => .cons (List.forall₂_take _ (.cons h h')) (chunks_forall₂ n fuel (List.forall₂_drop _ (.cons h h')))

theorem chunks_mem {α : Type _} (n : ℕ) : ∀ (fuel : ℕ) (l c : List α), c ∈ chunks n fuel l → c.length ≤ n ∧ ∀ x ∈ c, x ∈ l
  | 0, _, _, h => by simp [chunks] at h
  | fuel + 1, [], _, h => by simp [chunks] at h
  | fuel + 1, a :: l, c, h => by
    simp only [chunks, List.mem_cons] at h
    rcases h with rfl | h
    · exact ⟨by rw [List.length_take]; omega, fun x hx => List.mem_of_mem_take hx⟩
    · obtain ⟨h1, h2⟩ := chunks_mem n fuel _ _ h
      exact ⟨h1, fun x hx => List.mem_of_mem_drop (h2 x hx)⟩

/-- Lists of the same length with the same chunks, up to an injective coding of the chunks, are the same. -/
theorem chunks_inj {α γ : Type _} {n : ℕ} (hn : 0 < n) {g : List α → γ} (hg : ∀ a b : List α, a.length = b.length → a.length ≤ n → g a = g b → a = b) :
    ∀ (fuel : ℕ) (l l' : List α), l.length ≤ fuel → l.length = l'.length → (chunks n fuel l).map g = (chunks n fuel l').map g → l = l'
  | 0, l, l', hf, hl, _ => by
    rw [List.length_eq_zero_iff.1 (show l.length = 0 by omega), List.length_eq_zero_iff.1 (show l'.length = 0 by omega)]
  | fuel + 1, [], l', hf, hl, _ => (List.length_eq_zero_iff.1 (show l'.length = 0 by simpa using hl.symm)).symm
  | fuel + 1, a :: l, [], hf, hl, _ => by simp at hl
  | fuel + 1, a :: l, b :: l', hf, hl, h => by
    simp only [chunks, List.map_cons, List.cons.injEq] at h
    have h1 := hg _ _ (by rw [List.length_take, List.length_take, hl]) (by rw [List.length_take]; omega) h.1
    have h2 := chunks_inj hn hg fuel _ _ (by rw [List.length_drop]; simp at hf ⊢; omega) (by rw [List.length_drop, List.length_drop, hl]) h.2
    rw [← List.take_append_drop n (a :: l), ← List.take_append_drop n (b :: l'), h1, h2]

theorem chunks_length_le {α : Type _} (n : ℕ) (fuel : ℕ) (l c : List α) (h : c ∈ chunks n fuel l) : c.length ≤ l.length := by
  induction fuel generalizing l with
  | zero => simp [chunks] at h
  | succ fuel ih =>
    cases l with
    | nil => simp [chunks] at h
    | cons a l =>
      simp only [chunks, List.mem_cons] at h
      rcases h with rfl | h
      · rw [List.length_take]; omega
      · have := ih _ h; rw [List.length_drop] at this; omega

/-! ### Arrays -/

theorem evalS_exprs {es : List (TExpr (ZMod p))} {vs : List (AVal (ZMod p))} (h : List.Forall₂ (fun e v => evalT env e = .ok v) es vs) :
    evalS env (es.map TSpread.expr) = .ok vs := by
  induction h with
  | nil => simp [evalS]
  | cons h1 _ ih => simp only [List.map_cons, evalS, h1, ih, Except.bind, bind]

theorem packArray_eval {e : TExpr (ZMod p)} {bs : List Bool} (h : evalT env e = .ok (.array (bs.map .bool))) :
    evalT env (packArray e bs.length) = .ok (.array ((chunks (Fld.requiredBits p - 1) bs.length bs).map fun c => .field ((natBE c : ℕ) : ZMod p))) := by
  have h1 : List.Forall₂ (fun e b => evalT env e = .ok (.bool b)) ((List.range bs.length).map fun i => TExpr.select .bool e (.uval .b32 i)) bs := by
    rw [List.forall₂_iff_get]
    refine ⟨by simp, fun i hi hi' => ?_⟩
    simp only [List.get_eq_getElem, List.getElem_map, List.getElem_range, evalT, h, Except.bind, bind, asArray, asUint, if_true, selectVal]
    simp [hi']
  have h2 := chunks_forall₂ (Fld.requiredBits p - 1) bs.length h1
  have h3 := evalS_exprs (env := env) (es := (chunks (Fld.requiredBits p - 1) bs.length ((List.range bs.length).map fun i =>
    TExpr.select .bool e (.uval .b32 i))).map packChunk) (vs := (chunks (Fld.requiredBits p - 1) bs.length bs).map fun c => .field ((natBE c : ℕ) : ZMod p)) (by
    rw [List.forall₂_map_left_iff, List.forall₂_map_right_iff]
    exact h2.imp fun c b h => packChunk_eval h)
  simp only [packArray, evalT]
  rw [List.map_map] at h3
  change (evalS env (List.map (TSpread.expr ∘ packChunk) _) >>= _) = _
  rw [h3]
  rfl

theorem chunkSize_pos : 0 < Fld.requiredBits p - 1 := by
  have := Fld.requiredBits_ge_two (p := p)
  omega

theorem natBE_cast_inj {a b : List Bool} (hl : a.length = b.length) (ha : a.length ≤ Fld.requiredBits p - 1)
    (h : ((natBE a : ℕ) : ZMod p) = (natBE b : ℕ)) : a = b := by
  have hp : 2 ^ (Fld.requiredBits p - 1) ≤ p := Fld.two_pow_le (p := p)
  have key : ∀ c : List Bool, c.length ≤ Fld.requiredBits p - 1 → natBE c < p := fun c hc =>
    lt_of_lt_of_le (natBE_lt c) (le_trans (Nat.pow_le_pow_right (by omega) hc) hp)
  refine natBE_inj hl ?_
  have h1 := congrArg ZMod.val h
  rwa [ZMod.val_natCast_of_lt (key a ha), ZMod.val_natCast_of_lt (key b (by omega))] at h1

theorem hasType_bools {n : ℕ} {v : AVal (ZMod p)} (h : HasType (.array n .bool) v) : ∃ bs : List Bool, bs.length = n ∧ v = .array (bs.map .bool) := by
  cases v with
  | array vs =>
    simp only [HasType] at h
    have key : ∀ vs : List (AVal (ZMod p)), (∀ v ∈ vs, HasType .bool v) → ∃ bs : List Bool, vs = bs.map .bool := by
      intro vs
      induction vs with
      | nil => exact fun _ => ⟨[], rfl⟩
      | cons v vs ih =>
        intro h
        obtain ⟨bs, rfl⟩ := ih fun v hv => h v (by simp [hv])
        have := h v (by simp)
        cases v <;> simp [HasType] at this
        rename_i b
        exact ⟨b :: bs, rfl⟩
    obtain ⟨bs, rfl⟩ := key vs h.2
    exact ⟨bs, by simpa using h.1, rfl⟩
  | _ => simp [HasType] at h

theorem compareE_array {l r l' r' : TExpr (ZMod p)} {n : ℕ} (h : l.ty = .array n .bool) : compareE l r l' r' = .eq (packArray l n) (packArray r n) := by
  simp [compareE, h]

theorem compareE_other {l r l' r' : TExpr (ZMod p)} (h : ∀ n, l.ty ≠ .array n .bool) : compareE l r l' r' = .eq l' r' := by
  unfold compareE
  split
  · rename_i n hn; exact absurd hn (h n)
  · rfl

theorem compareE_form (l r l' r' : TExpr (ZMod p)) : ∃ a b, compareE l r l' r' = .eq a b := by
  by_cases h : ∃ n, l.ty = .array n .bool
  · obtain ⟨n, h⟩ := h; exact ⟨_, _, compareE_array h⟩
  · exact ⟨_, _, compareE_other fun n hn => h ⟨n, hn⟩⟩

/-- The comparison of the packed arrays has the value of the comparison of the arrays. -/
theorem packed_eq {l r : TExpr (ZMod p)} {n : ℕ} (hl : l.ty = .array n .bool) (hr : r.ty = .array n .bool) (wl : l.Wt) (wr : r.Wt) {v : AVal (ZMod p)}
    (h : evalT env (.eq l r) = .ok v) : evalT env (.eq (packArray l n) (packArray r n)) = .ok v := by
  obtain ⟨a, b, h1, h2, _⟩ := eq_ok h
  have t1 := eval_hasType env l a wl h1
  have t2 := eval_hasType env r b wr h2
  rw [hl] at t1
  rw [hr] at t2
  obtain ⟨as, e1, rfl⟩ := hasType_bools t1
  obtain ⟨bs, e2, rfl⟩ := hasType_bools t2
  have g1 := packArray_eval h1
  have g2 := packArray_eval h2
  rw [e1] at g1
  rw [e2] at g2
  simp only [evalT, h1, h2, g1, g2, Except.bind, bind] at h ⊢
  rw [← h]
  congr 2
  rw [decide_eq_decide]
  constructor
  · intro hh
    have hh : (chunks (Fld.requiredBits p - 1) n as).map (fun c => AVal.field ((natBE c : ℕ) : ZMod p)) = (chunks (Fld.requiredBits p - 1) n bs).map (fun c => AVal.field ((natBE c : ℕ) : ZMod p)) := by
      simpa using hh
    have := chunks_inj chunkSize_pos (g := fun c => AVal.field ((natBE c : ℕ) : ZMod p)) (fun a b h1 h2 h3 => natBE_cast_inj h1 h2 (by simpa using h3)) n as bs
      (by omega) (by omega) hh
    rw [this]
  · intro hh
    have : as = bs := by
      have hh : as.map AVal.bool = bs.map (AVal.bool (F := ZMod p)) := by simpa using hh
      exact List.map_injective_iff.2 (fun a b h => by simpa using h) hh
    rw [this]

/-! ### Expressions -/

theorem packE_ty : ∀ e : TExpr (ZMod p), (packE e).ty = e.ty := by
  intro e
  cases e with
  | eq l r => simp only [packE]; obtain ⟨a, b, h⟩ := compareE_form l r (packE l) (packE r); rw [h]; rfl
  | _ => rfl

theorem packE_uval {e : TExpr (ZMod p)} {w : UW} {n : ℕ} : packE e = .uval w n ↔ e = .uval w n := by
  cases e with
  | eq l r => simp only [packE]; obtain ⟨a, b, h⟩ := compareE_form l r (packE l) (packE r); rw [h]; simp
  | _ => simp only [packE, reduceCtorEq]

theorem packE_isConst (e : TExpr (ZMod p)) : (packE e).isConst = e.isConst := by
  cases e with
  | fubin op l r =>
    cases op with
    | pow =>
      simp only [packE]
      cases r with
      | eq l r => simp only [packE]; obtain ⟨a, b, h⟩ := compareE_form l r (packE l) (packE r); rw [h]; rfl
      | uval w n => cases n <;> rfl
      | _ => rfl
    | shl => rfl
    | shr => rfl
  | eq l r => simp only [packE]; obtain ⟨a, b, h⟩ := compareE_form l r (packE l) (packE r); rw [h]; rfl
  | _ => rfl

mutual
theorem packE_eval : ∀ (e : TExpr (ZMod p)) (v : AVal (ZMod p)), e.Wt → evalT env e = .ok v → evalT env (packE e) = .ok v
  | .fval _, _, _, h => h
  | .bval _, _, _, h => h
  | .uval _ _, _, _, h => h
  | .ident _ _, _, _, h => h
  | .removed _, _, _, h => h
  | .fbin op l r, v, w, h => by
    obtain ⟨a, b, h1, h2, h3⟩ := fbin_ok h
    exact h3 _ _ _ (packE_eval l a w.2.2.1 h1) (packE_eval r b w.2.2.2 h2)
  | .fubin op l r, v, w, h => by
    obtain ⟨a, b, h1, h2, h3⟩ := fubin_ok h
    exact h3 _ _ _ (packE_eval l a w.2.2.1 h1) (packE_eval r b w.2.2.2 h2)
  | .ubin _ op l r, v, w, h => by
    obtain ⟨a, b, h1, h2, h3⟩ := ubin_ok h
    exact h3 _ _ _ (packE_eval l a w.2.2.1 h1) (packE_eval r b w.2.2.2 h2)
  | .bbin op l r, v, w, h => by
    obtain ⟨a, b, h1, h2, h3⟩ := bbin_ok h
    exact h3 _ _ _ (packE_eval l a w.2.2.1 h1) (packE_eval r b w.2.2.2 h2)
  | .fcmp op l r, v, w, h => by
    obtain ⟨a, b, h1, h2, h3⟩ := fcmp_ok h
    exact h3 _ _ _ (by rw [packE_isConst, packE_isConst]) (packE_eval l a w.2.2.1 h1) (packE_eval r b w.2.2.2 h2)
  | .ucmp op l r, v, w, h => by
    obtain ⟨a, b, h1, h2, h3⟩ := ucmp_ok h
    exact h3 _ _ _ (packE_ty l) (packE_eval l a w.2.1 h1) (packE_eval r b w.2.2 h2)
  | .eq l r, v, w, h => by
    simp only [packE]
    by_cases hl : ∃ n, l.ty = .array n .bool
    · obtain ⟨n, hn⟩ := hl
      rw [compareE_array hn]
      exact packed_eq hn (by rw [← hn]; exact w.1.symm) w.2.2.1 w.2.2.2 h
    · rw [compareE_other fun n hn => hl ⟨n, hn⟩]
      obtain ⟨a, b, h1, h2, h3⟩ := eq_ok h
      exact h3 _ _ _ (packE_eval l a w.2.2.1 h1) (packE_eval r b w.2.2.2 h2)
  | .select t l r, v, w, h => by
    obtain ⟨a, b, h1, h2, h3⟩ := select_ok h
    exact h3 _ _ _ (packE_eval l a w.2.2.1 h1) (packE_eval r b w.2.2.2 h2)
  | .repeat_ t k l r, v, w, h => by
    obtain ⟨a, b, h1, h2, h3⟩ := repeat__ok h
    obtain ⟨_, rfl, w1⟩ := w
    exact h3 _ _ _ (packE_eval l a w1 h1) h2
  | .fneg e, v, w, h => by
    obtain ⟨a, h1, h3⟩ := fneg_ok h
    exact h3 _ _ (packE_eval e a w.2 h1)
  | .fpos e, v, w, h => by
    obtain ⟨a, h1, h3⟩ := fpos_ok h
    exact h3 _ _ (packE_eval e a w.2 h1)
  | .unot _ e, v, w, h => by
    obtain ⟨a, h1, h3⟩ := unot_ok h
    exact h3 _ _ (packE_eval e a w.2 h1)
  | .uneg _ e, v, w, h => by
    obtain ⟨a, h1, h3⟩ := uneg_ok h
    exact h3 _ _ (packE_eval e a w.2 h1)
  | .upos _ e, v, w, h => by
    obtain ⟨a, h1, h3⟩ := upos_ok h
    exact h3 _ _ (packE_eval e a w.2 h1)
  | .bnot e, v, w, h => by
    obtain ⟨a, h1, h3⟩ := bnot_ok h
    exact h3 _ _ (packE_eval e a w.2 h1)
  | .member _ e _, v, w, h => by
    obtain ⟨a, h1, h3⟩ := member_ok h
    exact h3 _ _ (packE_eval e a w.2 h1)
  | .element _ e _, v, w, h => by
    obtain ⟨a, h1, h3⟩ := element_ok h
    exact h3 _ _ (packE_eval e a w.2 h1)
  | .array t k es, v, w, h => by
    obtain ⟨a, h1, _, h3⟩ := array_ok h
    exact h3 _ _ (packS_eval es a t w.2.2 h1)
  | .struct ms es, v, w, h => by
    obtain ⟨a, h1, h3⟩ := struct_ok h
    exact h3 _ _ (packL_eval es a w.2.2 h1)
  | .tuple ts es, v, w, h => by
    obtain ⟨a, h1, h3⟩ := tuple_ok h
    exact h3 _ _ (packL_eval es a w.2 h1)
  | .cond t c l r, v, w, h => by
    obtain ⟨k, a, b, h1, h2, h3, _, h4⟩ := cond_ok h
    exact h4 _ _ _ _ _ (packE_eval c _ w.2.2.2.1 h1) (packE_eval l a w.2.2.2.2.1 h2) (packE_eval r b w.2.2.2.2.2 h3)
  | .slice t k e lo hi, v, w, h => by
    obtain ⟨a, l, r, h1, h2, h3, h4⟩ := slice_ok h
    obtain ⟨⟨_, _, _, _, rfl, rfl, _⟩, w1⟩ := w
    exact h4 _ _ _ _ (packE_eval e a w1 h1) h2 h3
theorem packL_eval : ∀ (es : List (TExpr (ZMod p))) (vs : List (AVal (ZMod p))), WtL es → evalL env es = .ok vs → evalL env (packL es) = .ok vs
  | [], _, _, h => h
  | e :: es, vs, w, h => by
    obtain ⟨a, b, h1, h2, _, h3⟩ := cons_ok h
    exact h3 _ _ _ (packE_eval e a w.1 h1) (packL_eval es b w.2 h2)
theorem packS_eval : ∀ (es : List (TSpread (ZMod p))) (vs : List (AVal (ZMod p))) (t : CType), WtS t es → evalS env es = .ok vs → evalS env (packS es) = .ok vs
  | [], _, _, _, h => h
  | .expr e :: es, vs, t, w, h => by
    obtain ⟨a, b, h1, h2, _, h3⟩ := expr_ok h
    exact h3 _ _ _ (packE_eval e a w.1.2 h1) (packS_eval es b t w.2 h2)
  | .spread e :: es, vs, t, w, h => by
    obtain ⟨a, b, h1, h2, _, h3⟩ := spread_ok h
    exact h3 _ _ _ (packE_eval e _ w.1 h1) (packS_eval es b t w.2 h2)
end

/-! ### Types and variables -/

theorem packChunk_ind {P : TExpr (ZMod p) → Prop} {chunk : List (TExpr (ZMod p))} (h0 : P (.fval 0)) (hadd : ∀ a b, P a → P b → P (.fbin .add a b))
    (hc : ∀ c ∈ chunk, ∀ j, j < chunk.length → P (.cond .field c (.fubin .pow (.fval 2) (.uval .b32 j)) (.fval 0))) : P (packChunk chunk) := by
  refine sumRec_ind h0 hadd _ _ fun e he => ?_
  obtain ⟨⟨c, j⟩, h1, rfl⟩ := List.mem_map.1 he
  have hm := List.mem_zipIdx h1
  have : 0 < chunk.length := by omega
  refine hc c ?_ _ (by simp only; omega)
  rw [hm.2.2]
  exact List.getElem_mem _

theorem packArray_ty (e : TExpr (ZMod p)) (n : ℕ) : (packArray e n).ty =
    .array (chunks (Fld.requiredBits p - 1) n ((List.range n).map fun i => TExpr.select .bool e (.uval .b32 i))).length .field := rfl

theorem chunks_length {α β : Type _} (n : ℕ) : ∀ (fuel : ℕ) (l : List α) (l' : List β), l.length = l'.length → (chunks n fuel l).length = (chunks n fuel l').length
  | 0, _, _, _ => rfl
  | fuel + 1, [], [], _ => rfl
  | fuel + 1, [], _ :: _, h => by simp at h
  | fuel + 1, _ :: _, [], h => by simp at h
  | fuel + 1, a :: l, b :: l', h => by
    simp only [chunks, List.length_cons]
    rw [chunks_length n fuel ((a :: l).drop n) ((b :: l').drop n) (by rw [List.length_drop, List.length_drop, h])]

theorem chunks_count {α : Type _} (n : ℕ) : ∀ (fuel : ℕ) (l : List α), (chunks n fuel l).length ≤ fuel
  | 0, _ => by simp [chunks]
  | fuel + 1, [] => by simp [chunks]
  | fuel + 1, a :: l => by simp only [chunks, List.length_cons]; have := chunks_count n fuel ((a :: l).drop n); omega

theorem wtS_all {t : CType} {es : List (TExpr (ZMod p))} (h : ∀ e ∈ es, e.ty = t ∧ e.Wt) : WtS t (es.map .expr) ∧ spreadCount t (es.map TSpread.expr) es.length := by
  induction es with
  | nil => exact ⟨trivial, rfl⟩
  | cons e es ih =>
    obtain ⟨h1, h2⟩ := ih fun e he => h e (by simp [he])
    exact ⟨⟨h e (by simp), h1⟩, _, rfl, h2⟩

theorem packArray_wt {e : TExpr (ZMod p)} {n : ℕ} (hw : e.Wt) (ht : e.ty = .array n .bool) (hn : n < 2 ^ 32) : (packArray e n).Wt := by
  simp only [packArray, TExpr.Wt]
  refine ⟨⟨⟨trivial, trivial⟩, rfl⟩, ?_⟩
  have := wtS_all (t := .field) (es := (chunks (Fld.requiredBits p - 1) n ((List.range n).map fun i => TExpr.select .bool e (.uval .b32 i))).map packChunk) ?_
  · rw [List.map_map, List.length_map] at this
    exact ⟨this.2, this.1⟩
  · intro c hc
    obtain ⟨c, h1, rfl⟩ := List.mem_map.1 hc
    have hl := chunks_length_le _ _ _ _ h1
    rw [List.length_map, List.length_range] at hl
    refine packChunk_ind (P := fun e => e.ty = .field ∧ e.Wt) ⟨rfl, trivial⟩ (fun a b ha hb => ⟨rfl, ha.1, hb.1, ha.2, hb.2⟩) fun x hx j hj => ?_
    obtain ⟨i, hi, rfl⟩ := List.mem_map.1 ((chunks_mem _ _ _ _ h1).2 x hx)
    rw [List.mem_range] at hi
    refine ⟨rfl, rfl, rfl, rfl, ⟨⟨n, ht⟩, rfl, hw, ?_⟩, ⟨rfl, rfl, trivial, ?_⟩, trivial⟩
    · simp only [TExpr.Wt, UW.bits]; omega
    · simp only [TExpr.Wt, UW.bits]; omega

end Zok.Typed
