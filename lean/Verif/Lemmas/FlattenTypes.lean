import Verif.Lemmas.TypedEval

/-! Lemmas on the pieces of `flat`: how lists of ZIR expressions evaluate to the components of values. -/

namespace Zok.Typed
open Abi
variable {p : ℕ} [Fact p.Prime]

/-- The expressions evaluate to the values. -/
def Ev (zenv : ZEnv p) (zs : List (ZExpr (ZMod p))) (vs : List (ZVal p)) : Prop := List.Forall₂ (fun z v => evalZ zenv z = .ok v) zs vs

variable {zenv : ZEnv p}

theorem evalZs_iff {zs : List (ZExpr (ZMod p))} {vs : List (ZVal p)} : evalZs zenv zs = .ok vs ↔ Ev zenv zs vs := by
  unfold Ev
  induction zs generalizing vs with
  | nil => simp only [evalZs, List.forall₂_nil_left_iff]; exact ⟨fun h => by cases h; rfl, fun h => by rw [h]⟩
  | cons z zs ih =>
    constructor
    · intro h
      simp only [evalZs] at h
      obtain ⟨v, h1, h⟩ := Prop'.exc_bind_ok h
      obtain ⟨ws, h2, h⟩ := Prop'.exc_bind_ok h
      cases h
      exact .cons h1 (ih.1 h2)
    · intro h
      cases h with
      | cons h1 h2 => simp only [evalZs, h1, ih.2 h2]; rfl

theorem Ev.append {a b : List (ZExpr (ZMod p))} {x y : List (ZVal p)} (h1 : Ev zenv a x) (h2 : Ev zenv b y) : Ev zenv (a ++ b) (x ++ y) :=
  List.rel_append h1 h2

theorem ev_single {z : ZExpr (ZMod p)} {v : ZVal p} : Ev zenv [z] [v] ↔ evalZ zenv z = .ok v := by simp [Ev]

theorem Ev.slice {l l' : List (ZExpr (ZMod p))} {vs : List (ZVal p)} {a b : ℕ} (h : Ev zenv l vs) (hs : Abi.slice l a b = some l') :
    Ev zenv l' ((vs.take b).drop a) := by
  unfold Abi.slice at hs
  split at hs
  · cases hs; exact List.forall₂_drop _ (List.forall₂_take _ h)
  · cases hs

/-! ### Single components -/

theorem evalZ_field {e : FExpr (ZMod p)} {x : ZMod p} : evalZ zenv (.field e) = .ok (.field x) ↔ evalF zenv e = .ok x := by
  cases h : evalF zenv e <;> simp [evalZ, h, bind, Except.bind]
theorem evalZ_bool {e : BExpr (ZMod p)} {x : Bool} : evalZ zenv (.bool e) = .ok (.bool x) ↔ evalB zenv e = .ok x := by
  cases h : evalB zenv e <;> simp [evalZ, h, bind, Except.bind]
theorem evalZ_uint {e : UExpr (ZMod p)} {w x : ℕ} : evalZ zenv (.uint e) = .ok (.uint w x) ↔ e.width = w ∧ evalU zenv e = .ok x := by
  cases h : evalU zenv e <;> simp [evalZ, h, bind, Except.bind]

theorem evalZ_kind {z : ZExpr (ZMod p)} {v : ZVal p} (h : evalZ zenv z = .ok v) :
    (∃ e x, z = .field e ∧ v = .field x ∧ evalF zenv e = .ok x) ∨ (∃ e x, z = .bool e ∧ v = .bool x ∧ evalB zenv e = .ok x) ∨
      (∃ e x, z = .uint e ∧ v = .uint e.width x ∧ evalU zenv e = .ok x) := by
  cases z with
  | field e =>
    simp only [evalZ] at h
    obtain ⟨x, hx, h⟩ := Prop'.exc_bind_ok h
    cases h; exact .inl ⟨e, x, rfl, rfl, hx⟩
  | bool e =>
    simp only [evalZ] at h
    obtain ⟨x, hx, h⟩ := Prop'.exc_bind_ok h
    cases h; exact .inr (.inl ⟨e, x, rfl, rfl, hx⟩)
  | uint e =>
    simp only [evalZ] at h
    obtain ⟨x, hx, h⟩ := Prop'.exc_bind_ok h
    cases h; exact .inr (.inr ⟨e, x, rfl, rfl, hx⟩)

theorem Ev.one {l : List (ZExpr (ZMod p))} {v : ZVal p} (h : Ev zenv l [v]) : ∃ z, l = [z] ∧ evalZ zenv z = .ok v := by
  unfold Ev at h
  cases h with
  | cons h1 h2 => cases h2; exact ⟨_, rfl, h1⟩

theorem popF_ev {l : List (ZExpr (ZMod p))} {x : ZMod p} {a : FExpr (ZMod p)} (h : Ev zenv l [.field x]) (hp : popF l = some a) :
    evalF zenv a = .ok x := by
  obtain ⟨z, rfl, hz⟩ := h.one
  cases z <;> simp [popF] at hp
  subst hp; exact evalZ_field.1 hz
theorem popB_ev {l : List (ZExpr (ZMod p))} {x : Bool} {a : BExpr (ZMod p)} (h : Ev zenv l [.bool x]) (hp : popB l = some a) :
    evalB zenv a = .ok x := by
  obtain ⟨z, rfl, hz⟩ := h.one
  cases z <;> simp [popB] at hp
  subst hp; exact evalZ_bool.1 hz
theorem popU_ev {l : List (ZExpr (ZMod p))} {w x : ℕ} {a : UExpr (ZMod p)} (h : Ev zenv l [.uint w x]) (hp : popU l = some a) :
    a.width = w ∧ evalU zenv a = .ok x := by
  obtain ⟨z, rfl, hz⟩ := h.one
  cases z <;> simp [popU] at hp
  subst hp; exact evalZ_uint.1 hz

/-! ### Conditionals -/

theorem condZs_ev {c : BExpr (ZMod p)} {k : Bool} (hc : evalB zenv c = .ok k) : ∀ {as bs zs : List (ZExpr (ZMod p))} {xs ys : List (ZVal p)},
    Ev zenv as xs → Ev zenv bs ys → xs.map zty = ys.map zty → condZs c as bs = some zs → Ev zenv zs (if k then xs else ys)
  | [], [], zs, xs, ys, h1, h2, _, h => by
    cases h1; cases h2
    simp [condZs] at h
    subst h
    cases k <;> exact .nil
  | [], _ :: _, zs, xs, ys, _, _, _, h => by simp [condZs] at h
  | _ :: _, [], zs, xs, ys, _, _, _, h => by simp [condZs] at h
  | a :: as, b :: bs, zs, xs, ys, h1, h2, ht, h => by
    cases h1 with
    | @cons _ x _ xs h1 h1' =>
    cases h2 with
    | @cons _ y _ ys h2 h2' =>
    simp only [List.map_cons, List.cons.injEq] at ht
    simp only [condZs] at h
    split at h
    · rename_i e es he hes
      cases h
      have ih := condZs_ev hc h1' h2' ht.2 hes
      have : evalZ zenv e = .ok (if k then x else y) := by
        rcases evalZ_kind h1 with ⟨a, u, rfl, rfl, ha⟩ | ⟨a, u, rfl, rfl, ha⟩ | ⟨a, u, rfl, rfl, ha⟩ <;>
          rcases evalZ_kind h2 with ⟨b, w, rfl, rfl, hb⟩ | ⟨b, w, rfl, rfl, hb⟩ | ⟨b, w, rfl, rfl, hb⟩ <;> simp [zty] at ht <;>
          simp only [condZ, Option.some.injEq] at he <;> subst he
        · simp only [evalZ, evalF, hc, ha, hb]; cases k <;> rfl
        · simp only [evalZ, evalB, hc, ha, hb]; cases k <;> rfl
        · simp only [evalZ, evalU, evalUI, hc, ha, hb]
          cases k
          · simp only [bind, Except.bind]
            rw [show (UExpr.mk (F := ZMod p) a.width none (.cond c a b)).width = a.width from rfl, ht.1]; rfl
          · rfl
      cases k
      · exact .cons this ih
      · exact .cons this ih
    · cases h

/-! ### Equality -/

theorem eqZ_ev {a b : ZExpr (ZMod p)} {e : BExpr (ZMod p)} {x y : ZVal p} (h1 : evalZ zenv a = .ok x) (h2 : evalZ zenv b = .ok y)
    (ht : zty x = zty y) (h : eqZ a b = some e) : evalB zenv e = .ok (decide (x = y)) := by
  rcases evalZ_kind h1 with ⟨a, u, rfl, rfl, ha⟩ | ⟨a, u, rfl, rfl, ha⟩ | ⟨a, u, rfl, rfl, ha⟩ <;>
    rcases evalZ_kind h2 with ⟨b, w, rfl, rfl, hb⟩ | ⟨b, w, rfl, rfl, hb⟩ | ⟨b, w, rfl, rfl, hb⟩ <;> simp [zty] at ht <;>
    simp only [eqZ, Option.some.injEq] at h <;> subst h
  · simp only [evalB, ha, hb, bind, Except.bind, ZVal.field.injEq]
  · simp only [evalB, ha, hb, bind, Except.bind, ZVal.bool.injEq]
    cases u <;> cases w <;> rfl
  · simp only [evalB, ha, hb, bind, Except.bind, ZVal.uint.injEq, ht, true_and]

theorem Ev.len {l : List (ZExpr (ZMod p))} {vs : List (ZVal p)} (h : Ev zenv l vs) : l.length = vs.length := List.Forall₂.length_eq h

theorem Ev.take {l : List (ZExpr (ZMod p))} {vs : List (ZVal p)} (n : ℕ) (h : Ev zenv l vs) : Ev zenv (l.take n) (vs.take n) := List.forall₂_take n h
theorem Ev.drop {l : List (ZExpr (ZMod p))} {vs : List (ZVal p)} (n : ℕ) (h : Ev zenv l vs) : Ev zenv (l.drop n) (vs.drop n) := List.forall₂_drop n h

theorem conj_one {a b : ZExpr (ZMod p)} {e : BExpr (ZMod p)} {xs ys : List (ZVal p)} (h1 : Ev zenv [a] xs) (h2 : Ev zenv [b] ys)
    (ht : xs.map zty = ys.map zty) (h : eqZ a b = some e) : evalB zenv e = .ok (decide (xs = ys)) := by
  unfold Ev at h1 h2
  cases h1 with
  | cons h1 h1' =>
    cases h1'
    cases h2 with
    | cons h2 h2' =>
      cases h2'
      rw [eqZ_ev h1 h2 (by simpa using ht) h]
      simp

theorem conjTree_ev : ∀ (fuel : ℕ) {as bs : List (ZExpr (ZMod p))} {e : BExpr (ZMod p)} {xs ys : List (ZVal p)}, Ev zenv as xs → Ev zenv bs ys →
    xs.map zty = ys.map zty → conjTree fuel as bs = some e → evalB zenv e = .ok (decide (xs = ys)) := by
  intro fuel
  induction fuel with
  | zero =>
    intro as bs e xs ys h1 h2 ht h
    unfold conjTree at h
    split at h
    · cases h1; cases h2; cases h; simp [evalB]
    · exact conj_one h1 h2 ht h
    · cases h
    · simp at *
  | succ fuel ih =>
    intro as bs e xs ys h1 h2 ht h
    unfold conjTree at h
    split at h
    · cases h1; cases h2; cases h; simp [evalB]
    · exact conj_one h1 h2 ht h
    · contradiction
    · rename_i f2 heq _ _
      obtain rfl : fuel = f2 := Nat.succ.inj heq
      split at h
      · split at h
        · rename_i a b ha hb
          cases h
          have i1 := ih (h1.take _) (h2.take _) (by rw [List.map_take, List.map_take, ht]) ha
          have i2 := ih (h1.drop _) (h2.drop _) (by rw [List.map_drop, List.map_drop, ht]) hb
          simp only [evalB, i1, i2, bind, Except.bind]
          congr 1
          generalize (_ / 2 : ℕ) = k
          rw [← Bool.decide_and]
          congr 1
          apply propext
          constructor
          · rintro ⟨e1, e2⟩
            rw [← List.take_append_drop k xs, e1, e2, List.take_append_drop]
          · intro e; rw [e]; exact ⟨rfl, rfl⟩
        · cases h
      · cases h

/-! ### Arrays -/

theorem primsL_take {c : ℕ} : ∀ (vs : List (AVal (ZMod p))) (k : ℕ), (∀ v ∈ vs, (prims v).length = c) → (primsL vs).take (k * c) = primsL (vs.take k)
  | [], k, _ => by simp [primsL]
  | v :: vs, 0, _ => by simp [primsL]
  | v :: vs, k + 1, h => by
    have h1 := h v List.mem_cons_self
    simp only [primsL, List.take_succ_cons]
    rw [Nat.succ_mul, Nat.add_comm, ← h1, List.take_append, Nat.add_sub_cancel_left, List.take_of_length_le (by omega), h1,
      primsL_take vs k (fun u hu => h u (List.mem_cons_of_mem _ hu))]

theorem primsL_drop {c : ℕ} : ∀ (vs : List (AVal (ZMod p))) (k : ℕ), (∀ v ∈ vs, (prims v).length = c) → (primsL vs).drop (k * c) = primsL (vs.drop k)
  | [], k, _ => by simp [primsL]
  | v :: vs, 0, _ => by simp [primsL]
  | v :: vs, k + 1, h => by
    have h1 := h v List.mem_cons_self
    simp only [primsL, List.drop_succ_cons]
    rw [Nat.succ_mul, Nat.add_comm, ← h1, List.drop_append, Nat.add_sub_cancel_left, List.drop_of_length_le (by omega), h1,
      primsL_drop vs k (fun u hu => h u (List.mem_cons_of_mem _ hu)), List.nil_append]

theorem primsL_slice {c : ℕ} (vs : List (AVal (ZMod p))) (a b : ℕ) (h : ∀ v ∈ vs, (prims v).length = c) :
    ((primsL vs).take (b * c)).drop (a * c) = primsL ((vs.take b).drop a) := by
  rw [primsL_take vs b h, primsL_drop _ a (fun v hv => h v (List.mem_of_mem_take hv))]

theorem take_drop_one {α : Type _} {l : List α} {k : ℕ} {a : α} (h : l[k]? = some a) : (l.take (k + 1)).drop k = [a] := by
  obtain ⟨h1, h2⟩ := List.getElem?_eq_some_iff.1 h
  rw [List.take_succ_eq_append_getElem h1, List.drop_append, List.drop_of_length_le (by simp)]
  simp [Nat.min_eq_left (Nat.le_of_lt h1), h2]

theorem primsL_select {c : ℕ} {vs : List (AVal (ZMod p))} {k : ℕ} {v : AVal (ZMod p)} (h : ∀ v ∈ vs, (prims v).length = c) (hk : vs[k]? = some v) :
    ((primsL vs).take ((k + 1) * c)).drop (k * c) = prims v := by
  rw [primsL_slice vs k (k + 1) h, take_drop_one hk]
  simp [primsL]

theorem chunks_ev {c : ℕ} (hc : c ≠ 0) : ∀ (vs : List (AVal (ZMod p))) (l : List (ZExpr (ZMod p))) (fuel : ℕ), (∀ v ∈ vs, (prims v).length = c) →
    Ev zenv l (primsL vs) → l.length ≤ fuel → List.Forall₂ (fun ch v => Ev zenv ch (prims v)) (chunks c fuel l) vs
  | [], l, fuel, _, h, _ => by
    simp only [primsL] at h
    cases h
    cases fuel <;> exact .nil
  | v :: vs, l, fuel, hl, h, hf => by
    have h1 := hl v List.mem_cons_self
    have hlen := h.len
    simp only [primsL, List.length_append, h1] at hlen
    cases fuel with
    | zero => omega
    | succ fuel =>
      cases l with
      | nil => simp at hlen; omega
      | cons z l =>
        simp only [chunks]
        refine .cons ?_ (chunks_ev hc vs _ fuel (fun u hu => hl u (List.mem_cons_of_mem _ hu)) ?_ ?_)
        · have := h.take c
          rwa [primsL, List.take_append, List.take_of_length_le (le_of_eq h1), h1, Nat.sub_self, List.take_zero, List.append_nil] at this
        · have := h.drop c
          rwa [primsL, List.drop_append, List.drop_of_length_le (le_of_eq h1), h1, Nat.sub_self, List.drop_zero, List.nil_append] at this
        · rw [List.length_drop]; omega

/-- The `j`-th components of the values are the values of the expressions. -/
def ColEv (zenv : ZEnv p) (j : ℕ) (col : List (ZExpr (ZMod p))) (vs : List (AVal (ZMod p))) : Prop :=
  List.Forall₂ (fun z v => ∃ x, (prims v)[j]? = some x ∧ evalZ zenv z = .ok x) col vs

theorem ev_get {l : List (ZExpr (ZMod p))} {vs : List (ZVal p)} (h : Ev zenv l vs) {j : ℕ} {z : ZExpr (ZMod p)} (hz : l[j]? = some z) :
    ∃ x, vs[j]? = some x ∧ evalZ zenv z = .ok x := by
  unfold Ev at h
  induction h generalizing j with
  | nil => simp at hz
  | cons h1 _ ih =>
    cases j with
    | zero => simp at hz; subst hz; exact ⟨_, by simp, h1⟩
    | succ j => simpa using ih (by simpa using hz)

theorem columns_ev {c : ℕ} {chs : List (List (ZExpr (ZMod p)))} {vs : List (AVal (ZMod p))}
    (h : List.Forall₂ (fun ch v => Ev zenv ch (prims v)) chs vs) (hl : ∀ v ∈ vs, (prims v).length = c) :
    ∀ (acc : List (List (ZExpr (ZMod p)))) (done : List (AVal (ZMod p))), acc.length = c → (∀ j col, acc[j]? = some col → ColEv zenv j col done) →
      (chs.foldl (fun acc e => List.zipWith (fun a x => a ++ [x]) acc e) acc).length = c ∧
      ∀ j col, (chs.foldl (fun acc e => List.zipWith (fun a x => a ++ [x]) acc e) acc)[j]? = some col → ColEv zenv j col (done ++ vs) := by
  induction h with
  | nil => intro acc done h1 h2; simpa [h1] using h2
  | @cons ch v chs vs h1 h2 ih =>
    intro acc done ha hd
    have hv := hl v List.mem_cons_self
    have hch : ch.length = c := by rw [h1.len, hv]
    simp only [List.foldl_cons]
    obtain ⟨r1, r2⟩ := ih (fun u hu => hl u (List.mem_cons_of_mem _ hu)) (List.zipWith (fun a x => a ++ [x]) acc ch) (done ++ [v])
      (by rw [List.length_zipWith, ha, hch, Nat.min_self]) (by
        intro j col hj
        rw [List.getElem?_zipWith] at hj
        cases ha' : acc[j]? with
        | none => simp [ha'] at hj
        | some a => cases hz : ch[j]? with
          | none => simp [ha', hz] at hj
          | some z =>
            simp only [ha', hz] at hj
            cases hj
            exact List.rel_append (hd j a ha') (.cons (ev_get h1 hz) .nil))
    refine ⟨r1, fun j col hj => ?_⟩
    have := r2 j col hj
    rwa [List.append_assoc] at this

theorem mapM_asF {es : List (ZExpr (ZMod p))} {fs : List (FExpr (ZMod p))} (h : es.mapM asF = some fs) : es = fs.map .field := by
  induction es generalizing fs with
  | nil => simp at h; simp [h]
  | cons e es ih =>
    simp only [List.mapM_cons, bind, Option.bind_eq_some_iff] at h
    obtain ⟨a, ha, b, hb, h⟩ := h
    cases h
    cases e <;> simp [asF] at ha
    rw [ih hb, ha]; rfl
theorem mapM_asB {es : List (ZExpr (ZMod p))} {fs : List (BExpr (ZMod p))} (h : es.mapM asB = some fs) : es = fs.map .bool := by
  induction es generalizing fs with
  | nil => simp at h; simp [h]
  | cons e es ih =>
    simp only [List.mapM_cons, bind, Option.bind_eq_some_iff] at h
    obtain ⟨a, ha, b, hb, h⟩ := h
    cases h
    cases e <;> simp [asB] at ha
    rw [ih hb, ha]; rfl
theorem mapM_asU {es : List (ZExpr (ZMod p))} {fs : List (UExpr (ZMod p))} (h : es.mapM asU = some fs) : es = fs.map .uint := by
  induction es generalizing fs with
  | nil => simp at h; simp [h]
  | cons e es ih =>
    simp only [List.mapM_cons, bind, Option.bind_eq_some_iff] at h
    obtain ⟨a, ha, b, hb, h⟩ := h
    cases h
    cases e <;> simp [asU] at ha
    rw [ih hb, ha]; rfl

theorem evalFs_col {fs : List (FExpr (ZMod p))} {xs : List (ZVal p)} (h : Ev zenv (fs.map .field) xs) :
    ∃ ns, evalFs zenv fs = .ok ns ∧ xs = ns.map .field := by
  induction fs generalizing xs with
  | nil => cases h; exact ⟨[], rfl, rfl⟩
  | cons f fs ih =>
    cases h with
    | cons h1 h2 =>
      obtain ⟨ns, i1, i2⟩ := ih h2
      rcases evalZ_kind h1 with ⟨a, u, ha, rfl, hu⟩ | ⟨a, u, ha, rfl, hu⟩ | ⟨a, u, ha, rfl, hu⟩ <;> cases ha
      exact ⟨u :: ns, by simp only [evalFs, hu, i1]; rfl, by rw [i2]; rfl⟩
theorem evalBs_col {fs : List (BExpr (ZMod p))} {xs : List (ZVal p)} (h : Ev zenv (fs.map .bool) xs) :
    ∃ ns, evalBs zenv fs = .ok ns ∧ xs = ns.map .bool := by
  induction fs generalizing xs with
  | nil => cases h; exact ⟨[], rfl, rfl⟩
  | cons f fs ih =>
    cases h with
    | cons h1 h2 =>
      obtain ⟨ns, i1, i2⟩ := ih h2
      rcases evalZ_kind h1 with ⟨a, u, ha, rfl, hu⟩ | ⟨a, u, ha, rfl, hu⟩ | ⟨a, u, ha, rfl, hu⟩ <;> cases ha
      exact ⟨u :: ns, by simp only [evalBs, hu, i1]; rfl, by rw [i2]; rfl⟩
theorem evalUs_col {fs : List (UExpr (ZMod p))} {xs : List (ZVal p)} {w : ℕ} (h : Ev zenv (fs.map .uint) xs) (hw : ∀ x ∈ xs, zty x = .uint w) :
    ∃ ns, evalUs zenv fs = .ok ns ∧ xs = ns.map (.uint w) := by
  induction fs generalizing xs with
  | nil => cases h; exact ⟨[], rfl, rfl⟩
  | cons f fs ih =>
    cases h with
    | cons h1 h2 =>
      obtain ⟨ns, i1, i2⟩ := ih h2 (fun x hx => hw x (List.mem_cons_of_mem _ hx))
      rcases evalZ_kind h1 with ⟨a, u, ha, rfl, hu⟩ | ⟨a, u, ha, rfl, hu⟩ | ⟨a, u, ha, rfl, hu⟩ <;> cases ha
      have := hw _ List.mem_cons_self
      simp only [zty, ZType.uint.injEq] at this
      exact ⟨u :: ns, by simp only [evalUs, hu, i1]; rfl, by rw [i2, this]; rfl⟩

theorem selectVal_map {α : Type} {β : Type} {f : α → β} {ns : List α} {k : ℕ} {x : β} (h : (ns.map f)[k]? = some x) :
    ∃ n, selectVal ns k = .ok n ∧ f n = x := by
  rw [List.getElem?_map] at h
  cases hn : ns[k]? with
  | none => simp [hn] at h
  | some n =>
    simp only [hn, Option.map_some, Option.some.injEq] at h
    exact ⟨n, by simp [selectVal, hn], h⟩

/-- A list of expressions of one type, and a select from them. -/
theorem selectCol_ev {i : UExpr (ZMod p)} {k : ℕ} {col : List (ZExpr (ZMod p))} {xs : List (ZVal p)} {τ : ZType} {x : ZVal p} {z : ZExpr (ZMod p)}
    (hi : evalU zenv i = .ok k) (h : Ev zenv col xs) (hτ : ∀ x ∈ xs, zty x = τ) (hk : xs[k]? = some x) (hs : selectCol i col = some z) :
    evalZ zenv z = .ok x := by
  cases col with
  | nil => simp [selectCol] at hs
  | cons c cs =>
    cases c with
    | field e =>
      simp only [selectCol, Option.map_eq_some_iff] at hs
      obtain ⟨fs, h1, rfl⟩ := hs
      rw [mapM_asF h1] at h
      obtain ⟨ns, h2, h3⟩ := evalFs_col h
      rw [h3] at hk
      obtain ⟨n, h4, rfl⟩ := selectVal_map hk
      simp only [evalZ, evalF, hi, h2, bind, Except.bind, h4]
    | bool e =>
      simp only [selectCol, Option.map_eq_some_iff] at hs
      obtain ⟨fs, h1, rfl⟩ := hs
      rw [mapM_asB h1] at h
      obtain ⟨ns, h2, h3⟩ := evalBs_col h
      rw [h3] at hk
      obtain ⟨n, h4, rfl⟩ := selectVal_map hk
      simp only [evalZ, evalB, hi, h2, bind, Except.bind, h4]
    | uint e =>
      simp only [selectCol, Option.map_eq_some_iff] at hs
      obtain ⟨fs, h1, rfl⟩ := hs
      have hτ' : τ = .uint e.width := by
        cases h with
        | cons h5 h6 =>
          rcases evalZ_kind h5 with ⟨a, u, ha, rfl, hu⟩ | ⟨a, u, ha, rfl, hu⟩ | ⟨a, u, ha, rfl, hu⟩ <;> cases ha
          exact (hτ _ List.mem_cons_self).symm
      rw [mapM_asU h1] at h
      obtain ⟨ns, h2, h3⟩ := evalUs_col h (fun x hx => (hτ x hx).trans hτ')
      rw [h3] at hk
      obtain ⟨n, h4, rfl⟩ := selectVal_map hk
      simp only [evalZ, evalU, evalUI, hi, h2, bind, Except.bind, h4]
      rfl

theorem colEv_ev {j : ℕ} {col : List (ZExpr (ZMod p))} {vs : List (AVal (ZMod p))} {t : CType} (h : ColEv zenv j col vs)
    (ht : ∀ v ∈ vs, HasType t v) : ∃ xs τ, Ev zenv col xs ∧ (∀ x ∈ xs, zty x = τ) ∧ ∀ (k : ℕ) (v : AVal (ZMod p)), vs[k]? = some v → (prims v)[j]? = xs[k]? := by
  refine ⟨vs.map (fun v => ((prims v)[j]?).getD (.bool true)), ((primTys t)[j]?).getD .field, ?_, ?_, ?_⟩
  · unfold ColEv at h
    unfold Ev
    rw [List.forall₂_map_right_iff]
    exact h.imp fun z v ⟨x, h1, h2⟩ => by rw [h1]; exact h2
  · have hne : ∀ v ∈ vs, ∃ x, (prims v)[j]? = some x := by
      unfold ColEv at h
      clear ht
      induction h with
      | nil => simp
      | cons h1 _ ih =>
        intro v hv
        rcases List.mem_cons.1 hv with rfl | hv
        · obtain ⟨x, hx, _⟩ := h1; exact ⟨x, hx⟩
        · exact ih v hv
    intro x hx
    obtain ⟨v, hv, rfl⟩ := List.mem_map.1 hx
    obtain ⟨y, hy⟩ := hne v hv
    have := prims_ty t v (ht v hv)
    rw [← this, List.getElem?_map, hy]
    rfl
  · intro k v hv
    have hlen := h
    unfold ColEv at hlen
    rw [List.getElem?_map, hv]
    have hm := List.mem_of_getElem? hv
    obtain ⟨z, hz⟩ : ∃ z, col[k]? = some z := by
      have := (List.getElem?_eq_some_iff.1 hv).1
      rw [← List.Forall₂.length_eq h] at this
      exact ⟨_, List.getElem?_eq_getElem this⟩
    obtain ⟨x, h1, _⟩ : ∃ x, (prims v)[j]? = some x ∧ evalZ zenv z = .ok x := by
      have := (List.forall₂_iff_get.1 h).2 k (List.getElem?_eq_some_iff.1 hz).1 (List.getElem?_eq_some_iff.1 hv).1
      simp only [List.get_eq_getElem] at this
      rw [(List.getElem?_eq_some_iff.1 hz).2, (List.getElem?_eq_some_iff.1 hv).2] at this
      exact this
    simp [h1]

theorem selectZs_ev {t : CType} {c k : ℕ} {arr zs : List (ZExpr (ZMod p))} {i : UExpr (ZMod p)} {vs : List (AVal (ZMod p))} {v : AVal (ZMod p)}
    (hc : primCount t = some c) (ht : ∀ v ∈ vs, HasType t v) (ha : Ev zenv arr (primsL vs)) (hi : evalU zenv i = .ok k) (hk : vs[k]? = some v)
    (h : selectZs c arr i = some zs) : Ev zenv zs (prims v) := by
  have hl : ∀ v ∈ vs, (prims v).length = c := fun v hv => prims_length (ht v hv) hc
  unfold selectZs at h
  split at h
  · rename_i m hm
    have : m = k := by
      cases i with
      | mk w info inner =>
        simp only [UExpr.inner] at hm
        subst hm
        simp only [evalU, evalUI] at hi
        cases hi; rfl
    subst this
    have := ha.slice h
    rwa [primsL_select hl hk] at this
  · split at h
    · cases h
    · rename_i hc0
      have hch := chunks_ev hc0 vs arr arr.length hl ha le_rfl
      obtain ⟨r1, r2⟩ := columns_ev hch hl (List.replicate c []) [] (by simp) (by
        intro j col hj
        rw [List.getElem?_replicate] at hj
        split at hj
        · cases hj; exact .nil
        · cases hj)
      have hlen : (columns c (chunks c arr.length arr)).length = c := r1
      have hcol : ∀ j col, (columns c (chunks c arr.length arr))[j]? = some col → ColEv zenv j col vs := r2
      clear r1 r2 hch
      generalize columns c (chunks c arr.length arr) = cols at h hlen hcol
      have hv := hl v (List.mem_of_getElem? hk)
      have key : ∀ (j : ℕ) col z, cols[j]? = some col → selectCol i col = some z → ∃ x, (prims v)[j]? = some x ∧ evalZ zenv z = .ok x := by
        intro j col z h1 h2
        obtain ⟨xs, τ, e1, e2, e3⟩ := colEv_ev (hcol j col h1) ht
        have hj : j < (prims v).length := by
          rw [hv, ← hlen]; exact (List.getElem?_eq_some_iff.1 h1).1
        refine ⟨(prims v)[j], List.getElem?_eq_getElem hj, selectCol_ev hi e1 e2 ?_ h2⟩
        rw [← e3 k v hk, List.getElem?_eq_getElem hj]
      clear hcol
      rw [← hlen] at hv
      clear hlen hl ht hc ha
      generalize prims v = xs at hv key
      clear hk
      induction cols generalizing zs xs with
      | nil =>
        simp at h hv
        subst h hv
        exact .nil
      | cons col cols ih =>
        simp only [List.mapM_cons, bind, Option.bind_eq_some_iff] at h
        obtain ⟨z, hz, zs', hzs, h⟩ := h
        cases h
        cases xs with
        | nil => simp at hv
        | cons x xs =>
          refine .cons ?_ (ih hzs xs (by simpa using hv) (fun j col z h1 h2 => by simpa using key (j + 1) col z (by simpa using h1) h2))
          obtain ⟨y, hy, h3⟩ := key 0 col z (by simp) hz
          simp at hy
          rw [hy]; exact h3

/-! ### Members and elements -/

theorem component_ev {pre : List CType} {t : CType} {l zs : List (ZExpr (ZMod p))} {ws us : List (AVal (ZMod p))} {v : AVal (ZMod p)}
    (hpre : HasTypeL pre ws) (ht : HasType t v) (hl : Ev zenv l (primsL ws ++ (prims v ++ primsL us))) (h : component pre t l = some zs) :
    Ev zenv zs (prims v) := by
  unfold component at h
  split at h
  · rename_i o c ho hc
    have := hl.slice h
    have h1 := primsL_length hpre ho
    have h2 := prims_length ht hc
    rw [← List.append_assoc, List.take_append_of_le_length (by rw [List.length_append]; omega), List.take_of_length_le (by rw [List.length_append]; omega),
      List.drop_append, List.drop_of_length_le (by omega), h1, Nat.sub_self] at this
    simpa using this
  · cases h

theorem primsM_eq (ms : List (Str × AVal (ZMod p))) : primsM ms = primsL (ms.map Prod.snd) := by
  induction ms with
  | nil => rfl
  | cons kv ms ih => cases kv; simp [primsM, primsL, ih]

theorem memberSplit_spec : ∀ (ms : List (Str × CType)) (vs : List (Str × AVal (ZMod p))) (m : Str) (pre : List CType) (t : CType) (v : AVal (ZMod p)),
    HasTypeM ms vs → memberSplit m ms = some (pre, t) → vs.lookup m = some v →
    ∃ ws us, HasTypeL pre ws ∧ HasType t v ∧ vs.map Prod.snd = ws ++ v :: us
  | [], _, _, _, _, _, _, h, _ => by simp [memberSplit] at h
  | _ :: _, [], _, _, _, _, h, _, _ => by simp [HasTypeM] at h
  | (k, t0) :: ms, (k', v0) :: vs, m, pre, t, v, h, h1, h2 => by
    simp only [HasTypeM] at h
    obtain ⟨rfl, h3, h4⟩ := h
    simp only [memberSplit] at h1
    split at h1
    · rename_i hk
      subst hk
      cases h1
      simp at h2
      subst h2
      exact ⟨[], vs.map Prod.snd, by simp [HasTypeL], h3, rfl⟩
    · rename_i hk
      rw [Option.map_eq_some_iff] at h1
      obtain ⟨⟨pre', t'⟩, h5, h6⟩ := h1
      cases h6
      have hne : (m == k') = false := by simpa using fun e : m = k' => hk e.symm
      simp only [List.lookup, hne] at h2
      obtain ⟨ws, us, i1, i2, i3⟩ := memberSplit_spec ms vs m pre' _ v h4 h5 h2
      exact ⟨v0 :: ws, us, by simp only [HasTypeL]; exact ⟨h3, i1⟩, i2, by simp [i3]⟩

theorem elementSplit_spec : ∀ (ts : List CType) (vs : List (AVal (ZMod p))) (i : ℕ) (t : CType) (v : AVal (ZMod p)), HasTypeL ts vs → ts[i]? = some t →
    vs[i]? = some v → ∃ ws us, HasTypeL (ts.take i) ws ∧ HasType t v ∧ vs = ws ++ v :: us
  | [], _, _, _, _, _, h, _ => by simp at h
  | _ :: _, [], _, _, _, h, _, _ => by simp [HasTypeL] at h
  | t0 :: ts, v0 :: vs, 0, t, v, h, h1, h2 => by
    simp only [HasTypeL] at h
    simp at h1 h2
    subst h1 h2
    exact ⟨[], vs, by simp [HasTypeL], h.1, rfl⟩
  | t0 :: ts, v0 :: vs, i + 1, t, v, h, h1, h2 => by
    simp only [HasTypeL] at h
    simp only [List.getElem?_cons_succ] at h1 h2
    obtain ⟨ws, us, i1, i2, i3⟩ := elementSplit_spec ts vs i t v h.2 h1 h2
    exact ⟨v0 :: ws, us, by simp only [List.take_succ_cons, HasTypeL]; exact ⟨h.1, i1⟩, i2, by simp [i3]⟩

end Zok.Typed
