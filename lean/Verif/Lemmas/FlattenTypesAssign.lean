import Verif.Lemmas.FlattenTypesExpr

/-! Assignments to parts of variables: which components change. -/

namespace Zok.Typed
open Abi
variable {p : ℕ} [Fact p.Prime]

/-! ### Names -/

/-- `s` is the name of `a` or of a component of it. -/
inductive Under (a : SId) : SId → Prop
  | refl : Under a a
  | select {s i} : Under a s → Under a (.select s i)
  | member {s m} : Under a s → Under a (.member s m)
  | element {s i} : Under a s → Under a (.element s i)

theorem Under.trans {a b c : SId} (h1 : Under a b) (h2 : Under b c) : Under a c := by
  induction h2 with
  | refl => exact h1
  | select _ ih => exact .select ih
  | member _ ih => exact .member ih
  | element _ ih => exact .element ih

/-- The number of steps of a name. -/
def SId.depth : SId → ℕ
  | .basic _ => 0
  | .select s _ | .member s _ | .element s _ => s.depth + 1

theorem Under.depth {a b : SId} (h : Under a b) : a.depth ≤ b.depth := by
  induction h with
  | refl => exact le_rfl
  | select _ ih => simp only [SId.depth]; omega
  | member _ ih => simp only [SId.depth]; omega
  | element _ ih => simp only [SId.depth]; omega

/-- The variable of a name. -/
def SId.root : SId → TId
  | .basic x => x
  | .select s _ | .member s _ | .element s _ => s.root

theorem Under.root {a b : SId} (h : Under a b) : b.root = a.root := by
  induction h <;> simp_all [SId.root]

/-- Names of the same depth with a common component are equal. -/
theorem Under.unique {a b s : SId} (h1 : Under a s) (h2 : Under b s) (hd : a.depth = b.depth) : a = b := by
  induction h1 with
  | refl =>
    cases h2 with
    | refl => rfl
    | select h => have := h.depth; simp only [SId.depth] at hd; omega
    | member h => have := h.depth; simp only [SId.depth] at hd; omega
    | element h => have := h.depth; simp only [SId.depth] at hd; omega
  | select h ih =>
    cases h2 with
    | refl => have := h.depth; simp only [SId.depth] at hd; omega
    | select h' => exact ih h'
  | member h ih =>
    cases h2 with
    | refl => have := h.depth; simp only [SId.depth] at hd; omega
    | member h' => exact ih h'
  | element h ih =>
    cases h2 with
    | refl => have := h.depth; simp only [SId.depth] at hd; omega
    | element h' => exact ih h'

theorem leavesA_mem {vs : List (AVal (ZMod p))} {id : SId} : ∀ {i : ℕ} {q}, q ∈ leavesA vs id i ↔ ∃ j v, vs[j]? = some v ∧ q ∈ leaves v (.select id (i + j)) := by
  induction vs with
  | nil => intro i q; simp [leavesA]
  | cons v vs ih =>
    intro i q
    simp only [leavesA, List.mem_append, ih]
    constructor
    · rintro (h | ⟨j, w, h1, h2⟩)
      · exact ⟨0, v, rfl, h⟩
      · exact ⟨j + 1, w, by simpa using h1, by rwa [show i + (j + 1) = i + 1 + j by omega]⟩
    · rintro ⟨j, w, h1, h2⟩
      cases j with
      | zero => simp at h1; subst h1; exact .inl h2
      | succ j => exact .inr ⟨j, w, by simpa using h1, by rwa [show i + 1 + j = i + (j + 1) by omega]⟩

theorem leavesT_mem {vs : List (AVal (ZMod p))} {id : SId} : ∀ {i : ℕ} {q}, q ∈ leavesT vs id i ↔ ∃ j v, vs[j]? = some v ∧ q ∈ leaves v (.element id (i + j)) := by
  induction vs with
  | nil => intro i q; simp [leavesT]
  | cons v vs ih =>
    intro i q
    simp only [leavesT, List.mem_append, ih]
    constructor
    · rintro (h | ⟨j, w, h1, h2⟩)
      · exact ⟨0, v, rfl, h⟩
      · exact ⟨j + 1, w, by simpa using h1, by rwa [show i + (j + 1) = i + 1 + j by omega]⟩
    · rintro ⟨j, w, h1, h2⟩
      cases j with
      | zero => simp at h1; subst h1; exact .inl h2
      | succ j => exact .inr ⟨j, w, by simpa using h1, by rwa [show i + 1 + j = i + (j + 1) by omega]⟩

theorem leavesM_mem {vs : List (Str × AVal (ZMod p))} {id : SId} {q} : q ∈ leavesM vs id ↔ ∃ kv ∈ vs, q ∈ leaves kv.2 (.member id kv.1) := by
  induction vs with
  | nil => simp [leavesM]
  | cons kv vs ih =>
    obtain ⟨k, v⟩ := kv
    simp only [leavesM, List.mem_append, ih, List.mem_cons, exists_eq_or_imp]

mutual
theorem leaves_under : ∀ (v : AVal (ZMod p)) (id : SId) (q), q ∈ leaves v id → Under id q.1
  | .field _, id, q, h => by simp only [leaves, List.mem_singleton] at h; subst h; exact .refl
  | .uint _ _, id, q, h => by simp only [leaves, List.mem_singleton] at h; subst h; exact .refl
  | .bool _, id, q, h => by simp only [leaves, List.mem_singleton] at h; subst h; exact .refl
  | .array vs, id, q, h => by simp only [leaves] at h; exact leavesA_under vs id 0 q h
  | .tuple vs, id, q, h => by simp only [leaves] at h; exact leavesT_under vs id 0 q h
  | .struct vs, id, q, h => by simp only [leaves] at h; exact leavesM_under vs id q h
theorem leavesA_under : ∀ (vs : List (AVal (ZMod p))) (id : SId) (i : ℕ) (q), q ∈ leavesA vs id i → Under id q.1
  | [], _, _, _, h => by simp [leavesA] at h
  | v :: vs, id, i, q, h => by
    simp only [leavesA, List.mem_append] at h
    rcases h with h | h
    · exact (Under.select .refl).trans (leaves_under v _ q h)
    · exact leavesA_under vs id _ q h
theorem leavesT_under : ∀ (vs : List (AVal (ZMod p))) (id : SId) (i : ℕ) (q), q ∈ leavesT vs id i → Under id q.1
  | [], _, _, _, h => by simp [leavesT] at h
  | v :: vs, id, i, q, h => by
    simp only [leavesT, List.mem_append] at h
    rcases h with h | h
    · exact (Under.element .refl).trans (leaves_under v _ q h)
    · exact leavesT_under vs id _ q h
theorem leavesM_under : ∀ (vs : List (Str × AVal (ZMod p))) (id : SId) (q), q ∈ leavesM vs id → Under id q.1
  | [], _, _, h => by simp [leavesM] at h
  | (k, v) :: vs, id, q, h => by
    simp only [leavesM, List.mem_append] at h
    rcases h with h | h
    · exact (Under.member .refl).trans (leaves_under v _ q h)
    · exact leavesM_under vs id q h
end

theorem select_ne {id : SId} {i j : ℕ} {s : SId} (h1 : Under (.select id i) s) (h2 : Under (.select id j) s) : i = j := by
  have := h1.unique h2 (by simp [SId.depth]); simpa using this
theorem element_ne {id : SId} {i j : ℕ} {s : SId} (h1 : Under (.element id i) s) (h2 : Under (.element id j) s) : i = j := by
  have := h1.unique h2 (by simp [SId.depth]); simpa using this
theorem member_ne {id : SId} {i j : Str} {s : SId} (h1 : Under (.member id i) s) (h2 : Under (.member id j) s) : i = j := by
  have := h1.unique h2 (by simp [SId.depth]); simpa using this

mutual
/-- The names of the components of a value are distinct. -/
theorem leaves_nodup : ∀ (t : CType) (v : AVal (ZMod p)) (id : SId), t.Distinct → HasType t v → ((leaves v id).map Prod.fst).Nodup
  | .int, v, id, _, h => by cases v <;> simp [HasType] at h
  | .field, v, id, _, h => by cases v <;> simp_all [HasType, leaves]
  | .bool, v, id, _, h => by cases v <;> simp_all [HasType, leaves]
  | .uint w, v, id, _, h => by cases v <;> simp_all [HasType, leaves]
  | .array n t, v, id, hd, h => by
    cases v with
    | array vs =>
      simp only [HasType] at h
      simp only [leaves]
      simp only [CType.Distinct] at hd
      have ih : ∀ v ∈ vs, ∀ id, ((leaves v id).map Prod.fst).Nodup := fun v hv id => leaves_nodup t v id hd (h.2 v hv)
      clear h
      generalize 0 = i
      induction vs generalizing i with
      | nil => simp [leavesA]
      | cons v vs ih2 =>
        simp only [leavesA, List.map_append]
        refine List.Nodup.append (ih v List.mem_cons_self _) (ih2 (fun u hu => ih u (List.mem_cons_of_mem _ hu)) _) ?_
        intro s h1 h2
        obtain ⟨q, hq, rfl⟩ := List.mem_map.1 h1
        obtain ⟨r, hr, hrq⟩ := List.mem_map.1 h2
        obtain ⟨j, w, h3, h4⟩ := leavesA_mem.1 hr
        have u1 := leaves_under _ _ _ hq
        have u2 := leaves_under _ _ _ h4
        rw [hrq] at u2
        have := select_ne u1 u2
        omega
    | _ => simp [HasType] at h
  | .struct ms, v, id, hd, h => by
    cases v with
    | struct fs =>
      simp only [HasType] at h
      simp only [leaves]
      simp only [CType.Distinct] at hd
      exact leavesM_nodup ms fs id hd.1 hd.2 h
    | _ => simp [HasType] at h
  | .tuple ts, v, id, hd, h => by
    cases v with
    | tuple fs =>
      simp only [HasType] at h
      simp only [leaves]
      simp only [CType.Distinct] at hd
      exact leavesT_nodup ts fs id 0 hd h
    | _ => simp [HasType] at h
theorem leavesT_nodup : ∀ (ts : List CType) (vs : List (AVal (ZMod p))) (id : SId) (i : ℕ), DistinctL ts → HasTypeL ts vs →
    ((leavesT vs id i).map Prod.fst).Nodup
  | [], [], _, _, _, _ => by simp [leavesT]
  | [], _ :: _, _, _, _, h => by simp [HasTypeL] at h
  | _ :: _, [], _, _, _, h => by simp [HasTypeL] at h
  | t :: ts, v :: vs, id, i, hd, h => by
    simp only [HasTypeL] at h
    simp only [DistinctL] at hd
    simp only [leavesT, List.map_append]
    refine List.Nodup.append (leaves_nodup t v _ hd.1 h.1) (leavesT_nodup ts vs id (i + 1) hd.2 h.2) ?_
    intro s h1 h2
    obtain ⟨q, hq, rfl⟩ := List.mem_map.1 h1
    obtain ⟨r, hr, hrq⟩ := List.mem_map.1 h2
    obtain ⟨j, w, h3, h4⟩ := leavesT_mem.1 hr
    have u1 := leaves_under _ _ _ hq
    have u2 := leaves_under _ _ _ h4
    rw [hrq] at u2
    have := element_ne u1 u2
    omega
theorem leavesM_nodup : ∀ (ts : List (Str × CType)) (vs : List (Str × AVal (ZMod p))) (id : SId), (ts.map Prod.fst).Nodup → DistinctM ts → HasTypeM ts vs →
    ((leavesM vs id).map Prod.fst).Nodup
  | [], [], _, _, _, _ => by simp [leavesM]
  | [], _ :: _, _, _, _, h => by simp [HasTypeM] at h
  | _ :: _, [], _, _, _, h => by simp [HasTypeM] at h
  | (k, t) :: ts, (k', v) :: vs, id, hn, hd, h => by
    simp only [HasTypeM] at h
    obtain ⟨rfl, h5, h6⟩ := h
    simp only [DistinctM] at hd
    simp only [List.map_cons, List.nodup_cons] at hn
    simp only [leavesM, List.map_append]
    refine List.Nodup.append (leaves_nodup t v _ hd.1 h5) (leavesM_nodup ts vs id hn.2 hd.2 h6) ?_
    intro s h1 h2
    obtain ⟨q, hq, rfl⟩ := List.mem_map.1 h1
    obtain ⟨r, hr, hrq⟩ := List.mem_map.1 h2
    obtain ⟨kv, h3, h4⟩ := leavesM_mem.1 hr
    have u1 := leaves_under _ _ _ hq
    have u2 := leaves_under _ _ _ h4
    rw [hrq] at u2
    have := member_ne u1 u2
    rw [← hasTypeM_keys ts vs h6] at hn
    exact hn.1 (this ▸ List.mem_map_of_mem h3)
end

/-! ### The name of an assignee -/

/-- The name of the assigned part; indices have to be literals. -/
def TAssignee.sid {F : Type} : TAssignee F → SId
  | .ident x _ => .basic x
  | .select a (.uval _ k) => .select a.sid k
  | .select a _ => .select a.sid 0
  | .member a m => .member a.sid m
  | .element a i => .element a.sid i

theorem TAssignee.sid_root {F : Type} (a : TAssignee F) : a.sid.root = a.root := by
  induction a with
  | ident => rfl
  | select a i ih => cases i <;> simpa [TAssignee.sid, SId.root, TAssignee.root] using ih
  | member a m ih => simpa [TAssignee.sid, SId.root, TAssignee.root] using ih
  | element a m ih => simpa [TAssignee.sid, SId.root, TAssignee.root] using ih

/-- All indices are literals: what `flatA` requires. -/
def TAssignee.Literal {F : Type} : TAssignee F → Prop
  | .ident _ _ => True
  | .select a i => (∃ w k, i = .uval w k) ∧ a.Literal
  | .member a _ => a.Literal
  | .element a _ => a.Literal

variable {env : TEnv p}

theorem getA_leaves : ∀ {a : TAssignee (ZMod p)} {u : AVal (ZMod p)}, a.Literal → getA env a = .ok u →
    ∃ R, env a.root = some R ∧ ∀ q ∈ leaves u a.sid, q ∈ leaves R (.basic a.root) := by
  intro a
  induction a with
  | ident x t =>
    intro u _ h
    simp only [getA, evalT] at h
    split at h
    · rename_i R hR
      split at h
      · cases h; exact ⟨u, hR, fun q hq => hq⟩
      · cases h
    · cases h
  | select a i ih =>
    intro u hl h
    obtain ⟨⟨w, k, rfl⟩, hl⟩ := hl
    simp only [getA] at h
    obtain ⟨vs, hvs, h⟩ := Prop'.exc_bind_ok h
    obtain ⟨k', hk, h⟩ := Prop'.exc_bind_ok h
    obtain ⟨u', hu, hvs⟩ := bind_ok hvs
    have := asArray_ok hvs
    subst this
    obtain ⟨R, hR, h1⟩ := ih hl hu
    refine ⟨R, hR, fun q hq => h1 q ?_⟩
    simp only [leaves]
    refine leavesA_mem.2 ⟨k', u, selectVal_ok h, ?_⟩
    simp only [evalT, Except.bind, asUint] at hk
    split at hk
    · cases hk; simpa [TAssignee.sid] using hq
    · cases hk
  | member a m ih =>
    intro u hl h
    simp only [getA] at h
    obtain ⟨s, hs, h⟩ := Prop'.exc_bind_ok h
    cases s with
    | struct ms =>
      simp only at h
      split at h
      · rename_i v hv
        cases h
        obtain ⟨R, hR, h1⟩ := ih hl hs
        refine ⟨R, hR, fun q hq => h1 q ?_⟩
        simp only [leaves]
        obtain ⟨l1, l2, he, _⟩ := List.lookup_eq_some_iff.1 hv
        exact leavesM_mem.2 ⟨(m, u), by simp [he], hq⟩
      · cases h
    | _ => simp at h
  | element a i ih =>
    intro u hl h
    simp only [getA] at h
    obtain ⟨s, hs, h⟩ := Prop'.exc_bind_ok h
    cases s with
    | tuple vs =>
      simp only at h
      split at h
      · rename_i v hv
        cases h
        obtain ⟨R, hR, h1⟩ := ih hl hs
        refine ⟨R, hR, fun q hq => h1 q ?_⟩
        simp only [leaves]
        exact leavesT_mem.2 ⟨i, u, hv, by simpa [TAssignee.sid] using hq⟩
      · cases h
    | _ => simp at h

/-- After an assignment, the components of the variable are those of the new value and the old ones outside of the assigned part. -/
theorem setA_leaves : ∀ {a : TAssignee (ZMod p)} {new R' : AVal (ZMod p)}, a.Literal → setA env a new = .ok R' →
    ∀ q ∈ leaves R' (.basic a.root), q ∈ leaves new a.sid ∨ ∃ R, env a.root = some R ∧ q ∈ leaves R (.basic a.root) ∧ ¬ Under a.sid q.1 := by
  intro a
  induction a with
  | ident x t =>
    intro new R' _ h q hq
    simp only [setA] at h
    cases h
    exact .inl hq
  | select a i ih =>
    intro new R' hl h q hq
    obtain ⟨⟨w, k, rfl⟩, hl⟩ := hl
    simp only [setA] at h
    obtain ⟨vs, hvs, h⟩ := Prop'.exc_bind_ok h
    obtain ⟨k', hk, h⟩ := Prop'.exc_bind_ok h
    obtain ⟨u', hu, hvs⟩ := bind_ok hvs
    have := asArray_ok hvs
    subst this
    simp only [evalT, Except.bind, asUint] at hk
    split at hk
    · cases hk
      split at h
      · rename_i hlt
        rcases ih hl h q hq with h1 | ⟨R, hR, h1, h2⟩
        · simp only [leaves] at h1
          obtain ⟨j, v, h3, h4⟩ := leavesA_mem.1 h1
          rw [Nat.zero_add] at h4
          by_cases hj : j = k
          · subst hj
            rw [List.getElem?_set_self hlt] at h3
            cases h3
            exact .inl h4
          · rw [List.getElem?_set_ne (Ne.symm hj)] at h3
            obtain ⟨R, hR, h5⟩ := getA_leaves hl hu
            refine .inr ⟨R, hR, h5 q ?_, fun h6 => hj (select_ne (leaves_under _ _ _ h4) h6)⟩
            simp only [leaves]
            exact leavesA_mem.2 ⟨j, v, h3, by rwa [Nat.zero_add]⟩
        · exact .inr ⟨R, hR, h1, fun h3 => h2 ((Under.select .refl).trans h3)⟩
      · cases h
    · cases hk
  | member a m ih =>
    intro new R' hl h q hq
    simp only [setA] at h
    obtain ⟨s, hs, h⟩ := Prop'.exc_bind_ok h
    cases s with
    | struct ms =>
      simp only at h
      rcases ih hl h q hq with h1 | ⟨R, hR, h1, h2⟩
      · simp only [leaves] at h1
        obtain ⟨kv, h3, h4⟩ := leavesM_mem.1 h1
        obtain ⟨kv', h5, h6⟩ := List.mem_map.1 h3
        by_cases hj : kv'.1 = m
        · rw [if_pos hj] at h6
          subst h6
          simp only [hj] at h4
          exact .inl h4
        · rw [if_neg hj] at h6
          subst h6
          obtain ⟨R, hR, h7⟩ := getA_leaves (a := a) hl hs
          refine .inr ⟨R, hR, h7 q ?_, fun h6 => hj (member_ne (leaves_under _ _ _ h4) h6)⟩
          simp only [leaves]
          exact leavesM_mem.2 ⟨kv', h5, h4⟩
      · exact .inr ⟨R, hR, h1, fun h3 => h2 ((Under.member .refl).trans h3)⟩
    | _ => simp at h
  | element a i ih =>
    intro new R' hl h q hq
    simp only [setA] at h
    obtain ⟨s, hs, h⟩ := Prop'.exc_bind_ok h
    cases s with
    | tuple vs =>
      simp only at h
      rcases ih hl h q hq with h1 | ⟨R, hR, h1, h2⟩
      · simp only [leaves] at h1
        obtain ⟨j, v, h3, h4⟩ := leavesT_mem.1 h1
        rw [Nat.zero_add] at h4
        by_cases hj : j = i
        · subst hj
          rw [List.getElem?_set] at h3
          simp only [if_true] at h3
          split at h3
          · cases h3
            exact .inl h4
          · cases h3
        · rw [List.getElem?_set_ne (Ne.symm hj)] at h3
          obtain ⟨R, hR, h5⟩ := getA_leaves (a := a) hl hs
          refine .inr ⟨R, hR, h5 q ?_, fun h6 => hj (element_ne (leaves_under _ _ _ h4) h6)⟩
          simp only [leaves]
          exact leavesT_mem.2 ⟨j, v, h3, by rwa [Nat.zero_add]⟩
      · exact .inr ⟨R, hR, h1, fun h3 => h2 ((Under.element .refl).trans h3)⟩
    | _ => simp at h

/-! ### The flattened assignee -/

theorem concatO_some {α : Type _} {os : List (Option (List α))} (h : ∀ o ∈ os, ∃ l, o = some l) : ∃ l, concatO os = some l := by
  induction os with
  | nil => exact ⟨[], rfl⟩
  | cons o os ih =>
    obtain ⟨a, rfl⟩ := h o List.mem_cons_self
    obtain ⟨b, hb⟩ := ih fun o ho => h o (List.mem_cons_of_mem _ ho)
    exact ⟨a ++ b, by simp [concatO, hb]⟩

theorem concatO_length {α : Type _} {c : ℕ} : ∀ {os : List (Option (List α))} {l : List α}, (∀ o ∈ os, ∀ l, o = some l → l.length = c) →
    concatO os = some l → l.length = os.length * c
  | [], l, _, h => by simp [concatO] at h; simp [h]
  | o :: os, l, hl, h => by
    obtain ⟨a, b, h1, h2, rfl⟩ := concatO_cons h
    rw [List.length_append, hl o List.mem_cons_self a h1, concatO_length (fun o ho => hl o (List.mem_cons_of_mem _ ho)) h2, List.length_cons]
    ring

theorem concatO_slice {α : Type _} {c : ℕ} : ∀ {os : List (Option (List α))} {l : List α} {k : ℕ}, (∀ o ∈ os, ∀ l, o = some l → l.length = c) →
    concatO os = some l → k < os.length → ∃ m, os[k]? = some (some m) ∧ (l.take ((k + 1) * c)).drop (k * c) = m
  | [], l, k, _, _, hk => by simp at hk
  | o :: os, l, 0, hl, h, _ => by
    obtain ⟨a, b, rfl, h2, rfl⟩ := concatO_cons h
    have := hl _ List.mem_cons_self a rfl
    refine ⟨a, rfl, ?_⟩
    simp [← this]
  | o :: os, l, k + 1, hl, h, hk => by
    obtain ⟨a, b, rfl, h2, rfl⟩ := concatO_cons h
    have ha := hl _ List.mem_cons_self a rfl
    obtain ⟨m, h3, h4⟩ := concatO_slice (k := k) (fun o ho => hl o (List.mem_cons_of_mem _ ho)) h2 (by simpa using hk)
    refine ⟨m, by simpa using h3, ?_⟩
    rw [show (k + 1 + 1) * c = a.length + (k + 1) * c by rw [ha]; ring, show (k + 1) * c = a.length + k * c by rw [ha]; ring, List.take_append,
      List.take_of_length_le (by omega), List.drop_append, List.drop_of_length_le (by omega)]
    simp only [Nat.add_sub_cancel_left, List.nil_append]
    rw [show a.length + k * c = (k + 1) * c by rw [ha]; ring]
    exact h4

mutual
theorem flatIds_len : ∀ (t : CType) (c : ℕ) (id : SId), primCount t = some c → ∃ l, flatIds t id = some l ∧ l.length = c
  | .int, c, id, h => by simp [primCount] at h
  | .field, c, id, h => by simp [primCount] at h; subst h; exact ⟨_, rfl, rfl⟩
  | .bool, c, id, h => by simp [primCount] at h; subst h; exact ⟨_, rfl, rfl⟩
  | .uint w, c, id, h => by simp [primCount] at h; subst h; exact ⟨_, rfl, rfl⟩
  | .array n t, c, id, h => by
    simp only [primCount] at h
    cases hc' : primCount t with
    | none => simp [hc'] at h
    | some c' =>
      simp only [hc', Option.some.injEq] at h
      subst h
      have ih : ∀ i, ∃ l, flatIds t (.select id i) = some l ∧ l.length = c' := fun i => flatIds_len t c' (.select id i) hc'
      have hl : ∀ o ∈ (List.range n).map fun i => flatIds t (.select id i), ∃ l, o = some l := by
        intro o ho
        obtain ⟨i, _, rfl⟩ := List.mem_map.1 ho
        obtain ⟨l, h1, _⟩ := ih i
        exact ⟨l, h1⟩
      obtain ⟨l, h1⟩ := concatO_some hl
      refine ⟨l, by rw [flatIds]; exact h1, ?_⟩
      rw [concatO_length (c := c') _ h1, List.length_map, List.length_range]
      intro o ho m hm
      obtain ⟨i, _, rfl⟩ := List.mem_map.1 ho
      obtain ⟨l, h1, h2⟩ := ih i
      rw [h1] at hm; cases hm; exact h2
  | .struct ms, c, id, h => by
    simp only [primCount] at h
    simp only [flatIds]
    exact flatIdsM_len ms c id h
  | .tuple ts, c, id, h => by
    simp only [primCount] at h
    simp only [flatIds]
    exact flatIdsT_len ts c id 0 h
theorem flatIdsM_len : ∀ (ts : List (Str × CType)) (c : ℕ) (id : SId), primCountM ts = some c → ∃ l, flatIdsM ts id = some l ∧ l.length = c
  | [], c, id, h => by simp [primCountM] at h; subst h; exact ⟨[], rfl, rfl⟩
  | (k, t) :: ts, c, id, h => by
    simp only [primCountM] at h
    split at h
    · rename_i c1 c2 h1 h2
      cases h
      obtain ⟨a, i1, i2⟩ := flatIds_len t c1 (.member id k) h1
      obtain ⟨b, i3, i4⟩ := flatIdsM_len ts c2 id h2
      exact ⟨a ++ b, by simp only [flatIdsM, i1, i3], by simp [i2, i4]⟩
    · cases h
theorem flatIdsT_len : ∀ (ts : List CType) (c : ℕ) (id : SId) (i : ℕ), primCountL ts = some c → ∃ l, flatIdsT ts id i = some l ∧ l.length = c
  | [], c, id, _, h => by simp [primCountL] at h; subst h; exact ⟨[], rfl, rfl⟩
  | t :: ts, c, id, i, h => by
    simp only [primCountL] at h
    split at h
    · rename_i c1 c2 h1 h2
      cases h
      obtain ⟨a, i1, i2⟩ := flatIds_len t c1 (.element id i) h1
      obtain ⟨b, i3, i4⟩ := flatIdsT_len ts c2 id (i + 1) h2
      exact ⟨a ++ b, by simp only [flatIdsT, i1, i3], by simp [i2, i4]⟩
    · cases h
end

theorem drop_take_mid {α : Type _} (a b c : List α) : ((a ++ (b ++ c)).take (a.length + b.length)).drop a.length = b := by
  rw [← List.append_assoc, ← List.length_append, List.take_left', List.drop_left']
  · rfl
  · rfl

theorem flatIdsM_component {m : Str} {t : CType} {c : ℕ} (hc : primCount t = some c) (id : SId) : ∀ {ms : List (Str × CType)} {pre : List CType} {o : ℕ}
    {l : List (SId × ZType)}, memberSplit m ms = some (pre, t) → flatIdsM ms id = some l → primCountL pre = some o →
    ∃ a x b, l = a ++ (x ++ b) ∧ a.length = o ∧ flatIds t (.member id m) = some x
  | [], pre, o, l, h, _, _ => by simp [memberSplit] at h
  | (k, t0) :: ms, pre, o, l, h, hl, ho => by
    simp only [flatIdsM] at hl
    split at hl
    · rename_i as bs ha hb
      cases hl
      simp only [memberSplit] at h
      split at h
      · rename_i hk
        subst hk
        cases h
        simp [primCountL] at ho
        exact ⟨[], as, bs, rfl, by simpa using ho, ha⟩
      · rw [Option.map_eq_some_iff] at h
        obtain ⟨⟨pre', t'⟩, h5, h6⟩ := h
        cases h6
        simp only [primCountL] at ho
        split at ho
        · rename_i c1 c2 h1 h2
          cases ho
          obtain ⟨a, x, b, e1, e2, e3⟩ := flatIdsM_component hc id h5 hb h2
          obtain ⟨as', i1, i2⟩ := flatIds_len t0 c1 (.member id k) h1
          rw [ha] at i1; cases i1
          exact ⟨as ++ a, x, b, by rw [e1, List.append_assoc], by rw [List.length_append, i2, e2], e3⟩
        · cases ho
    · cases hl

theorem flatIdsT_component {t : CType} {c : ℕ} (hc : primCount t = some c) (id : SId) : ∀ {ts : List CType} {i j o : ℕ}
    {l : List (SId × ZType)}, ts[i]? = some t → flatIdsT ts id j = some l → primCountL (ts.take i) = some o →
    ∃ a x b, l = a ++ (x ++ b) ∧ a.length = o ∧ flatIds t (.element id (j + i)) = some x
  | [], i, j, o, l, h, _, _ => by simp at h
  | t0 :: ts, 0, j, o, l, h, hl, ho => by
    simp only [flatIdsT] at hl
    split at hl
    · rename_i as bs ha hb
      cases hl
      simp at h
      subst h
      simp [primCountL] at ho
      exact ⟨[], as, bs, rfl, by simpa using ho, ha⟩
    · cases hl
  | t0 :: ts, i + 1, j, o, l, h, hl, ho => by
    simp only [flatIdsT] at hl
    split at hl
    · rename_i as bs ha hb
      cases hl
      simp only [List.take_succ_cons, primCountL] at ho
      split at ho
      · rename_i c1 c2 h1 h2
        cases ho
        obtain ⟨a, x, b, e1, e2, e3⟩ := flatIdsT_component hc id (by simpa using h) hb h2
        obtain ⟨as', i1, i2⟩ := flatIds_len t0 c1 (.element id j) h1
        rw [ha] at i1; cases i1
        exact ⟨as ++ a, x, b, by rw [e1, List.append_assoc], by rw [List.length_append, i2, e2], by rw [← e3, show j + (i + 1) = j + 1 + i by omega]⟩
      · cases ho
    · cases hl

theorem component_mid {α : Type _} {pre : List CType} {t : CType} {a x b l' : List α} {o c : ℕ} (ho : primCountL pre = some o) (hc : primCount t = some c)
    (ha : a.length = o) (hx : x.length = c) (h : component pre t (a ++ (x ++ b)) = some l') : l' = x := by
  unfold component at h
  rw [ho, hc] at h
  simp only [Abi.slice] at h
  split at h
  · cases h; rw [← ha, ← hx, drop_take_mid]
  · cases h

/-- The flattened assignee consists of the variables of the assigned part. -/
theorem flatA_ids : ∀ {a : TAssignee (ZMod p)} {l : List (SId × ZType)} {t : CType}, flatA a = some l → a.ty = some t →
    a.Literal ∧ flatIds t a.sid = some l := by
  intro a
  induction a with
  | ident x t0 =>
    intro l t h ht
    simp only [TAssignee.ty] at ht; cases ht
    exact ⟨trivial, h⟩
  | select a i ih =>
    intro l t h ht
    simp only [TAssignee.ty] at ht
    simp only [flatA] at h
    split at ht
    · rename_i n t' hat
      cases ht
      simp only [hat] at h
      split at h
      · rename_i c l' w k hc hl
        obtain ⟨i1, i2⟩ := ih hl hat
        refine ⟨⟨⟨_, _, rfl⟩, i1⟩, ?_⟩
        simp only [flatIds] at i2
        have hlen : ∀ o ∈ (List.range n).map fun i => flatIds t (.select a.sid i), ∀ l, o = some l → l.length = c := by
          intro o ho m hm
          obtain ⟨i, _, rfl⟩ := List.mem_map.1 ho
          obtain ⟨l, h1, h2⟩ := flatIds_len t c (.select a.sid i) hc
          rw [h1] at hm; cases hm; exact h2
        unfold Abi.slice at h
        split at h
        · rename_i hle
          cases h
          have hl' := concatO_length hlen i2
          rw [List.length_map, List.length_range] at hl'
          by_cases hc0 : c = 0
          · subst hc0
            obtain ⟨m, h1, h2⟩ := flatIds_len t 0 (.select a.sid k) hc
            rw [TAssignee.sid, h1]
            simp at hl' h2
            simp [hl', h2]
          · have hk : k < n := by
              rw [hl'] at hle
              exact Nat.le_of_mul_le_mul_right hle (Nat.pos_of_ne_zero hc0)
            obtain ⟨m, h1, h2⟩ := concatO_slice (k := k) hlen i2 (by simpa using hk)
            rw [h2]
            rw [List.getElem?_map, List.getElem?_range hk] at h1
            simp only [Option.map_some, Option.some.injEq] at h1
            exact h1
        · cases h
      · cases h
    · cases ht
  | member a m ih =>
    intro l t h ht
    simp only [TAssignee.ty] at ht
    simp only [flatA] at h
    split at ht
    · rename_i ms hat
      simp only [hat] at h
      split at h
      · rename_i pre t' l' hsp hl
        obtain ⟨i1, i2⟩ := ih hl hat
        refine ⟨i1, ?_⟩
        simp only [flatIds] at i2
        have htt : t' = t := by
          clear i2 hl h hat
          induction ms generalizing pre with
          | nil => simp [memberSplit] at hsp
          | cons kv ms ih =>
            obtain ⟨k, t0⟩ := kv
            simp only [memberSplit] at hsp
            split at hsp
            · rename_i hk; subst hk; cases hsp; simpa using ht
            · rename_i hk
              rw [Option.map_eq_some_iff] at hsp
              obtain ⟨⟨pre', t''⟩, h5, h6⟩ := hsp
              cases h6
              have : (m == k) = false := by simpa using fun e : m = k => hk e.symm
              simp only [List.lookup, this] at ht
              exact ih ht pre' h5
        subst htt
        have h' := h
        unfold component at h'
        split at h'
        · rename_i o c ho hc
          obtain ⟨x, y, z, e1, e2, e3⟩ := flatIdsM_component hc a.sid hsp i2 ho
          obtain ⟨y', e4, e5⟩ := flatIds_len t' c (.member a.sid m) hc
          rw [e3] at e4; cases e4
          rw [e1] at h
          rw [TAssignee.sid, component_mid ho hc e2 e5 h, e3]
        · cases h'
      · cases h
    · cases ht
  | element a i ih =>
    intro l t h ht
    simp only [TAssignee.ty] at ht
    simp only [flatA] at h
    split at ht
    · rename_i ts hat
      simp only [hat] at h
      split at h
      · rename_i t' l' hsp hl
        obtain ⟨i1, i2⟩ := ih hl hat
        refine ⟨i1, ?_⟩
        simp only [flatIds] at i2
        rw [ht] at hsp
        cases hsp
        have h' := h
        unfold component at h'
        split at h'
        · rename_i o c ho hc
          obtain ⟨x, y, z, e1, e2, e3⟩ := flatIdsT_component hc a.sid ht i2 ho
          rw [Nat.zero_add] at e3
          obtain ⟨y', e4, e5⟩ := flatIds_len t c (.element a.sid i) hc
          rw [e3] at e4; cases e4
          rw [e1] at h
          rw [TAssignee.sid, component_mid ho hc e2 e5 h, e3]
        · cases h'
      · cases h
    · cases ht

/-! ### Assigned variables of ZIR -/

theorem setAll_other {σ : ZState p} {xs : List ZId} {vs : List (ZVal p)} {y : ZId} (h : y ∉ xs) : (σ.setAll xs vs).env y = σ.env y := by
  induction xs generalizing σ vs with
  | nil => rfl
  | cons x xs ih =>
    cases vs with
    | nil => rfl
    | cons v vs =>
      simp only [ZState.setAll]
      rw [ih (fun h' => h (List.mem_cons_of_mem _ h'))]
      simp only [ZState.set]
      rw [if_neg]
      intro e; subst e; exact h List.mem_cons_self

theorem setAll_pairs {σ : ZState p} : ∀ {l : List (ZId × ZVal p)}, (l.map Prod.fst).Nodup → ∀ q ∈ l,
    (σ.setAll (l.map Prod.fst) (l.map Prod.snd)).env q.1 = some q.2 := by
  intro l
  induction l generalizing σ with
  | nil => simp
  | cons r l ih =>
    intro hn q hq
    simp only [List.map_cons, List.nodup_cons] at hn
    simp only [List.map_cons, ZState.setAll]
    rcases List.mem_cons.1 hq with rfl | hq
    · rw [setAll_other hn.1]
      simp [ZState.set]
    · exact ih hn.2 q hq

variable {nm : SId → ZId}

/-- Assigning all components of the assigned part. -/
theorem Rel.assign (hnm : Function.Injective nm) {σ : TState p} {τ : ZState p} (hr : Rel nm σ.env τ.env) {a : TAssignee (ZMod p)} {t : CType}
    {v u : AVal (ZMod p)} (hl : a.Literal) (hd : t.Distinct) (ht : HasType t v) (hs : setA σ.env a v = .ok u) :
    Rel nm (σ.set a.root u).env (τ.setAll ((leaves v a.sid).map fun q => nm q.1) (prims v)).env := by
  have hnd := leaves_nodup t v a.sid hd ht
  have e1 : ((leaves v a.sid).map fun q => nm q.1) = ((leaves v a.sid).map fun q => (nm q.1, q.2)).map Prod.fst := by simp
  have e2 : prims v = ((leaves v a.sid).map fun q => (nm q.1, q.2)).map Prod.snd := by rw [← leaves_snd v a.sid]; simp
  have hnd' : (((leaves v a.sid).map fun q => (nm q.1, q.2)).map Prod.fst).Nodup := by
    rw [← e1, show ((leaves v a.sid).map fun q => nm q.1) = ((leaves v a.sid).map Prod.fst).map nm by simp]
    exact hnd.map hnm
  have other : ∀ s, ¬ Under a.sid s → (τ.setAll ((leaves v a.sid).map fun q => nm q.1) (prims v)).env (nm s) = τ.env (nm s) := by
    intro s hs
    apply setAll_other
    intro hm
    obtain ⟨q, hq, he⟩ := List.mem_map.1 hm
    have := leaves_under _ _ _ hq
    rw [hnm he] at this
    exact hs this
  intro x w hx q hq
  simp only [TState.set] at hx
  split at hx
  · rename_i hxa
    cases hx
    subst hxa
    rcases setA_leaves hl hs q hq with h1 | ⟨R, hR, h1, h2⟩
    · rw [e1, e2]
      exact setAll_pairs hnd' (nm q.1, q.2) (List.mem_map.2 ⟨q, h1, rfl⟩)
    · rw [other _ h2]
      exact hr _ R hR q h1
  · rename_i hxa
    rw [other _ ?_]
    · exact hr x w hx q hq
    · intro hu
      have h1 := hu.root
      have h2 := (leaves_under _ _ _ hq).root
      rw [TAssignee.sid_root] at h1
      simp only [SId.root] at h2
      exact hxa (h2.symm.trans h1)

end Zok.Typed
