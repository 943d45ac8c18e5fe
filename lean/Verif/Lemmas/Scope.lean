import Verif.Spec.Scope
import Verif.Lemmas.FlatMono
import Verif.Lemmas.Params

/-
The flattener only emits well-scoped statements: every variable is computed once, before it is read.
-/

set_option linter.unusedSectionVars false
set_option linter.unusedVariables false

namespace Zok
variable {p : ℕ} {Z : Type} [Fact p.Prime] {A D D' E E' : Set Variable}

namespace FlatExpr

theorem In.mono {e : FlatExpr (ZMod p)} (h : e.In D) (hs : D ⊆ D') : e.In D' := by
  induction e with
  | value => trivial
  | ident v => exact hs h
  | add l r ihl ihr => exact ⟨ihl h.1, ihr h.2⟩
  | sub l r ihl ihr => exact ⟨ihl h.1, ihr h.2⟩
  | mul l r ihl ihr => exact ⟨ihl h.1, ihr h.2⟩

end FlatExpr

/-- All expressions have their variables in `D`. -/
def Ins (D : Set Variable) (es : List (FlatExpr (ZMod p))) : Prop := ∀ e ∈ es, FlatExpr.In D e

theorem Ins.mono {es : List (FlatExpr (ZMod p))} (h : Ins D es) (hs : D ⊆ D') : Ins D' es :=
  fun e he => (h e he).mono hs

theorem Ins.nil : Ins D ([] : List (FlatExpr (ZMod p))) := fun _ h => by cases h

theorem Ins.cons {e : FlatExpr (ZMod p)} {es : List (FlatExpr (ZMod p))} (h : e.In D) (hs : Ins D es) :
    Ins D (e :: es) := by
  intro f hf
  rcases List.mem_cons.1 hf with rfl | hf
  · exact h
  · exact hs f hf

theorem Ins.append {es fs : List (FlatExpr (ZMod p))} (h : Ins D es) (hs : Ins D fs) : Ins D (es ++ fs) := by
  intro f hf
  rcases List.mem_append.1 hf with hf | hf
  · exact h f hf
  · exact hs f hf

theorem Ins.sub {es fs : List (FlatExpr (ZMod p))} (h : Ins D es) (hs : fs ⊆ es) : Ins D fs := fun f hf => h f (hs hf)

theorem Ins.idents {vs : List Variable} (h : ∀ v ∈ vs, v ∈ D) : Ins D (vs.map (FlatExpr.ident (F := ZMod p))) := by
  intro f hf
  obtain ⟨v, hv, rfl⟩ := List.mem_map.1 hf
  exact h v hv

theorem Ins.zeros (n : ℕ) : Ins D (List.replicate n (FlatExpr.value (0 : ZMod p))) := by
  intro f hf
  rw [List.eq_of_mem_replicate hf]
  trivial

/-- The parts of the representation of an integer have their variables in `D`. -/
def InU (D : Set Variable) (u : FlatU p) : Prop :=
  (∀ f, u.field = some f → f.In D) ∧ ∀ bs, u.bits = some bs → Ins D bs

theorem InU.mono {u : FlatU p} (h : InU D u) (hs : D ⊆ D') : InU D' u :=
  ⟨fun f hf => (h.1 f hf).mono hs, fun bs hb => (h.2 bs hb).mono hs⟩

theorem InU.withField {f : FlatExpr (ZMod p)} (h : f.In D) : InU D (Flt.withField f) :=
  ⟨fun g hg => by cases hg; exact h, fun bs hb => by cases hb⟩

theorem InU.withBits {bs : List (FlatExpr (ZMod p))} (h : Ins D bs) : InU D (Flt.withBits bs) :=
  ⟨fun g hg => (by cases hg), fun bs hb => (by cases hb; exact h)⟩

theorem In.sumFold {es : List (FlatExpr (ZMod p))} (h : Ins D es) : (Flt.sumFold es).In D := by
  unfold Flt.sumFold
  have : ∀ (es : List (FlatExpr (ZMod p))) (a : FlatExpr (ZMod p)), Ins D es → a.In D → (es.foldl .add a).In D := by
    intro es
    induction es with
    | nil => intro a _ h; exact h
    | cons e es ih => intro a h1 h2; exact ih _ (h1.sub (by simp)) ⟨h2, h1 e (by simp)⟩
  exact this es _ h trivial

theorem In.flatSummands (l : List (ZMod p × FlatExpr (ZMod p))) (h : ∀ t ∈ l, t.2.In D) : (flatSummands l).In D := by
  induction hn : l.length using Nat.strong_induction_on generalizing l with
  | _ n ih =>
    subst hn
    rw [Zok.flatSummands.eq_def]
    split
    · trivial
    · rename_i k e
      exact ⟨trivial, h (k, e) (by simp)⟩
    · rename_i a b c
      refine ⟨ih _ ?_ _ (fun t ht => h t (List.mem_of_mem_take ht)) rfl,
        ih _ ?_ _ (fun t ht => h t (List.mem_of_mem_drop ht)) rfl⟩
      · simp; omega
      · simp; omega

theorem In.flatFromBits {bs : List (FlatExpr (ZMod p))} (h : Ins D bs) : (flatFromBits bs).In D := by
  unfold Zok.flatFromBits
  refine In.flatSummands _ ?_
  intro t ht
  unfold withPowers at ht
  obtain ⟨s, hs, rfl⟩ := List.mem_map.1 ht
  exact h _ (by
    have := List.mem_zipIdx hs
    rw [this.2.2]
    have h2 : bs.reverse[s.2 - 0]'(by have := this.2.1; omega) ∈ bs.reverse := List.getElem_mem _
    exact List.mem_reverse.1 h2)

theorem In.foldBits {w : ℕ} {bs : List (FlatExpr (ZMod p))} (h : Ins D bs) : (Flt.foldBits w bs).In D := by
  unfold Flt.foldBits
  have : ∀ (es : List (FlatExpr (ZMod p) × ℕ)) (a : FlatExpr (ZMod p)), (∀ t ∈ es, t.1.In D) → a.In D →
      (es.foldl (fun acc t => .add acc (.mul (.value (2 ^ (w - t.2 - 1))) t.1)) a).In D := by
    intro es
    induction es with
    | nil => intro a _ h; exact h
    | cons e es ih =>
      intro a h1 h2
      exact ih _ (fun t ht => h1 t (by simp [ht])) ⟨h2, trivial, h1 e (by simp)⟩
  refine this _ _ ?_ trivial
  intro t ht
  refine h _ ?_
  have := List.mem_zipIdx ht
  rw [this.2.2]
  exact List.getElem_mem _

/-! ### Scopes -/

theorem Scs.append {a b : List (FlatStmt (ZMod p) Z)} {D D' D'' : Set Variable} (h1 : Scs D a D') (h2 : Scs D' b D'') :
    Scs D (a ++ b) D'' := by
  induction a generalizing D with
  | nil => cases h1; exact h2
  | cons s ss ih => cases h1 with
    | cons h3 h4 => exact .cons h3 (ih h4)

theorem Scs.snoc {a : List (FlatStmt (ZMod p) Z)} {s} {D D' D'' : Set Variable} (h1 : Scs D a D') (h2 : Sc D' s D'') :
    Scs D (a ++ [s]) D'' := h1.append (.cons h2 .nil)

/-- The state is well-scoped: the statements are, `D` is the set of the variables they have computed, symbols not
allocated yet are not in `D`, and the variables of the layout and of the cache are in `D`. -/
structure W (A : Set Variable) (st : FlState p Z) (D : Set Variable) : Prop where
  sc : Scs A st.out D
  lim : ∀ k, st.next ≤ k → Variable.new k ∉ D
  layout : ∀ x v, st.layout x = some v → v ∈ D
  cache : ∀ f c, st.cache f = some c → Ins D c.bits

/-- The new variables are symbols that were not allocated before `n`. -/
def Frame (n : ℕ) (D D' : Set Variable) : Prop := ∀ x ∈ D', x ∈ D ∨ ∃ k, n ≤ k ∧ x = Variable.new k

theorem Frame.refl {n : ℕ} : Frame n D D := fun _ h => Or.inl h

theorem Frame.trans {n m : ℕ} {D D' D'' : Set Variable} (h1 : Frame n D D') (hn : n ≤ m) (h2 : Frame m D' D'') :
    Frame n D D'' := by
  intro x hx
  rcases h2 x hx with h | ⟨k, hk, rfl⟩
  · exact h1 x h
  · exact Or.inr ⟨k, le_trans hn hk, rfl⟩

/-- The action keeps the state well-scoped; it is run when at least the variables of `E` have been computed. -/
def Scp (A E : Set Variable) {α : Type} (m : FlatM p Z α) (P : α → Set Variable → Prop) : Prop :=
  ∀ st a st' D, m st = some (a, st') → W A st D → E ⊆ D →
    ∃ D', W A st' D' ∧ D ⊆ D' ∧ Frame st.next D D' ∧ st.next ≤ st'.next ∧ P a D'

namespace Scp
variable {α β : Type} {m : FlatM p Z α} {P Q : α → Set Variable → Prop} {R : β → Set Variable → Prop}
  {f : α → FlatM p Z β}

theorem bind (h : Scp A E m P) (hf : ∀ a E', E ⊆ E' → P a E' → Scp A E' (f a) R) : Scp A E (m >>= f) R := by
  intro st b st' D hm hW hE
  obtain ⟨a, st1, h1, h2⟩ := FlatM.bind_some hm
  obtain ⟨D1, w1, s1, f1, n1, p1⟩ := h st a st1 D h1 hW hE
  obtain ⟨D2, w2, s2, f2, n2, p2⟩ := hf a D1 (hE.trans s1) p1 st1 b st' D1 h2 w1 (le_refl _)
  exact ⟨D2, w2, s1.trans s2, f1.trans n1 f2, n1.trans n2, p2⟩

theorem mono (h : Scp A E m P) (hE : E ⊆ E') : Scp A E' m P := fun st a st' D hm hW hD =>
  h st a st' D hm hW (hE.trans hD)

theorem post (h : Scp A E m P) (hP : ∀ a E', E ⊆ E' → P a E' → Q a E') : Scp A E m Q := by
  intro st a st' D hm hW hE
  obtain ⟨D1, w1, s1, f1, n1, p1⟩ := h st a st' D hm hW hE
  exact ⟨D1, w1, s1, f1, n1, hP a D1 (hE.trans s1) p1⟩

theorem pure {a : α} (h : ∀ E', E ⊆ E' → P a E') : Scp A E (Pure.pure a : FlatM p Z α) P := by
  intro st b st' D hm hW hE
  have : some (a, st) = some (b, st') := hm
  cases this
  exact ⟨D, hW, le_refl _, .refl, le_rfl, h D hE⟩

theorem panic : Scp A E (Flt.panic : FlatM p Z α) P := by intro st b st' D hm; cases hm

theorem assert (b : Bool) : Scp A E (Flt.assert b : FlatM p Z _) (fun _ _ => True) := by
  unfold Flt.assert; split
  · exact pure fun _ _ => trivial
  · exact panic

theorem unwrap (o : Option α) : Scp A E (Flt.unwrap o : FlatM p Z _) (fun a _ => o = some a) := by
  cases o
  · exact panic
  · exact pure fun _ _ => rfl

theorem ite {b : Prop} [Decidable b] {m1 m2 : FlatM p Z α} (h1 : Scp A E m1 P) (h2 : Scp A E m2 P) :
    Scp A E (if b then m1 else m2) P := by
  split
  · exact h1
  · exact h2

theorem raise (b : Bool) : Scp A E (Flt.raise b : FlatM p Z _) (fun _ _ => True) := by
  intro st a st' D hm hW hE; cases hm
  exact ⟨D, ⟨hW.sc, hW.lim, hW.layout, hW.cache⟩, le_refl _, .refl, le_rfl, trivial⟩

theorem lookup (x : ZId) : Scp A E (Flt.lookup x : FlatM p Z Variable) (fun v E' => v ∈ E') := by
  intro st b st' D hm hW hE
  unfold Flt.lookup at hm
  split at hm
  · rename_i hx; cases hm; exact ⟨D, hW, le_refl _, .refl, le_rfl, hW.layout x _ hx⟩
  · cases hm

theorem getCache (e : FlatExpr (ZMod p)) : Scp A E (Flt.getCache e : FlatM p Z _)
    (fun r E' => ∀ c, r = some c → Ins E' c.bits) := by
  intro st b st' D hm hW hE; cases hm
  exact ⟨D, hW, le_refl _, .refl, le_rfl, fun c h => hW.cache e c h⟩

theorem setCache (e : FlatExpr (ZMod p)) (c : CacheEntry p) (h : Ins E c.bits) :
    Scp A E (Flt.setCache e c : FlatM p Z _) (fun _ _ => True) := by
  intro st b st' D hm hW hE; cases hm
  refine ⟨D, ⟨hW.sc, hW.lim, hW.layout, ?_⟩, le_refl _, .refl, le_rfl, trivial⟩
  intro f c' hf
  simp only at hf
  split at hf
  · cases hf; exact h.mono hE
  · exact hW.cache f c' hf

/-- Statements that compute nothing. -/
theorem emitAll (ss : List (FlatStmt (ZMod p) Z)) (h : ∀ s ∈ ss, ∀ D, E ⊆ D → Sc D s D) :
    Scp A E (Flt.emitAll ss) (fun _ _ => True) := by
  intro st b st' D hm hW hE; cases hm
  refine ⟨D, ⟨hW.sc.append ?_, hW.lim, hW.layout, hW.cache⟩, le_refl _, .refl, le_rfl, trivial⟩
  induction ss with
  | nil => exact .nil
  | cons s ss ih => exact .cons (h s (by simp) D hE) (ih fun s hs => h s (by simp [hs]))

theorem emit (s : FlatStmt (ZMod p) Z) (h : ∀ D, E ⊆ D → Sc D s D) : Scp A E (Flt.emit s) (fun _ _ => True) := by
  intro st b st' D hm hW hE; cases hm
  exact ⟨D, ⟨hW.sc.snoc (h D hE), hW.lim, hW.layout, hW.cache⟩, le_refl _, .refl, le_rfl, trivial⟩

/-- A condition. -/
theorem cond {l q : FlatExpr (ZMod p)} {e : RuntimeError} (hl : l.In E) (hq : q.In E)
    (he : ∀ v, l = .ident v → e ≠ .shaXor) : Scp A E (Flt.emit (.condition l q e) : FlatM p Z _) (fun _ _ => True) :=
  emit _ fun D hD => .condition (hl.mono hD) (hq.mono hD) he

end Scp

/-- One more statement. -/
theorem W.step {st : FlState p Z} {s : FlatStmt (ZMod p) Z} {n : ℕ} (hW : W A st D) (hs : Sc D s D') (hD : D ⊆ D')
    (hlim : ∀ k, n ≤ k → Variable.new k ∉ D') : W A { st with next := n, out := st.out ++ [s] } D' :=
  ⟨hW.sc.snoc hs, hlim, fun x v h => hD (hW.layout x v h), fun f c h => (hW.cache f c h).mono hD⟩

theorem lim_insert {n : ℕ} (h : ∀ k, n ≤ k → Variable.new k ∉ D) : ∀ k, n + 1 ≤ k →
    Variable.new k ∉ (insert (Variable.new n) D : Set Variable) := by
  rintro k hk (h1 | h1)
  · have := new_inj h1; omega
  · exact h k (by omega) h1

theorem frame_insert (n : ℕ) : Frame n D (insert (Variable.new n) D) := by
  rintro x (rfl | h)
  · exact Or.inr ⟨n, le_rfl, rfl⟩
  · exact Or.inl h

/-- The symbols from `n` to `n + k`. -/
def syms (n k : ℕ) : List Variable := (List.range k).map (fun i => Variable.new (n + i))

theorem syms_nodup (n k : ℕ) : (syms n k).Nodup := by
  unfold syms
  refine List.Nodup.map ?_ List.nodup_range
  intro a b h
  have := new_inj h
  omega

theorem mem_syms {n k : ℕ} {x : Variable} : x ∈ syms n k ↔ ∃ i, n ≤ i ∧ i < n + k ∧ x = Variable.new i := by
  unfold syms
  constructor
  · intro h
    obtain ⟨i, hi, rfl⟩ := List.mem_map.1 h
    rw [List.mem_range] at hi
    exact ⟨n + i, by omega, by omega, rfl⟩
  · rintro ⟨i, h1, h2, rfl⟩
    refine List.mem_map.2 ⟨i - n, by rw [List.mem_range]; omega, ?_⟩
    rw [show n + (i - n) = i by omega]

theorem syms_succ (n k : ℕ) : syms n (k + 1) = Variable.new n :: syms (n + 1) k := by
  unfold syms
  rw [List.range_succ_eq_map, List.map_cons, List.map_map]
  simp only [Nat.add_zero, List.cons.injEq, true_and]
  refine List.map_congr_left fun i _ => ?_
  simp only [Function.comp]
  rw [show n + (i + 1) = n + 1 + i by omega]

theorem useSyms_eq (k : ℕ) (st : FlState p Z) : Flt.useSyms k st = some (syms st.next k, { st with next := st.next + k }) := by
  induction k generalizing st with
  | zero => rfl
  | succ k ih =>
    show (Flt.useSym >>= fun v => Flt.useSyms k >>= fun vs => Pure.pure (v :: vs) : FlatM p Z _) st = _
    have : (Flt.useSyms k { st with next := st.next + 1 } : Option _) = _ := ih { st with next := st.next + 1 }
    show (Flt.useSyms k { st with next := st.next + 1 }).bind _ = _
    rw [this, syms_succ]
    simp only [Option.bind_some]
    rw [show st.next + (k + 1) = st.next + 1 + k by omega]
    rfl

theorem frame_syms (n k : ℕ) : Frame n D (D ∪ {x | x ∈ syms n k}) := by
  rintro x (h | h)
  · exact Or.inl h
  · obtain ⟨i, h1, _, rfl⟩ := mem_syms.1 h
    exact Or.inr ⟨i, h1, rfl⟩

theorem lim_syms {n k : ℕ} (h : ∀ i, n ≤ i → Variable.new i ∉ D) : ∀ i, n + k ≤ i →
    Variable.new i ∉ D ∪ {x | x ∈ syms n k} := by
  rintro i hi (h1 | h1)
  · exact h i (by omega) h1
  · obtain ⟨j, _, h2, h3⟩ := mem_syms.1 h1
    have := new_inj h3
    omega

namespace Scp
variable {α β : Type} {P : α → Set Variable → Prop}

/-- A new symbol that is defined at once. -/
theorem symDef {e : FlatExpr (ZMod p)} {k : Variable → FlatM p Z α} (he : e.In E)
    (hk : ∀ v E', E ⊆ E' → v ∈ E' → Scp A E' (k v) P) :
    Scp A E (do let r ← Flt.useSym; Flt.emit (.definition r e); k r) P := by
  intro st a st' D hm hW hE
  obtain ⟨r, st1, h1, h2⟩ := FlatM.bind_some hm
  obtain ⟨_, st2, h3, h4⟩ := FlatM.bind_some h2
  cases h1; cases h3
  have hn := hW.lim st.next le_rfl
  obtain ⟨D2, w2, s2, f2, n2, p2⟩ := hk (Variable.new st.next) (insert (Variable.new st.next) D)
    (hE.trans (Set.subset_insert _ _)) (Set.mem_insert _ _) _ _ _ _ h4
    (hW.step (.definition (he.mono hE) hn) (Set.subset_insert _ _) (lim_insert hW.lim)) (le_refl _)
  exact ⟨D2, w2, (Set.subset_insert _ _).trans s2, (frame_insert _).trans (Nat.le_succ _) f2, by
    have : st.next + 1 ≤ st'.next := n2
    omega, p2⟩

/-- New symbols that are the outputs of a directive. -/
theorem symsDir {n : ℕ} {s : Solver Z} {i : List (FlatExpr (ZMod p))} {k : List Variable → FlatM p Z α} (hi : Ins E i)
    (hk : ∀ vs E', E ⊆ E' → vs.length = n → (∀ v ∈ vs, v ∈ E') → Scp A E' (k vs) P) :
    Scp A E (do let vs ← Flt.useSyms n; Flt.emit (.directive vs s i); k vs) P := by
  intro st a st' D hm hW hE
  obtain ⟨r, st1, h1, h2⟩ := FlatM.bind_some hm
  obtain ⟨_, st2, h3, h4⟩ := FlatM.bind_some h2
  rw [useSyms_eq] at h1
  cases h1; cases h3
  obtain ⟨D2, w2, s2, f2, n2, p2⟩ := hk (syms st.next n) (D ∪ {x | x ∈ syms st.next n})
    (hE.trans (Set.subset_union_left)) (by simp [syms]) (fun v hv => Or.inr hv) _ _ _ _ h4
    (hW.step (.directive (hi.mono hE) (syms_nodup _ _) fun x hx => by
      obtain ⟨i, h5, _, rfl⟩ := mem_syms.1 hx
      exact hW.lim i h5) (Set.subset_union_left) (lim_syms hW.lim)) (le_refl _)
  exact ⟨D2, w2, (Set.subset_union_left).trans s2, (frame_syms _ _).trans (Nat.le_add_right _ _) f2, by
    have : st.next + n ≤ st'.next := n2
    omega, p2⟩

theorem symDir1 {s : Solver Z} {i : List (FlatExpr (ZMod p))} {k : Variable → FlatM p Z α} (hi : Ins E i)
    (hk : ∀ v E', E ⊆ E' → v ∈ E' → Scp A E' (k v) P) :
    Scp A E (do let v ← Flt.useSym; Flt.emit (.directive [v] s i); k v) P := by
  have := symsDir (A := A) (n := 1) (s := s) (k := fun vs => match vs with | [v] => k v | _ => Flt.panic) (P := P) hi ?_
  · intro st a st' D hm
    exact this st a st' D hm
  · intro vs E' h1 h2 h3
    match vs, h2 with
    | [v], _ => exact hk v E' h1 (h3 v (by simp))

theorem symDir2 {s : Solver Z} {i : List (FlatExpr (ZMod p))} {k : Variable → Variable → FlatM p Z α} (hi : Ins E i)
    (hk : ∀ v w E', E ⊆ E' → v ∈ E' → w ∈ E' → Scp A E' (k v w) P) :
    Scp A E (do let v ← Flt.useSym; let w ← Flt.useSym; Flt.emit (.directive [v, w] s i); k v w) P := by
  have := symsDir (A := A) (n := 2) (s := s) (k := fun vs => match vs with | [v, w] => k v w | _ => Flt.panic)
    (P := P) hi ?_
  · intro st a st' D hm
    exact this st a st' D hm
  · intro vs E' h1 h2 h3
    match vs, h2 with
    | [v, w], _ => exact hk v w E' h1 (h3 v (by simp)) (h3 w (by simp))

/-- The majority gadget computes its second symbol by a condition. -/
theorem symMaj {s : Solver Z} {i : List (FlatExpr (ZMod p))} {q : FlatExpr (ZMod p)} {k : Variable → Variable → FlatM p Z α}
    (hi : Ins E i) (hq : q.In E) (hk : ∀ v w E', E ⊆ E' → v ∈ E' → w ∈ E' → Scp A E' (k v w) P) :
    Scp A E (do
      let v ← Flt.useSym
      let w ← Flt.useSym
      Flt.emit (.directive [v] s i)
      Flt.emit (.condition (.ident w) q .shaXor)
      k v w) P := by
  intro st a st' D hm hW hE
  obtain ⟨v, st1, h1, h2⟩ := FlatM.bind_some hm
  obtain ⟨w, st2, h3, h4⟩ := FlatM.bind_some h2
  obtain ⟨_, st3, h5, h6⟩ := FlatM.bind_some h4
  obtain ⟨_, st4, h7, h8⟩ := FlatM.bind_some h6
  cases h1; cases h3; cases h5; cases h7
  have hv := hW.lim st.next le_rfl
  have hw := hW.lim (st.next + 1) (Nat.le_succ _)
  have hne : Variable.new (st.next + 1) ≠ Variable.new st.next := fun h => by have := new_inj h; omega
  set D1 : Set Variable := D ∪ {x | x ∈ [Variable.new st.next]} with hD1
  have w1 : W A { st with next := st.next + 2, out := st.out ++ [.directive [Variable.new st.next] s i] } D1 := by
    refine hW.step (.directive (hi.mono hE) (by simp) (by simpa using hv)) Set.subset_union_left ?_
    rintro k hk (h | h)
    · exact hW.lim k (by omega) h
    · have := new_inj (by simpa using h); omega
  have w2 : W A { st with next := st.next + 2, out := (st.out ++ [.directive [Variable.new st.next] s i]) ++
      [.condition (.ident (Variable.new (st.next + 1))) q .shaXor] } (insert (Variable.new (st.next + 1)) D1) := by
    refine w1.step (n := st.next + 2) (.computed (hq.mono (hE.trans Set.subset_union_left)) ?_) (Set.subset_insert _ _) ?_
    · rintro (h | h)
      · exact hw h
      · exact hne (by simpa using h)
    · exact lim_insert (n := st.next + 1) (by
        rintro k hk (h | h)
        · exact hW.lim k (by omega) h
        · have := new_inj (by simpa using h); omega)
  obtain ⟨D2, w3, s2, f2, n2, p2⟩ := hk (Variable.new st.next) (Variable.new (st.next + 1)) _
    (hE.trans (Set.subset_union_left.trans (Set.subset_insert _ D1))) (Or.inr (Or.inr (by simp)))
    (Set.mem_insert _ _) _ _ _ _ h8 w2 (le_refl _)
  refine ⟨D2, w3, (Set.subset_union_left.trans (Set.subset_insert _ D1)).trans s2, ?_, ?_, p2⟩
  · refine Frame.trans (m := st.next + 2) ?_ (by omega) f2
    rintro x (rfl | h | h)
    · exact Or.inr ⟨_, by omega, rfl⟩
    · exact Or.inl h
    · exact Or.inr ⟨st.next, le_rfl, by simpa using h⟩
  · have : st.next + 2 ≤ st'.next := n2
    omega

theorem define {e : FlatExpr (ZMod p)} (he : e.In E) :
    Scp A E (Flt.define e : FlatM p Z _) (fun v E' => v ∈ E') := by
  unfold Flt.define
  split
  · exact pure fun E' hE => hE he
  · exact symDef he fun v E' _ hv => pure fun _ h => h hv

theorem newDef {e : FlatExpr (ZMod p)} (he : e.In E) :
    Scp A E (Flt.newDef e : FlatM p Z _) (fun v E' => v ∈ E') := by
  unfold Flt.newDef
  exact symDef he fun v E' _ hv => pure fun _ h => h hv

theorem linearise {e : FlatExpr (ZMod p)} (he : e.In E) :
    Scp A E (Flt.linearise e : FlatM p Z _) (fun f E' => f.In E') := by
  unfold Flt.linearise
  exact ite (pure fun E' hE => he.mono hE) (symDef he fun v E' _ hv => pure fun _ h => h hv)

theorem defineAll {es : List (FlatExpr (ZMod p))} (he : Ins E es) :
    Scp A E (Flt.defineAll es : FlatM p Z _) (fun vs E' => ∀ v ∈ vs, v ∈ E') := by
  induction es generalizing E with
  | nil => exact pure fun _ _ v h => by cases h
  | cons e es ih =>
    refine bind (define (he e (by simp))) fun v E1 h1 hv => bind (ih ((he.sub (by simp)).mono h1)) fun vs E2 h2 hvs =>
      pure fun E3 h3 x hx => ?_
    rcases List.mem_cons.1 hx with rfl | hx
    · exact h3 (h2 hv)
    · exact h3 (hvs x hx)

end Scp

end Zok
