import Verif.Lemmas.FlattenTypesFun
import Verif.Spec.ZirType

/-! The flattened expressions are well-typed, and have the types of the components. -/

namespace Zok.Typed
open Abi
variable {p : ℕ} [Fact p.Prime] {Z : Type} {nm : SId → ZId}

/-- The type of a ZIR expression. -/
def zeTy {F : Type} : ZExpr F → ZType
  | .field _ => .field
  | .bool _ => .bool
  | .uint e => .uint e.width

/-- Well-typed expressions of the given types. -/
def Tys (l : List (ZExpr (ZMod p))) (ts : List ZType) : Prop := List.Forall₂ (fun z t => zeTy z = t ∧ TyZ z) l ts

theorem Tys.append {a b : List (ZExpr (ZMod p))} {x y : List ZType} (h1 : Tys a x) (h2 : Tys b y) : Tys (a ++ b) (x ++ y) := List.rel_append h1 h2
theorem Tys.len {a : List (ZExpr (ZMod p))} {x : List ZType} (h : Tys a x) : a.length = x.length := List.Forall₂.length_eq h
theorem Tys.take {a : List (ZExpr (ZMod p))} {x : List ZType} (n : ℕ) (h : Tys a x) : Tys (a.take n) (x.take n) := List.forall₂_take n h
theorem Tys.drop {a : List (ZExpr (ZMod p))} {x : List ZType} (n : ℕ) (h : Tys a x) : Tys (a.drop n) (x.drop n) := List.forall₂_drop n h
theorem Tys.slice {l l' : List (ZExpr (ZMod p))} {ts : List ZType} {a b : ℕ} (h : Tys l ts) (hs : Abi.slice l a b = some l') : Tys l' ((ts.take b).drop a) := by
  unfold Abi.slice at hs
  split at hs
  · cases hs; exact (h.take b).drop a
  · cases hs
theorem tys_one {z : ZExpr (ZMod p)} {t : ZType} (h1 : zeTy z = t) (h2 : TyZ z) : Tys [z] [t] := .cons ⟨h1, h2⟩ .nil
theorem Tys.get {l : List (ZExpr (ZMod p))} {ts : List ZType} (h : Tys l ts) {j : ℕ} {z : ZExpr (ZMod p)} (hz : l[j]? = some z) :
    TyZ z ∧ ts[j]? = some (zeTy z) := by
  unfold Tys at h
  induction h generalizing j with
  | nil => simp at hz
  | cons h1 _ ih =>
    cases j with
    | zero => simp at hz; subst hz; exact ⟨h1.2, by simp [h1.1]⟩
    | succ j => simpa using ih (by simpa using hz)
theorem Tys.mem {l : List (ZExpr (ZMod p))} {ts : List ZType} (h : Tys l ts) : ∀ z ∈ l, TyZ z := by
  intro z hz
  obtain ⟨j, hj⟩ := List.getElem?_of_mem hz
  exact (h.get hj).1

theorem tys_field {l : List (ZExpr (ZMod p))} (h : Tys l [.field]) : ∃ e, l = [.field e] ∧ TyF e := by
  cases h with
  | cons h1 h2 =>
    cases h2
    rename_i z
    cases z <;> simp [zeTy] at h1
    exact ⟨_, rfl, h1⟩
theorem tys_bool {l : List (ZExpr (ZMod p))} (h : Tys l [.bool]) : ∃ e, l = [.bool e] ∧ TyB e := by
  cases h with
  | cons h1 h2 =>
    cases h2
    rename_i z
    cases z <;> simp [zeTy] at h1
    exact ⟨_, rfl, h1⟩
theorem tys_uint {l : List (ZExpr (ZMod p))} {w : ℕ} (h : Tys l [.uint w]) : ∃ e, l = [.uint e] ∧ TyU e ∧ e.width = w := by
  cases h with
  | cons h1 h2 =>
    cases h2
    rename_i z
    cases z <;> simp [zeTy] at h1
    exact ⟨_, rfl, h1.2, h1.1⟩

theorem popF_tys {l : List (ZExpr (ZMod p))} {a : FExpr (ZMod p)} (h : Tys l [.field]) (hp : popF l = some a) : TyF a := by
  obtain ⟨e, rfl, he⟩ := tys_field h
  simp [popF] at hp; subst hp; exact he
theorem popB_tys {l : List (ZExpr (ZMod p))} {a : BExpr (ZMod p)} (h : Tys l [.bool]) (hp : popB l = some a) : TyB a := by
  obtain ⟨e, rfl, he⟩ := tys_bool h
  simp [popB] at hp; subst hp; exact he
theorem popU_tys {l : List (ZExpr (ZMod p))} {w : ℕ} {a : UExpr (ZMod p)} (h : Tys l [.uint w]) (hp : popU l = some a) : TyU a ∧ a.width = w := by
  obtain ⟨e, rfl, he⟩ := tys_uint h
  simp [popU] at hp; subst hp; exact he

/-! ### Types -/

theorem UW.bits_le (w : UW) : w.bits ≤ 64 := by cases w <;> simp [UW.bits]

mutual
theorem primTys_le : ∀ (t : CType) (w : ℕ), .uint w ∈ primTys t → w ≤ 64
  | .int, w, h => by simp [primTys] at h
  | .field, w, h => by simp [primTys] at h
  | .bool, w, h => by simp [primTys] at h
  | .uint w', w, h => by simp [primTys] at h; subst h; exact UW.bits_le w'
  | .array n t, w, h => by
    have ih := primTys_le t w
    simp only [primTys, List.mem_flatten] at h
    obtain ⟨l, hl, hw⟩ := h
    rw [List.eq_of_mem_replicate hl] at hw
    exact ih hw
  | .struct ms, w, h => primTysM_le ms w (by simpa [primTys] using h)
  | .tuple ts, w, h => primTysL_le ts w (by simpa [primTys] using h)
theorem primTysL_le : ∀ (ts : List CType) (w : ℕ), .uint w ∈ primTysL ts → w ≤ 64
  | [], w, h => by simp [primTysL] at h
  | t :: ts, w, h => by
    have i1 := primTys_le t w
    have i2 := primTysL_le ts w
    simp only [primTysL, List.mem_append] at h
    rcases h with h | h
    · exact i1 h
    · exact i2 h
theorem primTysM_le : ∀ (ts : List (Str × CType)) (w : ℕ), .uint w ∈ primTysM ts → w ≤ 64
  | [], w, h => by simp [primTysM] at h
  | (k, t) :: ts, w, h => by
    have i1 := primTys_le t w
    have i2 := primTysM_le ts w
    simp only [primTysM, List.mem_append] at h
    rcases h with h | h
    · exact i1 h
    · exact i2 h
end

theorem primTys_len {t : CType} {c : ℕ} (h : primCount t = some c) : (primTys t).length = c := by
  obtain ⟨l, h1, h2⟩ := flatIds_len t c (.basic 0) h
  rw [← flatIds_tys _ _ _ h1, List.length_map, h2]

theorem primTysL_len : ∀ {ts : List CType} {c : ℕ}, primCountL ts = some c → (primTysL ts).length = c
  | [], c, h => by simp [primCountL] at h; subst h; rfl
  | t :: ts, c, h => by
    simp only [primCountL] at h
    split at h
    · rename_i a b h1 h2
      cases h
      simp [primTysL, primTys_len h1, primTysL_len h2]
    · cases h

theorem primTysM_eq : ∀ (ms : List (Str × CType)), primTysM ms = primTysL (ms.map Prod.snd)
  | [] => rfl
  | (k, t) :: ms => by simp [primTysM, primTysL, primTysM_eq ms]

theorem primTysL_append : ∀ (a b : List CType), primTysL (a ++ b) = primTysL a ++ primTysL b
  | [], b => rfl
  | t :: a, b => by simp [primTysL, primTysL_append a b]

theorem memberSplit_ty : ∀ {ms : List (Str × CType)} {m : Str} {pre : List CType} {t : CType}, memberSplit m ms = some (pre, t) →
    (∃ us, ms.map Prod.snd = pre ++ t :: us) ∧ ms.lookup m = some t
  | [], m, pre, t, h => by simp [memberSplit] at h
  | (k, t0) :: ms, m, pre, t, h => by
    simp only [memberSplit] at h
    split at h
    · rename_i hk
      cases h
      exact ⟨⟨ms.map Prod.snd, rfl⟩, by simp [List.lookup, hk]⟩
    · rename_i hk
      rw [Option.map_eq_some_iff] at h
      obtain ⟨⟨pre', t'⟩, h5, h6⟩ := h
      cases h6
      obtain ⟨⟨us, i1⟩, i2⟩ := memberSplit_ty h5
      refine ⟨⟨us, by simp [i1]⟩, ?_⟩
      have hne : (m == k) = false := by simpa using fun e : m = k => hk e.symm
      simp only [List.lookup, hne]
      exact i2

theorem replicate_slice {α : Type _} (ts : List α) (n k : ℕ) (h : (k + 1) * ts.length ≤ n * ts.length) :
    (((List.replicate n ts).flatten.take ((k + 1) * ts.length)).drop (k * ts.length)) = ts := by
  rcases Nat.eq_zero_or_pos ts.length with h0 | h0
  · have := List.length_eq_zero_iff.1 h0
    subst this; simp
  · have hk : k + 1 ≤ n := Nat.le_of_mul_le_mul_right h h0
    obtain ⟨d, rfl⟩ := Nat.exists_eq_add_of_le hk
    rw [List.replicate_add, List.flatten_append]
    rw [List.take_append_of_le_length (by simp), List.take_of_length_le (by simp), List.replicate_add, List.flatten_append, List.drop_append,
      List.drop_of_length_le (by simp)]
    simp

theorem replicate_slice2 {α : Type _} (ts : List α) (n a b : ℕ) (hab : a ≤ b) (h : b * ts.length ≤ n * ts.length) :
    (((List.replicate n ts).flatten.take (b * ts.length)).drop (a * ts.length)) = (List.replicate (b - a) ts).flatten := by
  rcases Nat.eq_zero_or_pos ts.length with h0 | h0
  · have := List.length_eq_zero_iff.1 h0
    subst this; simp
  · have hk : b ≤ n := Nat.le_of_mul_le_mul_right h h0
    obtain ⟨d, rfl⟩ := Nat.exists_eq_add_of_le hk
    obtain ⟨c, rfl⟩ := Nat.exists_eq_add_of_le hab
    rw [List.replicate_add, List.flatten_append]
    rw [List.take_append_of_le_length (by simp), List.take_of_length_le (by simp), List.replicate_add, List.flatten_append, List.drop_append,
      List.drop_of_length_le (by simp)]
    simp

/-! ### The pieces of `flat` -/

theorem condZs_tys {c : BExpr (ZMod p)} (hc : TyB c) : ∀ {as bs zs : List (ZExpr (ZMod p))} {ts : List ZType}, Tys as ts → Tys bs ts →
    condZs c as bs = some zs → Tys zs ts
  | [], [], zs, ts, h1, h2, h => by simp [condZs] at h; subst h; exact h1
  | [], _ :: _, _, _, _, _, h => by simp [condZs] at h
  | _ :: _, [], _, _, _, _, h => by simp [condZs] at h
  | a :: as, b :: bs, zs, ts, h1, h2, h => by
    cases h1 with
    | @cons _ t _ ts g1 g1' =>
    cases h2 with
    | cons g2 g2' =>
    simp only [condZs] at h
    split at h
    · rename_i e es he hes
      cases h
      refine .cons ?_ (condZs_tys hc g1' g2' hes)
      obtain ⟨rfl, k1⟩ := g1
      obtain ⟨k2, k3⟩ := g2
      cases a <;> cases b <;> simp [zeTy] at k2 <;> simp only [condZ, Option.some.injEq] at he <;> subst he
      · exact ⟨rfl, ⟨hc, k1, k3⟩⟩
      · exact ⟨rfl, ⟨hc, k1, k3⟩⟩
      · rename_i a b
        refine ⟨rfl, ?_, hc, k1, k3, rfl, k2⟩
        cases a
        exact k1.1
    · cases h

theorem eqZ_ty {a b : ZExpr (ZMod p)} {e : BExpr (ZMod p)} (h1 : TyZ a) (h2 : TyZ b) (ht : zeTy a = zeTy b) (h : eqZ a b = some e) : TyB e := by
  cases a <;> cases b <;> simp [zeTy] at ht <;> simp only [eqZ, Option.some.injEq] at h <;> subst h
  · exact ⟨h1, h2⟩
  · exact ⟨h1, h2⟩
  · exact ⟨h1, h2, ht⟩

theorem conj_one_ty {a b : ZExpr (ZMod p)} {e : BExpr (ZMod p)} {ts : List ZType} (h1 : Tys [a] ts) (h2 : Tys [b] ts) (h : eqZ a b = some e) : TyB e := by
  cases h1 with
  | cons g1 g1' => cases h2 with
    | cons g2 g2' => exact eqZ_ty g1.2 g2.2 (g1.1.trans g2.1.symm) h

theorem conjTree_ty : ∀ (fuel : ℕ) {as bs : List (ZExpr (ZMod p))} {e : BExpr (ZMod p)} {ts : List ZType}, Tys as ts → Tys bs ts →
    conjTree fuel as bs = some e → TyB e := by
  intro fuel
  induction fuel with
  | zero =>
    intro as bs e ts h1 h2 h
    unfold conjTree at h
    split at h
    · cases h; trivial
    · exact conj_one_ty h1 h2 h
    · cases h
    · simp at *
  | succ fuel ih =>
    intro as bs e ts h1 h2 h
    unfold conjTree at h
    split at h
    · cases h; trivial
    · exact conj_one_ty h1 h2 h
    · contradiction
    · rename_i f2 heq _ _
      obtain rfl : fuel = f2 := Nat.succ.inj heq
      split at h
      · split at h
        · rename_i a b ha hb
          cases h
          exact ⟨ih (h1.take _) (h2.take _) ha, ih (h1.drop _) (h2.drop _) hb⟩
        · cases h
      · cases h

theorem conjTree_some : ∀ (fuel : ℕ) {as bs : List (ZExpr (ZMod p))} {ts : List ZType}, Tys as ts → Tys bs ts → as.length ≤ fuel → ∃ e, conjTree fuel as bs = some e := by
  have one : ∀ {a b : ZExpr (ZMod p)} {ts : List ZType}, Tys [a] ts → Tys [b] ts → ∃ e, eqZ a b = some e := by
    intro a b ts h1 h2
    cases h1 with
    | cons g1 g1' => cases h2 with
      | cons g2 g2' =>
        have ht := g1.1.trans g2.1.symm
        cases a <;> cases b <;> simp [zeTy] at ht <;> exact ⟨_, rfl⟩
  intro fuel
  induction fuel with
  | zero =>
    intro as bs ts h1 h2 hl
    cases as with
    | nil => cases h1; cases h2; exact ⟨_, by unfold conjTree; rfl⟩
    | cons => simp at hl
  | succ fuel ih =>
    intro as bs ts h1 h2 hl
    have hlen : as.length = bs.length := by rw [h1.len, h2.len]
    match as, bs, hlen with
    | [], [], _ => exact ⟨_, by unfold conjTree; rfl⟩
    | [a], [b], _ => obtain ⟨e, he⟩ := one h1 h2; exact ⟨e, by unfold conjTree; exact he⟩
    | a :: a' :: as, b :: b' :: bs, hlen =>
      obtain ⟨a0, ha⟩ := ih (h1.take ((a :: a' :: as).length / 2)) (h2.take ((a :: a' :: as).length / 2)) (by
        rw [List.length_take]; simp only [List.length_cons] at hl ⊢; omega)
      obtain ⟨b0, hb⟩ := ih (h1.drop ((a :: a' :: as).length / 2)) (h2.drop ((a :: a' :: as).length / 2)) (by
        rw [List.length_drop]; simp only [List.length_cons] at hl ⊢; omega)
      refine ⟨.and a0 b0, ?_⟩
      simp only [conjTree, hlen] at ha hb ⊢
      simp only [ha, hb, if_true]

theorem chunks_tys {c : ℕ} (hc : c ≠ 0) {ts : List ZType} (hts : ts.length = c) : ∀ (n : ℕ) (l : List (ZExpr (ZMod p))) (fuel : ℕ),
    Tys l (List.replicate n ts).flatten → l.length ≤ fuel → (chunks c fuel l).length = n ∧ ∀ ch ∈ chunks c fuel l, Tys ch ts
  | 0, l, fuel, h, _ => by
    simp at h
    cases h
    cases fuel <;> simp [chunks]
  | n + 1, l, fuel, h, hf => by
    have hlen := h.len
    simp only [List.replicate_succ, List.flatten_cons, List.length_append, hts] at hlen
    cases fuel with
    | zero => omega
    | succ fuel =>
      cases l with
      | nil => simp at hlen; omega
      | cons z l =>
        have h1 := h.take c
        have h2 := h.drop c
        rw [List.replicate_succ, List.flatten_cons, List.take_append, List.take_of_length_le (le_of_eq hts), hts, Nat.sub_self, List.take_zero,
          List.append_nil] at h1
        rw [List.replicate_succ, List.flatten_cons, List.drop_append, List.drop_of_length_le (le_of_eq hts), hts, Nat.sub_self, List.drop_zero,
          List.nil_append] at h2
        obtain ⟨i1, i2⟩ := chunks_tys hc hts n ((z :: l).drop c) fuel h2 (by rw [List.length_drop]; omega)
        simp only [chunks, List.length_cons, i1, true_and]
        intro ch hm
        rcases List.mem_cons.1 hm with rfl | hm
        · exact h1
        · exact i2 ch hm

theorem columns_tys {c : ℕ} {ts : List ZType} (hts : ts.length = c) : ∀ (chs : List (List (ZExpr (ZMod p)))) (acc : List (List (ZExpr (ZMod p)))) (d : ℕ),
    (∀ ch ∈ chs, Tys ch ts) → acc.length = c → (∀ (j : ℕ) (col : List (ZExpr (ZMod p))), acc[j]? = some col → col.length = d ∧ ∀ z ∈ col, TyZ z ∧ ts[j]? = some (zeTy z)) →
      (chs.foldl (fun acc e => List.zipWith (fun a x => a ++ [x]) acc e) acc).length = c ∧
      ∀ (j : ℕ) (col : List (ZExpr (ZMod p))), (chs.foldl (fun acc e => List.zipWith (fun a x => a ++ [x]) acc e) acc)[j]? = some col →
        col.length = d + chs.length ∧ ∀ z ∈ col, TyZ z ∧ ts[j]? = some (zeTy z)
  | [], acc, d, _, h1, h2 => by simpa [h1] using h2
  | ch :: chs, acc, d, h, h1, h2 => by
    have hch := h ch List.mem_cons_self
    simp only [List.foldl_cons]
    obtain ⟨r1, r2⟩ := columns_tys hts chs (List.zipWith (fun a x => a ++ [x]) acc ch) (d + 1) (fun ch hm => h ch (List.mem_cons_of_mem _ hm))
      (by rw [List.length_zipWith, h1, hch.len, hts, Nat.min_self]) (by
        intro j col hj
        rw [List.getElem?_zipWith] at hj
        cases ha' : acc[j]? with
        | none => simp [ha'] at hj
        | some a => cases hz : ch[j]? with
          | none => simp [ha', hz] at hj
          | some z =>
            simp only [ha', hz] at hj
            cases hj
            obtain ⟨k1, k2⟩ := h2 j a ha'
            refine ⟨by simp [k1], ?_⟩
            intro y hy
            rcases List.mem_append.1 hy with hy | hy
            · exact k2 y hy
            · simp at hy; subst hy; exact hch.get hz)
    refine ⟨r1, fun j col hj => ?_⟩
    obtain ⟨k1, k2⟩ := r2 j col hj
    exact ⟨by rw [k1, List.length_cons]; omega, k2⟩

theorem tyFs_of {fs : List (FExpr (ZMod p))} (h : ∀ e ∈ fs, TyF e) : TyFs fs := by
  induction fs with
  | nil => trivial
  | cons e fs ih => exact ⟨h e List.mem_cons_self, ih fun e he => h e (List.mem_cons_of_mem _ he)⟩
theorem tyBs_of {fs : List (BExpr (ZMod p))} (h : ∀ e ∈ fs, TyB e) : TyBs fs := by
  induction fs with
  | nil => trivial
  | cons e fs ih => exact ⟨h e List.mem_cons_self, ih fun e he => h e (List.mem_cons_of_mem _ he)⟩
theorem tyUs_of {w : ℕ} {fs : List (UExpr (ZMod p))} (h : ∀ e ∈ fs, TyU e ∧ e.width = w) : TyUs w fs := by
  induction fs with
  | nil => trivial
  | cons e fs ih => exact ⟨h e List.mem_cons_self, ih fun e he => h e (List.mem_cons_of_mem _ he)⟩

theorem tyU_width {e : UExpr (ZMod p)} (h : TyU e) : e.width ≤ 64 := by cases e; exact h.1

theorem selectCol_ty {i : UExpr (ZMod p)} (hi : TyU i) (hw : i.width = 32) {τ : ZType} {col : List (ZExpr (ZMod p))} {z : ZExpr (ZMod p)}
    (h : ∀ z ∈ col, TyZ z ∧ zeTy z = τ) (hs : selectCol i col = some z) : zeTy z = τ ∧ TyZ z := by
  cases col with
  | nil => simp [selectCol] at hs
  | cons c cs =>
    have hc := h c List.mem_cons_self
    obtain ⟨hc1, rfl⟩ := hc
    cases c with
    | field e =>
      simp only [selectCol, Option.map_eq_some_iff] at hs
      obtain ⟨fs, h1, rfl⟩ := hs
      rw [mapM_asF h1] at h
      exact ⟨rfl, tyFs_of (fun e he => (h (.field e) (List.mem_map.2 ⟨e, he, rfl⟩)).1), hi, hw⟩
    | bool e =>
      simp only [selectCol, Option.map_eq_some_iff] at hs
      obtain ⟨fs, h1, rfl⟩ := hs
      rw [mapM_asB h1] at h
      exact ⟨rfl, tyBs_of (fun e he => (h (.bool e) (List.mem_map.2 ⟨e, he, rfl⟩)).1), hi, hw⟩
    | uint e =>
      simp only [selectCol, Option.map_eq_some_iff] at hs
      obtain ⟨fs, h1, rfl⟩ := hs
      rw [mapM_asU h1] at h
      refine ⟨rfl, tyU_width hc1, tyUs_of (fun e he => ?_), hi, hw⟩
      have := h (.uint e) (List.mem_map.2 ⟨e, he, rfl⟩)
      exact ⟨this.1, by simpa [zeTy] using this.2⟩

theorem selectCol_some {i : UExpr (ZMod p)} {τ : ZType} {col : List (ZExpr (ZMod p))} (hne : col ≠ []) (h : ∀ z ∈ col, zeTy z = τ) :
    ∃ z, selectCol i col = some z := by
  have hF : ∀ l : List (ZExpr (ZMod p)), (∀ z ∈ l, zeTy z = .field) → ∃ fs, l.mapM asF = some fs := by
    intro l
    induction l with
    | nil => intro _; exact ⟨[], by simp⟩
    | cons z l ih =>
      intro h
      obtain ⟨fs, hfs⟩ := ih fun z hz => h z (List.mem_cons_of_mem _ hz)
      have := h z List.mem_cons_self
      cases z <;> simp [zeTy] at this
      exact ⟨_ :: fs, by simp [asF, hfs]; rfl⟩
  have hB : ∀ l : List (ZExpr (ZMod p)), (∀ z ∈ l, zeTy z = .bool) → ∃ fs, l.mapM asB = some fs := by
    intro l
    induction l with
    | nil => intro _; exact ⟨[], by simp⟩
    | cons z l ih =>
      intro h
      obtain ⟨fs, hfs⟩ := ih fun z hz => h z (List.mem_cons_of_mem _ hz)
      have := h z List.mem_cons_self
      cases z <;> simp [zeTy] at this
      exact ⟨_ :: fs, by simp [asB, hfs]; rfl⟩
  have hU : ∀ (w : ℕ) (l : List (ZExpr (ZMod p))), (∀ z ∈ l, zeTy z = .uint w) → ∃ fs, l.mapM asU = some fs := by
    intro w l
    induction l with
    | nil => intro _; exact ⟨[], by simp⟩
    | cons z l ih =>
      intro h
      obtain ⟨fs, hfs⟩ := ih fun z hz => h z (List.mem_cons_of_mem _ hz)
      have := h z List.mem_cons_self
      cases z <;> simp [zeTy] at this
      exact ⟨_ :: fs, by simp [asU, hfs]; rfl⟩
  cases col with
  | nil => exact absurd rfl hne
  | cons c cs =>
    have hc := h c List.mem_cons_self
    subst hc
    cases c with
    | field e => obtain ⟨fs, hf⟩ := hF _ h; exact ⟨_, by simp only [selectCol, hf]; rfl⟩
    | bool e => obtain ⟨fs, hf⟩ := hB _ h; exact ⟨_, by simp only [selectCol, hf]; rfl⟩
    | uint e => obtain ⟨fs, hf⟩ := hU _ _ h; exact ⟨_, by simp only [selectCol, hf]; rfl⟩

theorem columns_typed {c n : ℕ} (hc : c ≠ 0) {ts : List ZType} (hts : ts.length = c) {arr : List (ZExpr (ZMod p))}
    (h : Tys arr (List.replicate n ts).flatten) : (columns c (chunks c arr.length arr)).length = c ∧
      ∀ (j : ℕ) (col : List (ZExpr (ZMod p))), (columns c (chunks c arr.length arr))[j]? = some col → col.length = n ∧ ∀ z ∈ col, TyZ z ∧ ts[j]? = some (zeTy z) := by
  obtain ⟨h1, h2⟩ := chunks_tys hc hts n arr arr.length h (le_refl _)
  have := columns_tys hts (chunks c arr.length arr) (List.replicate c []) 0 h2 (by simp) (by
    intro j col hj
    rw [List.getElem?_replicate] at hj
    split at hj
    · cases hj; simp
    · cases hj)
  rw [h1] at this
  simpa [columns] using this

theorem selectZs_tys {c n : ℕ} {ts : List ZType} (hts : ts.length = c) {arr zs : List (ZExpr (ZMod p))} {i : UExpr (ZMod p)} (hi : TyU i) (hw : i.width = 32)
    (ha : Tys arr (List.replicate n ts).flatten) (h : selectZs c arr i = some zs) : Tys zs ts := by
  unfold selectZs at h
  split at h
  · rename_i v _
    have hb : (v + 1) * c ≤ n * c := by
      unfold Abi.slice at h
      split at h
      · rename_i hb; rw [ha.len] at hb; simpa [hts] using hb
      · cases h
    have := ha.slice h
    rw [← hts] at this hb
    rwa [replicate_slice ts n v hb] at this
  · split at h
    · cases h
    · rename_i hc
      obtain ⟨h1, h2⟩ := columns_typed hc hts ha
      generalize columns c (chunks c arr.length arr) = cols at h h1 h2
      rw [← hts] at h1
      clear hts ha
      induction cols generalizing zs ts with
      | nil =>
        simp at h h1
        have : ts = [] := List.length_eq_zero_iff.1 h1.symm
        subst h this
        exact .nil
      | cons col cols ih =>
        simp only [List.mapM_cons, bind, Option.bind_eq_some_iff] at h
        obtain ⟨z, hz, zs', hzs, h⟩ := h
        cases h
        cases ts with
        | nil => simp at h1
        | cons t ts =>
          refine .cons ?_ (ih hzs (by simpa using h1) (fun j col hj => by simpa using h2 (j + 1) col (by simpa using hj)))
          refine selectCol_ty hi hw (fun y hy => ?_) hz
          have := (h2 0 col (by simp)).2 y hy
          exact ⟨this.1, by simpa using this.2.symm⟩

theorem selectZs_some {c n : ℕ} {ts : List ZType} (hts : ts.length = c) {arr : List (ZExpr (ZMod p))} {i : UExpr (ZMod p)}
    (ha : Tys arr (List.replicate n ts).flatten) (hn : match i.inner with | .value v => v < n | _ => 0 < n ∧ 0 < c) : ∃ zs, selectZs c arr i = some zs := by
  unfold selectZs
  split
  · rename_i v hv
    rw [hv] at hn
    unfold Abi.slice
    rw [if_pos]
    · exact ⟨_, rfl⟩
    · have : (v + 1) * c ≤ n * c := Nat.mul_le_mul_right c hn
      rw [ha.len]
      simpa [hts] using this
  · have hn' : 0 < n ∧ 0 < c := by
      split at hn
      · rename_i hv _ v hv'; exact absurd hv' (hv v)
      · exact hn
    have hc : c ≠ 0 := by omega
    rw [if_neg hc]
    obtain ⟨h1, h2⟩ := columns_typed hc hts ha
    generalize columns c (chunks c arr.length arr) = cols at h1 h2
    clear h1 ha hts hn
    induction cols generalizing ts with
    | nil => exact ⟨[], by simp⟩
    | cons col cols ih =>
      obtain ⟨zs, hzs⟩ := ih (ts := ts.drop 1) (fun j col hj => by
        have := h2 (j + 1) col (by simpa using hj)
        rw [List.getElem?_drop, Nat.add_comm 1 j]
        exact this)
      obtain ⟨k1, k2⟩ := h2 0 col (by simp)
      obtain ⟨z, hz⟩ := selectCol_some (i := i) (τ := (ts[0]?).getD .field) (col := col) (by intro e; subst e; simp at k1; omega)
        (fun z hz => by rw [(k2 z hz).2]; rfl)
      exact ⟨z :: zs, by simp [hz, hzs]⟩

theorem component_tys {pre : List CType} {t : CType} {l zs : List (ZExpr (ZMod p))} {us : List CType} (hl : Tys l (primTysL (pre ++ t :: us)))
    (h : component pre t l = some zs) : Tys zs (primTys t) := by
  unfold component at h
  split at h
  · rename_i o c ho hc
    have := hl.slice h
    have h1 := primTysL_len ho
    have h2 := primTys_len hc
    rw [primTysL_append, primTysL, ← List.append_assoc, List.take_append_of_le_length (by rw [List.length_append]; omega),
      List.take_of_length_le (by rw [List.length_append]; omega), List.drop_append, List.drop_of_length_le (by omega), h1, Nat.sub_self] at this
    simpa using this
  · cases h

theorem component_some {pre : List CType} {t : CType} {l : List (ZExpr (ZMod p))} {us : List CType} (hl : Tys l (primTysL (pre ++ t :: us)))
    (h1 : (primCountL pre).isSome) (h2 : (primCount t).isSome) : ∃ zs, component pre t l = some zs := by
  obtain ⟨o, ho⟩ := Option.isSome_iff_exists.1 h1
  obtain ⟨c, hc⟩ := Option.isSome_iff_exists.1 h2
  unfold component
  rw [ho, hc]
  simp only [Abi.slice]
  rw [if_pos]
  · exact ⟨_, rfl⟩
  · rw [hl.len, primTysL_append, primTysL]
    simp only [List.length_append, primTysL_len ho, primTys_len hc]
    omega

end Zok.Typed
