import Verif.Lemmas.FlattenTypesTotal
import Verif.Spec.OracleFree
import Verif.Spec.NoTrunc

/-! Statements and functions: the flattened function is well-typed, and flattening does not panic. -/

namespace Zok.Typed
open Abi
variable {p : ℕ} [Fact p.Prime] {Z : Type} {nm : SId → ZId}

theorem component_some_len {α : Type _} {pre us : List CType} {t : CType} {l : List α} {o c : ℕ} (hl : l.length = (primTysL (pre ++ t :: us)).length)
    (ho : primCountL pre = some o) (hc : primCount t = some c) : ∃ zs, component pre t l = some zs := by
  unfold component
  rw [ho, hc]
  simp only [Abi.slice]
  rw [if_pos]
  · exact ⟨_, rfl⟩
  · rw [hl, primTysL_append, primTysL]
    simp only [List.length_append, primTysL_len ho, primTys_len hc]
    omega

theorem memberSplit_some {m : Str} {t : CType} : ∀ {ms : List (Str × CType)}, ms.lookup m = some t → ∃ pre, memberSplit m ms = some (pre, t)
  | [], h => by simp at h
  | (k, t0) :: ms, h => by
    simp only [memberSplit]
    by_cases hk : k = m
    · subst hk; simp [List.lookup] at h; subst h; exact ⟨_, if_pos rfl⟩
    · have hne : (m == k) = false := by simpa using fun e : m = k => hk e.symm
      simp only [List.lookup, hne] at h
      obtain ⟨pre, hpre⟩ := memberSplit_some h
      exact ⟨t0 :: pre, by rw [if_neg hk, hpre]; rfl⟩

theorem flatA_len {a : TAssignee (ZMod p)} {l : List (SId × ZType)} {t : CType} (hw : a.Wt) (h : flatA a = some l) (ht : a.ty = some t) :
    l.length = (primTys t).length ∧ l.map Prod.snd = primTys t := by
  have := flatIds_tys _ _ _ (flatA_ids h ht).2
  exact ⟨by rw [← this, List.length_map], this⟩

/-- Assignees are flattened without a panic. -/
theorem flatA_total : ∀ {a : TAssignee (ZMod p)}, a.Wt → a.InBounds → ∃ l, flatA a = some l := by
  intro a
  induction a with
  | ident x t =>
    intro hw _
    obtain ⟨c, hc⟩ := Option.isSome_iff_exists.1 hw.2
    obtain ⟨l, hl, _⟩ := flatIds_len t c (.basic x) hc
    exact ⟨l, hl⟩
  | select a i ih =>
    rintro ⟨w1, w2, w3, w4⟩ ⟨⟨n, t, w, k, b1, rfl, b2⟩, b3⟩
    obtain ⟨l, hl⟩ := ih w4 b3
    obtain ⟨c, hc⟩ := Option.isSome_iff_exists.1 (assignee_typeOk w4 b1).array.2
    have hlen := (flatA_len w4 hl b1).1
    simp only [flatA, b1, hc, hl]
    unfold Abi.slice
    rw [if_pos]
    · exact ⟨_, rfl⟩
    · rw [hlen]
      have : (k + 1) * c ≤ n * c := Nat.mul_le_mul_right c b2
      simpa [primTys, primTys_len hc] using this
  | member a m ih =>
    rintro ⟨⟨ms, t, w1, w2⟩, w3⟩ b
    obtain ⟨l, hl⟩ := ih w3 b
    have hlen := (flatA_len w3 hl w1).1
    have tok := assignee_typeOk w3 w1
    obtain ⟨pre, hm⟩ := memberSplit_some w2
    obtain ⟨⟨us, h1⟩, _⟩ := memberSplit_ty hm
    have hcm := tok.2
    rw [primCount, primCountM_eq] at hcm
    have hpre : (primCountL pre).isSome := by
      apply primCountL_of
      intro t' ht'
      obtain ⟨j, hj⟩ := List.getElem?_of_mem (show t' ∈ ms.map Prod.snd by rw [h1]; exact List.mem_append_left _ ht')
      exact primCountL_get hcm hj
    obtain ⟨o, ho⟩ := Option.isSome_iff_exists.1 hpre
    obtain ⟨c, hc⟩ := Option.isSome_iff_exists.1 (tok.member w2).2
    rw [primTys, primTysM_eq, h1] at hlen
    obtain ⟨zs, hz⟩ := component_some_len hlen ho hc
    exact ⟨zs, by simp only [flatA, w1, hm, hl]; exact hz⟩
  | element a i ih =>
    rintro ⟨⟨ts, t, w1, w2⟩, w3⟩ b
    obtain ⟨l, hl⟩ := ih w3 b
    have hlen := (flatA_len w3 hl w1).1
    have tok := assignee_typeOk w3 w1
    have hcm := tok.2
    rw [primCount] at hcm
    obtain ⟨hi, hi'⟩ := List.getElem?_eq_some_iff.1 w2
    have this : ts = ts.take i ++ t :: ts.drop (i + 1) := by
      rw [← hi', ← List.drop_eq_getElem_cons hi, List.take_append_drop]
    have hpre : (primCountL (ts.take i)).isSome := by
      apply primCountL_of
      intro t' ht'
      obtain ⟨j, hj⟩ := List.getElem?_of_mem (List.mem_of_mem_take ht')
      exact primCountL_get hcm hj
    obtain ⟨o, ho⟩ := Option.isSome_iff_exists.1 hpre
    obtain ⟨c, hc⟩ := Option.isSome_iff_exists.1 (tok.element w2).2
    rw [primTys] at hlen
    rw [this] at hlen
    obtain ⟨zs, hz⟩ := component_some_len hlen ho hc
    exact ⟨zs, by simp only [flatA, w1, w2, hl]; exact hz⟩

theorem flatLog_total : ∀ {es : List (TExpr (ZMod p))}, WtL es → SelectsL nm es → ∃ l, flatLog nm es = some l
  | [], _, _ => ⟨_, rfl⟩
  | e :: es, hw, hs => by
    simp only [WtL] at hw
    simp only [SelectsL] at hs
    obtain ⟨a, ha⟩ := flat_total e hw.1 hs.1
    obtain ⟨b, hb⟩ := flatLog_total hw.2 hs.2
    exact ⟨_, by simp only [flatLog, ha, hb]; rfl⟩

theorem flatStmt_total {s : TStmt (ZMod p)} {rt : CType} (hw : s.Wt rt) (hs : s.Selects nm) : ∃ ss : List (ZStmt (ZMod p) Z), flatStmt nm s = some ss := by
  cases s with
  | ret e => obtain ⟨l, hl⟩ := flat_total e hw.2 hs; exact ⟨_, by simp only [flatStmt, hl]; rfl⟩
  | definition a e =>
    obtain ⟨w1, w2, w3⟩ := hw
    obtain ⟨as, ha⟩ := flatA_total w2 hs.1
    obtain ⟨es, he⟩ := flat_total e w3 hs.2
    have h1 := (flatA_len w2 ha w1).1
    have h2 := (flat_typed e es w3 he).len
    exact ⟨_, by simp only [flatStmt, ha, he]; rw [if_pos (by rw [h1, h2])]⟩
  | embed a f g args =>
    obtain ⟨w1, w2, w3⟩ := hw
    obtain ⟨as, ha⟩ := flatA_total w2 hs.1
    obtain ⟨es, he⟩ := flatL_total args w3 hs.2
    exact ⟨_, by simp only [flatStmt, ha, he]; rfl⟩
  | assertion e err =>
    obtain ⟨b, hb⟩ := pop_bool hw.2 hw.1 (flat_total e hw.2 hs)
    exact ⟨_, by simp only [flatStmt, hb]; rfl⟩
  | log es => obtain ⟨l, hl⟩ := flatLog_total (nm := nm) hw hs; exact ⟨_, by simp only [flatStmt, hl]; rfl⟩

theorem flatStmts_total {rt : CType} : ∀ {body : List (TStmt (ZMod p))}, (∀ s ∈ body, s.Wt rt) → (∀ s ∈ body, s.Selects nm) →
    ∃ ss : List (ZStmt (ZMod p) Z), flatStmts nm body = some ss
  | [], _, _ => ⟨_, rfl⟩
  | s :: body, hw, hs => by
    obtain ⟨a, ha⟩ := flatStmt_total (Z := Z) (hw s List.mem_cons_self) (hs s List.mem_cons_self)
    obtain ⟨b, hb⟩ := flatStmts_total (fun s h => hw s (List.mem_cons_of_mem _ h)) (fun s h => hs s (List.mem_cons_of_mem _ h))
    exact ⟨_, by simp only [flatStmts, ha, hb]; rfl⟩

theorem flatParams_total : ∀ {qs : List TParam}, (∀ q ∈ qs, TypeOk q.ty) → ∃ ps, flatParams nm qs = some ps
  | [], _ => ⟨_, rfl⟩
  | q :: qs, h => by
    obtain ⟨c, hc⟩ := Option.isSome_iff_exists.1 (h q List.mem_cons_self).2
    obtain ⟨a, ha, _⟩ := flatIds_len q.ty c (.basic q.id) hc
    obtain ⟨b, hb⟩ := flatParams_total (fun q hq => h q (List.mem_cons_of_mem _ hq))
    exact ⟨_, by simp only [flatParams, ha, hb]; rfl⟩

theorem flatFun_total {f : TFun (ZMod p)} (hw : f.Wt) (hs : ∀ s ∈ f.body, s.Selects nm) : ∃ g : ZFun (ZMod p) Z, flatFun nm f = some g := by
  obtain ⟨ps, h1⟩ := flatParams_total (nm := nm) hw.params
  obtain ⟨ss, h2⟩ := flatStmts_total (Z := Z) hw.body hs
  obtain ⟨c, h3⟩ := Option.isSome_iff_exists.1 hw.ret.2
  exact ⟨_, by simp only [flatFun, h1, h2, h3]; rfl⟩

/-! ### The flattened function is well-typed -/

theorem exists_value {t : CType} (h : (primCount t).isSome) : ∃ v : AVal (ZMod p), HasType t v := by
  let dflt : ZType → ZVal p := fun t => match t with | .field => .field 0 | .bool => .bool false | .uint w => .uint w 0
  have hd : ∀ t, zty (dflt t) = t ∧ InRange (dflt t) := by
    intro t
    cases t with
    | field => exact ⟨rfl, trivial⟩
    | bool => exact ⟨rfl, trivial⟩
    | uint w => exact ⟨rfl, by show 0 < 2 ^ w; positivity⟩
  obtain ⟨v, hv, _⟩ := prims_surj t ((primTys t).map dflt) h (by
    rw [List.map_map]
    exact (List.map_congr_left fun t _ => (hd t).1).trans (List.map_id _)) (by
    intro x hx
    obtain ⟨t, _, rfl⟩ := List.mem_map.1 hx
    exact (hd t).2)
  exact ⟨v, hv⟩

theorem flatIds_root {t : CType} {id : SId} {l : List (SId × ZType)} (hc : (primCount t).isSome) (h : flatIds t id = some l) : ∀ q ∈ l, q.1.root = id.root := by
  obtain ⟨v, hv⟩ := exists_value (p := 2) hc
  intro q hq
  rw [flatIds_leaves t v id l hv h] at hq
  obtain ⟨r, hr, rfl⟩ := List.mem_map.1 hq
  exact (leaves_under _ _ _ hr).root

theorem flatA_root {a : TAssignee (ZMod p)} {l : List (SId × ZType)} {t : CType} (hw : a.Wt) (h : flatA a = some l) (ht : a.ty = some t) :
    ∀ q ∈ l, q.1.root = a.root := by
  intro q hq
  rw [flatIds_root (assignee_typeOk hw ht).2 (flatA_ids h ht).2 q hq, a.sid_root]

/-- The variables of ZIR with the given names are components of the given variables. -/
def Under' (nm : SId → ZId) (seen : List TId) (x : ZId) : Prop := ∃ s : SId, x = nm s ∧ s.root ∈ seen

theorem under_root (hnm : Function.Injective nm) {seen : List TId} {s : SId} : Under' nm seen (nm s) ↔ s.root ∈ seen :=
  ⟨fun ⟨s', h1, h2⟩ => by rw [hnm h1]; exact h2, fun h => ⟨s, rfl, h⟩⟩

theorem tyStmts_mono {ar : Z → ℕ} {K K' : ZId → Prop} : ∀ {ss : List (ZStmt (ZMod p) Z)}, (∀ x, K x → K' x) → TyStmts ar K' ss → TyStmts ar K ss
  | [], _, _ => trivial
  | s :: ss, h, h1 => by
    simp only [TyStmts] at h1 ⊢
    refine ⟨?_, tyStmts_mono (fun x hx => hx.imp (h x) id) h1.2⟩
    cases s <;> try exact h1.1
    exact ⟨fun x hx hk => h1.1.1 x hx (h x hk), h1.1.2⟩

theorem tyStmts_append {ar : Z → ℕ} {ss' : List (ZStmt (ZMod p) Z)} : ∀ {ss : List (ZStmt (ZMod p) Z)} {K : ZId → Prop}, TyStmts ar K ss →
    TyStmts ar (fun x => K x ∨ x ∈ ss.flatMap ZStmt.defs) ss' → TyStmts ar K (ss ++ ss')
  | [], K, _, h => tyStmts_mono (fun x hx => .inl hx) h
  | s :: ss, K, h1, h2 => by
    simp only [TyStmts] at h1
    refine ⟨h1.1, tyStmts_append h1.2 (tyStmts_mono (fun x hx => ?_) h2)⟩
    simp only [List.flatMap_cons, List.mem_append]
    tauto

theorem tyStmts_defs {ar : Z → ℕ} : ∀ {as : List (SId × ZType)} {es : List (ZExpr (ZMod p))} {K : ZId → Prop}, (∀ e ∈ es, TyZ e) →
    TyStmts ar K (List.zipWith (fun (a : SId × ZType) e => ZStmt.definition (Z := Z) (nm a.1) e) as es)
  | [], _, _, _ => trivial
  | _ :: _, [], _, _ => trivial
  | a :: as, e :: es, K, h => ⟨h e List.mem_cons_self, tyStmts_defs fun e he => h e (List.mem_cons_of_mem _ he)⟩

theorem flatStmt_typed (hnm : Function.Injective nm) {ar : Z → ℕ} {s : TStmt (ZMod p)} {rt : CType} {ss : List (ZStmt (ZMod p) Z)} {seen : List TId}
    (hw : s.Wt rt) (hc : ∀ a f g args, s = .embed a f g args → a.root ∉ seen) (hf : flatStmt nm s = some ss) :
    TyStmts ar (Under' nm seen) ss ∧ ∀ x ∈ ss.flatMap ZStmt.defs, Under' nm s.assigns x := by
  cases s with
  | ret e =>
    simp only [flatStmt, Option.map_eq_some_iff] at hf
    obtain ⟨l, hl, rfl⟩ := hf
    exact ⟨⟨(flat_typed e l hw.2 hl).mem, trivial⟩, by simp [ZStmt.defs]⟩
  | definition a e =>
    simp only [flatStmt] at hf
    split at hf
    · rename_i as es has hes
      split at hf
      · cases hf
        refine ⟨tyStmts_defs (flat_typed e es hw.2.2 hes).mem, ?_⟩
        intro x hx
        have hroot := flatA_root hw.2.1 has hw.1
        obtain ⟨st, h1, h2⟩ := List.mem_flatMap.1 hx
        obtain ⟨q, e', hq, rfl⟩ : ∃ q e', q ∈ as ∧ st = ZStmt.definition (nm q.1) e' := by
          clear hx has hes
          rename_i hl
          clear hl hroot hc h2
          induction as generalizing es with
          | nil => simp at h1
          | cons a as ih =>
            cases es with
            | nil => simp at h1
            | cons e es =>
              rcases List.mem_cons.1 h1 with rfl | h1
              · exact ⟨a, e, List.mem_cons_self, rfl⟩
              · obtain ⟨q, e', h3, h4⟩ := ih es h1
                exact ⟨q, e', List.mem_cons_of_mem _ h3, h4⟩
        simp only [ZStmt.defs, List.mem_singleton] at h2
        subst h2
        exact ⟨q.1, rfl, by rw [hroot q hq]; simp [TStmt.assigns]⟩
      · cases hf
    · cases hf
  | embed a f g args =>
    simp only [flatStmt] at hf
    split at hf
    · rename_i as es has hes
      cases hf
      obtain ⟨⟨t, w0, w1⟩, w2, w3⟩ := hw
      have hroot := flatA_root w2 has w1
      have hx : ∀ x ∈ as.map (fun a => nm a.1), ∃ q ∈ as, x = nm q.1 := by
        intro x hx
        obtain ⟨q, hq, rfl⟩ := List.mem_map.1 hx
        exact ⟨q, hq, rfl⟩
      refine ⟨⟨⟨?_, (flatL_typed args es w3 hes).mem⟩, trivial⟩, ?_⟩
      · intro x hxm hu
        obtain ⟨q, hq, rfl⟩ := hx x hxm
        rw [under_root hnm, hroot q hq] at hu
        exact hc a f g args rfl hu
      · intro x hxm
        simp only [List.flatMap_cons, ZStmt.defs, List.flatMap_nil, List.append_nil] at hxm
        obtain ⟨q, hq, rfl⟩ := hx x hxm
        exact ⟨q.1, rfl, by rw [hroot q hq]; simp [TStmt.assigns]⟩
    · cases hf
  | assertion e err =>
    simp only [flatStmt] at hf
    split at hf
    · rename_i b hb
      cases hf
      obtain ⟨l, hl, hb⟩ := bind_some hb
      have := flat_typed e l hw.2 hl
      rw [hw.1, primTys] at this
      exact ⟨⟨popB_tys this hb, trivial⟩, by simp [ZStmt.defs]⟩
    · cases hf
  | log es =>
    simp only [flatStmt, Option.map_eq_some_iff] at hf
    obtain ⟨l, hl, rfl⟩ := hf
    exact ⟨⟨(flatL_typed es _ hw (flatLog_flatten hl)).mem, trivial⟩, by simp [ZStmt.defs]⟩

theorem flatStmts_typed (hnm : Function.Injective nm) {ar : Z → ℕ} {rt : CType} : ∀ {body : List (TStmt (ZMod p))} {ss : List (ZStmt (ZMod p) Z)} {seen : List TId},
    (∀ s ∈ body, s.Wt rt) → FreshCalls seen body → flatStmts nm body = some ss → TyStmts ar (Under' nm seen) ss
  | [], ss, seen, _, _, hf => by simp only [flatStmts] at hf; cases hf; trivial
  | s :: body, ss, seen, hw, hc, hf => by
    simp only [flatStmts] at hf
    split at hf
    · rename_i as bs ha hb
      cases hf
      simp only [FreshCalls] at hc
      obtain ⟨i1, i2⟩ := flatStmt_typed (ar := ar) hnm (hw s List.mem_cons_self) hc.1 ha
      have i3 := flatStmts_typed (ar := ar) hnm (fun s h => hw s (List.mem_cons_of_mem _ h)) hc.2 hb
      refine tyStmts_append i1 (tyStmts_mono (fun x hx => ?_) i3)
      rcases hx with ⟨s', e, h⟩ | hx
      · exact ⟨s', e, List.mem_append_right _ h⟩
      · obtain ⟨s', e, h⟩ := i2 x hx
        exact ⟨s', e, List.mem_append_left _ h⟩
    · cases hf

theorem flatParams_under : ∀ {qs : List TParam} {ps : List ZParam}, (∀ q ∈ qs, TypeOk q.ty) → flatParams nm qs = some ps →
    ∀ x ∈ ps.map ZParam.id, Under' nm (qs.map TParam.id) x
  | [], ps, _, h => by simp [flatParams] at h; subst h; simp
  | q :: qs, ps, hq, h => by
    simp only [flatParams] at h
    split at h
    · rename_i a b h1 h2
      cases h
      intro x hx
      rw [List.map_append, List.mem_append] at hx
      rcases hx with hx | hx
      · rw [List.map_map] at hx
        obtain ⟨r, hr, rfl⟩ := List.mem_map.1 hx
        exact ⟨r.1, rfl, by rw [flatIds_root (hq q List.mem_cons_self).2 h1 r hr]; simp [SId.root]⟩
      · obtain ⟨s, e, h⟩ := flatParams_under (fun q hm => hq q (List.mem_cons_of_mem _ hm)) h2 x hx
        exact ⟨s, e, by rw [List.map_cons]; exact List.mem_cons_of_mem _ h⟩
    · cases h

theorem flatFun_typed (hnm : Function.Injective nm) {ar : Z → ℕ} {f : TFun (ZMod p)} {g : ZFun (ZMod p) Z} (hw : f.Wt)
    (hc : FreshCalls (f.params.map TParam.id) f.body) (hf : flatFun nm f = some g) : TyFun ar g := by
  obtain ⟨h1, h2, h3⟩ := flatFun_some hf
  exact tyStmts_mono (flatParams_under hw.params h1) (flatStmts_typed hnm hw.body hc h2)

theorem flatStmt_noAsm {s : TStmt (ZMod p)} {ss : List (ZStmt (ZMod p) Z)} (hf : flatStmt nm s = some ss) :
    ∀ st ∈ ss, st.NoAsm ∧ (s.OracleFree → st.OracleFree) := by
  cases s with
  | ret e =>
    simp only [flatStmt, Option.map_eq_some_iff] at hf
    obtain ⟨l, hl, rfl⟩ := hf
    intro st hm; simp at hm; subst hm; exact ⟨trivial, fun _ => trivial⟩
  | definition a e =>
    simp only [flatStmt] at hf
    split at hf
    · rename_i as es has hes
      split at hf
      · cases hf
        clear has hes
        rename_i hl
        clear hl
        intro st hm
        induction as generalizing es with
        | nil => simp at hm
        | cons a as ih =>
          cases es with
          | nil => simp at hm
          | cons e es =>
            rcases List.mem_cons.1 hm with rfl | hm
            · exact ⟨trivial, fun _ => trivial⟩
            · exact ih es hm
      · cases hf
    · cases hf
  | embed a f g args =>
    simp only [flatStmt] at hf
    split at hf
    · cases hf
      intro st hm; simp at hm; subst hm; exact ⟨trivial, fun h => h⟩
    · cases hf
  | assertion e err =>
    simp only [flatStmt] at hf
    split at hf
    · cases hf
      intro st hm; simp at hm; subst hm; exact ⟨trivial, fun _ => trivial⟩
    · cases hf
  | log es =>
    simp only [flatStmt, Option.map_eq_some_iff] at hf
    obtain ⟨l, hl, rfl⟩ := hf
    intro st hm; simp at hm; subst hm; exact ⟨trivial, fun _ => trivial⟩

theorem flatStmts_noAsm : ∀ {body : List (TStmt (ZMod p))} {ss : List (ZStmt (ZMod p) Z)}, flatStmts nm body = some ss →
    (∀ st ∈ ss, st.NoAsm) ∧ ((∀ s ∈ body, s.OracleFree) → ∀ st ∈ ss, st.OracleFree)
  | [], ss, hf => by simp only [flatStmts] at hf; cases hf; simp
  | s :: body, ss, hf => by
    simp only [flatStmts] at hf
    split at hf
    · rename_i as bs ha hb
      cases hf
      have i1 := flatStmt_noAsm ha
      obtain ⟨i2, i3⟩ := flatStmts_noAsm hb
      refine ⟨fun st hm => ?_, fun h st hm => ?_⟩
      · rcases List.mem_append.1 hm with hm | hm
        · exact (i1 st hm).1
        · exact i2 st hm
      · rcases List.mem_append.1 hm with hm | hm
        · exact (i1 st hm).2 (h s List.mem_cons_self)
        · exact i3 (fun s hs => h s (List.mem_cons_of_mem _ hs)) st hm
    · cases hf

theorem noAsmL_of {ss : List (ZStmt (ZMod p) Z)} (h : ∀ st ∈ ss, st.NoAsm) : ZStmt.NoAsmL ss := by
  induction ss with
  | nil => trivial
  | cons s ss ih => exact ⟨h s List.mem_cons_self, ih fun st hs => h st (List.mem_cons_of_mem _ hs)⟩
theorem freeL_of {ss : List (ZStmt (ZMod p) Z)} (h : ∀ st ∈ ss, st.OracleFree) : ZStmt.OracleFreeL ss := by
  induction ss with
  | nil => trivial
  | cons s ss ih => exact ⟨h s List.mem_cons_self, ih fun st hs => h st (List.mem_cons_of_mem _ hs)⟩

end Zok.Typed
