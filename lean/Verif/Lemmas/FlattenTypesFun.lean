import Verif.Lemmas.FlattenTypesStmt
import Verif.Lemmas.Abi

/-! Parameters and functions: the arguments of the flattened function are the ABI encodings of the typed arguments. -/

namespace Zok.Typed
open Abi
variable {p : ℕ} [Fact p.Prime] {Z : Type} {O : Oracle p Z} {nm : SId → ZId}

mutual
theorem flatIds_tys : ∀ (t : CType) (id : SId) (l : List (SId × ZType)), flatIds t id = some l → l.map Prod.snd = primTys t
  | .int, id, l, h => by simp [flatIds] at h
  | .field, id, l, h => by simp [flatIds] at h; subst h; rfl
  | .bool, id, l, h => by simp [flatIds] at h; subst h; rfl
  | .uint w, id, l, h => by simp [flatIds] at h; subst h; rfl
  | .array n t, id, l, h => by
    have ih : ∀ i l, flatIds t (.select id i) = some l → l.map Prod.snd = primTys t := fun i l => flatIds_tys t (.select id i) l
    simp only [flatIds] at h
    simp only [primTys]
    rw [List.range_eq_range'] at h
    suffices H : ∀ n s l, concatO ((List.range' s n).map fun i => flatIds t (.select id i)) = some l → l.map Prod.snd = (List.replicate n (primTys t)).flatten from
      H n 0 l h
    intro n
    induction n with
    | zero => intro s l h; simp [concatO] at h; subst h; rfl
    | succ n ihn =>
      intro s l h
      rw [List.range'_succ, List.map_cons] at h
      obtain ⟨a, b, h1, h2, rfl⟩ := concatO_cons h
      rw [List.map_append, ih s a h1, ihn _ _ h2]
      simp [List.replicate_succ]
  | .struct ms, id, l, h => by simp only [flatIds] at h; simp only [primTys]; exact flatIdsM_tys ms id l h
  | .tuple ts, id, l, h => by simp only [flatIds] at h; simp only [primTys]; exact flatIdsT_tys ts id 0 l h
theorem flatIdsM_tys : ∀ (ts : List (Str × CType)) (id : SId) (l : List (SId × ZType)), flatIdsM ts id = some l → l.map Prod.snd = primTysM ts
  | [], id, l, h => by simp [flatIdsM] at h; subst h; rfl
  | (k, t) :: ts, id, l, h => by
    simp only [flatIdsM] at h
    split at h
    · rename_i a b h1 h2
      cases h
      rw [List.map_append, flatIds_tys t _ a h1, flatIdsM_tys ts id b h2]; rfl
    · cases h
theorem flatIdsT_tys : ∀ (ts : List CType) (id : SId) (i : ℕ) (l : List (SId × ZType)), flatIdsT ts id i = some l → l.map Prod.snd = primTysL ts
  | [], id, i, l, h => by simp [flatIdsT] at h; subst h; rfl
  | t :: ts, id, i, l, h => by
    simp only [flatIdsT] at h
    split at h
    · rename_i a b h1 h2
      cases h
      rw [List.map_append, flatIds_tys t _ a h1, flatIdsT_tys ts id _ b h2]; rfl
    · cases h
end

theorem flatParams_tys : ∀ {qs : List TParam} {ps : List ZParam}, flatParams nm qs = some ps → ps.map ZParam.ty = primTysL (qs.map TParam.ty)
  | [], ps, h => by simp [flatParams] at h; subst h; rfl
  | q :: qs, ps, h => by
    simp only [flatParams] at h
    split at h
    · rename_i a b h1 h2
      cases h
      simp only [List.map_append, List.map_map, List.map_cons, primTysL]
      rw [← flatIds_tys _ _ _ h1, ← flatParams_tys h2]
      rfl
    · cases h

mutual
/-- The components of a value of a type are in range, and of width at most 64. -/
theorem prims_small : ∀ (t : CType) (v : AVal (ZMod p)), HasType t v → ∀ x ∈ prims v, ∀ w n, x = .uint w n → n < 2 ^ w ∧ 2 ^ w ≤ 2 ^ 64
  | .int, v, h => by cases v <;> simp [HasType] at h
  | .field, v, h => by cases v <;> simp_all [HasType, prims]
  | .bool, v, h => by cases v <;> simp_all [HasType, prims]
  | .uint w, v, h => by
    cases v with
    | uint w' n =>
      simp only [HasType] at h
      intro x hx w0 n0 e
      simp only [prims, List.mem_singleton] at hx
      rw [hx] at e
      cases e
      rw [h.1]
      exact ⟨h.2, w.pow_le⟩
    | _ => simp [HasType] at h
  | .array n t, v, h => by
    cases v with
    | array vs =>
      simp only [HasType] at h
      obtain ⟨_, hv⟩ := h
      have ih : ∀ v ∈ vs, ∀ x ∈ prims v, ∀ w n, x = .uint w n → n < 2 ^ w ∧ 2 ^ w ≤ 2 ^ 64 := fun v hm => prims_small t v (hv v hm)
      intro x hx
      rw [prims, primsL_eq] at hx
      obtain ⟨v, hm, hx⟩ := List.mem_flatMap.1 hx
      exact ih v hm x hx
    | _ => simp [HasType] at h
  | .struct ms, v, h => by
    cases v with
    | struct vs =>
      simp only [HasType] at h
      simp only [prims]
      exact prims_smallM ms vs h
    | _ => simp [HasType] at h
  | .tuple ts, v, h => by
    cases v with
    | tuple vs =>
      simp only [HasType] at h
      simp only [prims]
      exact prims_smallL ts vs h
    | _ => simp [HasType] at h
theorem prims_smallL : ∀ (ts : List CType) (vs : List (AVal (ZMod p))), HasTypeL ts vs → ∀ x ∈ primsL vs, ∀ w n, x = .uint w n → n < 2 ^ w ∧ 2 ^ w ≤ 2 ^ 64
  | [], vs, h => by cases vs <;> simp_all [HasTypeL, primsL]
  | t :: ts, [], h => by simp [HasTypeL] at h
  | t :: ts, v :: vs, h => by
    simp only [HasTypeL] at h
    have i1 := prims_small t v h.1
    have i2 := prims_smallL ts vs h.2
    intro x hx
    rw [primsL, List.mem_append] at hx
    rcases hx with hx | hx
    · exact i1 x hx
    · exact i2 x hx
theorem prims_smallM : ∀ (ts : List (Str × CType)) (vs : List (Str × AVal (ZMod p))), HasTypeM ts vs → ∀ x ∈ primsM vs, ∀ w n, x = .uint w n →
    n < 2 ^ w ∧ 2 ^ w ≤ 2 ^ 64
  | [], vs, h => by cases vs <;> simp_all [HasTypeM, primsM]
  | (k, t) :: ts, [], h => by simp [HasTypeM] at h
  | (k, t) :: ts, (k', v) :: vs, h => by
    simp only [HasTypeM] at h
    have i1 := prims_small t v h.2.1
    have i2 := prims_smallM ts vs h.2.2
    intro x hx
    rw [primsM, List.mem_append] at hx
    rcases hx with hx | hx
    · exact i1 x hx
    · exact i2 x hx
end

theorem decodeArg_enc (hp : 2 ^ 64 ≤ p) {x : ZVal p} (h : ∀ w n, x = .uint w n → n < 2 ^ w ∧ 2 ^ w ≤ 2 ^ 64) : decodeArg (zty x) x.enc = some x := by
  cases x with
  | field v => rfl
  | bool b => cases b <;> simp [zty, decodeArg, ZVal.enc, boolF]
  | uint w n =>
    obtain ⟨h1, h2⟩ := h w n rfl
    simp only [zty, decodeArg, ZVal.enc]
    rw [ZMod.val_natCast_of_lt (by omega), if_pos h1]

theorem decodeArg_some {t : ZType} {r : ZMod p} {x : ZVal p} (h : decodeArg t r = some x) : zty x = t ∧ x.enc = r ∧ InRange x := by
  cases t with
  | field => simp [decodeArg] at h; subst h; exact ⟨rfl, rfl, trivial⟩
  | bool =>
    simp only [decodeArg] at h
    split at h
    · rename_i h0; cases h; exact ⟨rfl, by simp [ZVal.enc, boolF, h0], trivial⟩
    · split at h
      · rename_i h0; cases h; exact ⟨rfl, by simp [ZVal.enc, boolF, h0], trivial⟩
      · cases h
  | uint w =>
    simp only [decodeArg] at h
    split at h
    · rename_i h0; cases h; exact ⟨rfl, by simp [ZVal.enc], h0⟩
    · cases h

theorem decodeArgs_enc (hp : 2 ^ 64 ≤ p) : ∀ {ps : List ZParam} {xs : List (ZVal p)}, xs.map zty = ps.map ZParam.ty →
    (∀ x ∈ xs, ∀ w n, x = .uint w n → n < 2 ^ w ∧ 2 ^ w ≤ 2 ^ 64) → decodeArgs ps (xs.map ZVal.enc) = some xs
  | [], [], _, _ => rfl
  | [], _ :: _, h, _ => by simp at h
  | _ :: _, [], h, _ => by simp at h
  | q :: ps, x :: xs, h, hs => by
    simp only [List.map_cons, List.cons.injEq] at h
    have i1 := decodeArg_enc hp (hs x List.mem_cons_self)
    have i2 := decodeArgs_enc hp h.2 (fun x hx => hs x (List.mem_cons_of_mem _ hx))
    rw [h.1] at i1
    simp only [List.map_cons, decodeArgs, i1, i2]

theorem decodeArgs_some : ∀ {ps : List ZParam} {raw : List (ZMod p)} {xs : List (ZVal p)}, decodeArgs ps raw = some xs →
    xs.map zty = ps.map ZParam.ty ∧ xs.map ZVal.enc = raw ∧ ∀ x ∈ xs, InRange x
  | [], [], xs, h => by simp [decodeArgs] at h; subst h; simp
  | [], _ :: _, xs, h => by simp [decodeArgs] at h
  | _ :: _, [], xs, h => by simp [decodeArgs] at h
  | q :: ps, r :: raw, xs, h => by
    simp only [decodeArgs] at h
    split at h
    · rename_i v vs h1 h2
      cases h
      obtain ⟨i1, i2, i3⟩ := decodeArg_some h1
      obtain ⟨j1, j2, j3⟩ := decodeArgs_some h2
      refine ⟨by simp [i1, j1], by simp [i2, j2], ?_⟩
      intro x hx
      rcases List.mem_cons.1 hx with rfl | hx
      · exact i3
      · exact j3 x hx
    · cases h

/-- The arguments of the flattened function are the encodings of typed arguments. -/
theorem params_decode (hp : 2 ^ 64 ≤ p) {qs : List TParam} {ps : List ZParam} {args : List (AVal (ZMod p))} (h : flatParams nm qs = some ps)
    (ht : HasTypeL (qs.map TParam.ty) args) : decodeArgs ps (encodeL args) = some (primsL args) := by
  rw [encode_primsL]
  exact decodeArgs_enc hp (by rw [prims_tyL _ _ ht, flatParams_tys h]) (prims_smallL _ _ ht)

theorem primCountL_of : ∀ {ts : List CType}, (∀ t ∈ ts, (primCount t).isSome) → (primCountL ts).isSome
  | [], _ => rfl
  | t :: ts, h => by
    obtain ⟨a, ha⟩ := Option.isSome_iff_exists.1 (h t List.mem_cons_self)
    obtain ⟨b, hb⟩ := Option.isSome_iff_exists.1 (primCountL_of (fun t ht => h t (List.mem_cons_of_mem _ ht)))
    simp [primCountL, ha, hb]

theorem params_decoded {qs : List TParam} {ps : List ZParam} {raw : List (ZMod p)} {xs : List (ZVal p)} (h : flatParams nm qs = some ps)
    (hq : ∀ q ∈ qs, TypeOk q.ty) (hd : decodeArgs ps raw = some xs) : ∃ args, HasTypeL (qs.map TParam.ty) args ∧ encodeL args = raw ∧ primsL args = xs := by
  obtain ⟨h1, h2, h3⟩ := decodeArgs_some hd
  have hc : (primCountL (qs.map TParam.ty)).isSome := primCountL_of (by
    intro t ht
    obtain ⟨q, hm, rfl⟩ := List.mem_map.1 ht
    exact (hq q hm).2)
  obtain ⟨args, i1, i2⟩ := prims_surjL _ xs hc (by rw [h1, flatParams_tys h]) h3
  exact ⟨args, i1, by rw [encode_primsL, i2, h2], i2⟩

theorem setAll_append : ∀ {a : List ZId} {x : List (ZVal p)} (σ : ZState p) (b : List ZId) (y : List (ZVal p)), a.length = x.length →
    σ.setAll (a ++ b) (x ++ y) = (σ.setAll a x).setAll b y
  | [], [], _, _, _, _ => rfl
  | [], _ :: _, _, _, _, h => by simp at h
  | _ :: _, [], _, _, _, h => by simp at h
  | c :: a, v :: x, σ, b, y, h => by
    simp only [List.cons_append, ZState.setAll]
    exact setAll_append _ b y (by simpa using h)

theorem sim_params (hnm : Function.Injective nm) : ∀ {qs : List TParam} {ps : List ZParam} {args : List (AVal (ZMod p))} {σ : TState p} {τ : ZState p},
    (∀ q ∈ qs, TypeOk q.ty) → flatParams nm qs = some ps → HasTypeL (qs.map TParam.ty) args → Sim nm σ τ →
    Sim nm (σ.setAll (qs.map TParam.id) args) (τ.setAll (ps.map ZParam.id) (primsL args))
  | [], ps, args, σ, τ, _, h, ht, hs => by
    simp [flatParams] at h; subst h
    cases args with
    | nil => exact hs
    | cons => simp [HasTypeL] at ht
  | q :: qs, ps, [], σ, τ, _, h, ht, hs => by simp [HasTypeL] at ht
  | q :: qs, ps, v :: args, σ, τ, hq, h, ht, hs => by
    simp only [flatParams] at h
    split at h
    · rename_i as bs h1 h2
      cases h
      simp only [List.map_cons, HasTypeL] at ht
      have l3 := flatIds_leaves _ v _ _ ht.1 h1
      simp only [List.map_append, List.map_map, primsL, List.map_cons, TState.setAll]
      have e2 : (as.map (ZParam.id ∘ fun a => (⟨nm a.1, a.2, q.priv⟩ : ZParam))) = (leaves v (.basic q.id)).map fun q => nm q.1 := by
        rw [l3, List.map_map]; rfl
      rw [setAll_append]
      · refine sim_params hnm (fun q hm => hq q (List.mem_cons_of_mem _ hm)) h2 ht.2 ⟨?_, ?_⟩
        · rw [e2]
          exact Rel.assign (a := .ident q.id q.ty) hnm hs.1 trivial (hq q List.mem_cons_self).1.1 ht.1 rfl
        · rw [ZState.setAll_outs]; exact hs.2
      · rw [e2, ← leaves_snd v (.basic q.id)]; simp
    · cases h

theorem sim_init (hnm : Function.Injective nm) {f : TFun (ZMod p)} {g : ZFun (ZMod p) Z} (hw : f.Wt) (hf : flatParams nm f.params = some g.params)
    {args : List (AVal (ZMod p))} (ht : HasTypeL (f.params.map TParam.ty) args) : Sim nm (initT f args) (initState g (primsL args)) :=
  sim_params hnm hw.params hf ht ⟨by intro x v h; simp at h, rfl⟩

theorem flatFun_some {f : TFun (ZMod p)} {g : ZFun (ZMod p) Z} (h : flatFun nm f = some g) :
    flatParams nm f.params = some g.params ∧ flatStmts nm f.body = some g.body ∧ primCount f.ret = some g.returnCount := by
  simp only [flatFun] at h
  split at h
  · cases h; exact ⟨‹_›, ‹_›, ‹_›⟩
  · cases h

theorem fun_forward (hnm : Function.Injective nm) (hp : 2 ^ 64 ≤ p) {f : TFun (ZMod p)} {g : ZFun (ZMod p) Z} (hw : f.Wt)
    (hsim : ∀ s ∈ f.body, s.Simultaneous nm) (hf : flatFun nm f = some g) {args : List (AVal (ZMod p))} {out : AVal (ZMod p)} (h : ReturnsT O f args out) :
    Returns O g (encodeL args) (encode out) := by
  obtain ⟨h1, h2, h3⟩ := flatFun_some hf
  obtain ⟨ht, σ, hx, ho⟩ := h
  obtain ⟨τ, i1, i2⟩ := flatStmts_forward hnm (sim_init hnm hw h1 ht) hw.body hsim h2 hx
  refine ⟨_, τ, prims out, params_decode hp h1 ht, i2, ?_, (encode_prims out).symm⟩
  rw [i1.2, ho]; rfl

theorem fun_backward (hnm : Function.Injective nm) {f : TFun (ZMod p)} {g : ZFun (ZMod p) Z} (hw : f.Wt) (hsim : ∀ s ∈ f.body, s.Simultaneous nm)
    (hf : flatFun nm f = some g) {raw outs : List (ZMod p)} (h : Returns O g raw outs) :
    ∃ args, encodeL args = raw ∧ ((∃ out, ReturnsT O f args out ∧ encode out = outs) ∨ ∃ e, FaultsT O f args e) := by
  obtain ⟨h1, h2, h3⟩ := flatFun_some hf
  obtain ⟨vs, τ, rs, hd, hx, ho, he⟩ := h
  obtain ⟨args, ht, ha, hv⟩ := params_decoded h1 hw.params hd
  subst hv
  refine ⟨args, ha, ?_⟩
  rcases flatStmts_backward hnm (sim_init hnm hw h1 ht) hw.body hsim h2 hx with ⟨e, hx'⟩ | ⟨σ, τ', hx', hs, hr⟩
  · exact .inr ⟨e, ht, hx'⟩
  · cases hr
    rw [hs.2] at ho
    cases hout : σ.out with
    | none => rw [hout] at ho; simp at ho
    | some out =>
      rw [hout] at ho
      simp only [Option.map_some, Option.some.injEq] at ho
      exact .inl ⟨out, ⟨ht, σ, hx', hout⟩, by rw [encode_prims, ho, he]⟩

theorem fun_faults (hnm : Function.Injective nm) {f : TFun (ZMod p)} {g : ZFun (ZMod p) Z} (hw : f.Wt) (hsim : ∀ s ∈ f.body, s.Simultaneous nm)
    (hf : flatFun nm f = some g) {raw : List (ZMod p)} {e : Fault} (h : Faults O g raw e) : ∃ args e', encodeL args = raw ∧ FaultsT O f args e' := by
  obtain ⟨h1, h2, h3⟩ := flatFun_some hf
  obtain ⟨vs, hd, hx⟩ := h
  obtain ⟨args, ht, ha, hv⟩ := params_decoded h1 hw.params hd
  subst hv
  rcases flatStmts_backward hnm (sim_init hnm hw h1 ht) hw.body hsim h2 hx with ⟨e', hx'⟩ | ⟨σ, τ', hx', hs, hr⟩
  · exact ⟨args, e', ha, ht, hx'⟩
  · cases hr

end Zok.Typed
