import Verif.Model.FlattenTypes
import Verif.Spec.TypedEval
import Verif.Lemmas.Abi

namespace Zok.Typed
open Abi
variable {p : ℕ}

/-! ### Components of values -/

/-- The type of a primitive value. -/
def zty : ZVal p → ZType
  | .field _ => .field
  | .bool _ => .bool
  | .uint w _ => .uint w

mutual
theorem encode_prims : ∀ v : AVal (ZMod p), encode v = (prims v).map ZVal.enc
  | .field x => by simp [encode, prims, ZVal.enc]
  | .uint w n => by simp [encode, prims, ZVal.enc]
  | .bool b => by simp [encode, prims, ZVal.enc]
  | .array vs => by simp only [encode, prims]; exact encode_primsL vs
  | .tuple vs => by simp only [encode, prims]; exact encode_primsL vs
  | .struct ms => by simp only [encode, prims]; exact encode_primsM ms
theorem encode_primsL : ∀ vs : List (AVal (ZMod p)), encodeL vs = (primsL vs).map ZVal.enc
  | [] => rfl
  | v :: vs => by simp only [encodeL, primsL, List.map_append]; rw [encode_prims v, encode_primsL vs]
theorem encode_primsM : ∀ vs : List (Str × AVal (ZMod p)), encodeM vs = (primsM vs).map ZVal.enc
  | [] => rfl
  | (_, v) :: vs => by simp only [encodeM, primsM, List.map_append]; rw [encode_prims v, encode_primsM vs]
end

theorem prims_length {t : CType} {v : AVal (ZMod p)} {c : ℕ} (h : HasType t v) (hc : primCount t = some c) : (prims v).length = c := by
  have := encode_length t v c h hc
  rwa [encode_prims, List.length_map] at this

theorem primsL_length {ts : List CType} {vs : List (AVal (ZMod p))} {c : ℕ} (h : HasTypeL ts vs) (hc : primCountL ts = some c) :
    (primsL vs).length = c := by
  have := encodeL_length ts vs c h hc
  rwa [encode_primsL, List.length_map] at this

theorem primsL_append (a b : List (AVal (ZMod p))) : primsL (a ++ b) = primsL a ++ primsL b := by
  induction a with
  | nil => rfl
  | cons v a ih => simp [primsL, ih]

theorem primsL_eq (vs : List (AVal (ZMod p))) : primsL vs = vs.flatMap prims := by
  induction vs with
  | nil => rfl
  | cons v a ih => simp [primsL, ih]

mutual
/-- The types of the components of the values of a type. -/
def primTys : CType → List ZType
  | .int => []
  | .field => [.field]
  | .bool => [.bool]
  | .uint w => [.uint w.bits]
  | .array n t => (List.replicate n (primTys t)).flatten
  | .struct ms => primTysM ms
  | .tuple ts => primTysL ts
/-- For the elements of a tuple. -/
def primTysL : List CType → List ZType
  | [] => []
  | t :: ts => primTys t ++ primTysL ts
/-- For the members of a struct. -/
def primTysM : List (Str × CType) → List ZType
  | [] => []
  | (_, t) :: ts => primTys t ++ primTysM ts
end

mutual
theorem prims_ty : ∀ (t : CType) (v : AVal (ZMod p)), HasType t v → (prims v).map zty = primTys t
  | .int, v, h => by cases v <;> simp [HasType] at h
  | .field, v, h => by cases v <;> simp_all [HasType, prims, primTys, zty]
  | .bool, v, h => by cases v <;> simp_all [HasType, prims, primTys, zty]
  | .uint w, v, h => by cases v <;> simp_all [HasType, prims, primTys, zty]
  | .array n t, v, h => by
    cases v with
    | array vs =>
      simp only [HasType] at h
      obtain ⟨hl, hv⟩ := h
      subst hl
      simp only [prims, primTys]
      have : ∀ v ∈ vs, (prims v).map zty = primTys t := fun v hv' => prims_ty t v (hv v hv')
      clear hv
      induction vs with
      | nil => rfl
      | cons v vs ih =>
        simp only [primsL, List.map_append, List.length_cons, List.replicate_succ, List.flatten_cons]
        rw [ih (fun u hu => this u (List.mem_cons_of_mem _ hu)), this v List.mem_cons_self]
    | _ => simp [HasType] at h
  | .struct ms, v, h => by
    cases v with
    | struct fs =>
      simp only [HasType] at h
      simp only [prims, primTys]
      exact prims_tyM ms fs h
    | _ => simp [HasType] at h
  | .tuple ts, v, h => by
    cases v with
    | tuple fs =>
      simp only [HasType] at h
      simp only [prims, primTys]
      exact prims_tyL ts fs h
    | _ => simp [HasType] at h
theorem prims_tyL : ∀ (ts : List CType) (vs : List (AVal (ZMod p))), HasTypeL ts vs → (primsL vs).map zty = primTysL ts
  | [], [], _ => rfl
  | [], _ :: _, h => by simp [HasTypeL] at h
  | _ :: _, [], h => by simp [HasTypeL] at h
  | t :: ts, v :: vs, h => by
    simp only [HasTypeL] at h
    simp only [primsL, primTysL, List.map_append]
    rw [prims_ty t v h.1, prims_tyL ts vs h.2]
theorem prims_tyM : ∀ (ts : List (Str × CType)) (vs : List (Str × AVal (ZMod p))), HasTypeM ts vs → (primsM vs).map zty = primTysM ts
  | [], [], _ => rfl
  | [], _ :: _, h => by simp [HasTypeM] at h
  | _ :: _, [], h => by simp [HasTypeM] at h
  | (k, t) :: ts, (k', v) :: vs, h => by
    simp only [HasTypeM] at h
    simp only [primsM, primTysM, List.map_append]
    rw [prims_ty t v h.2.1, prims_tyM ts vs h.2.2]
end

theorem prims_len_eq {t : CType} {v w : AVal (ZMod p)} (hv : HasType t v) (hw : HasType t w) : (prims v).length = (prims w).length := by
  have h1 := congrArg List.length (prims_ty t v hv)
  have h2 := congrArg List.length (prims_ty t w hw)
  rw [List.length_map] at h1 h2
  rw [h1, h2]

mutual
theorem prims_inj : ∀ (t : CType) (v w : AVal (ZMod p)), HasType t v → HasType t w → prims v = prims w → v = w
  | .int, v, w, h, _, _ => by cases v <;> simp [HasType] at h
  | .field, v, w, h, h', he => by cases v <;> cases w <;> simp_all [HasType, prims]
  | .bool, v, w, h, h', he => by cases v <;> cases w <;> simp_all [HasType, prims]
  | .uint u, v, w, h, h', he => by cases v <;> cases w <;> simp_all [HasType, prims]
  | .array n t, v, w, h, h', he => by
    cases v with
    | array vs =>
      cases w with
      | array ws =>
        simp only [HasType] at h h'
        obtain ⟨hl, hv⟩ := h
        obtain ⟨hl', hw⟩ := h'
        simp only [prims] at he
        congr 1
        have inj : ∀ v ∈ vs, ∀ w ∈ ws, prims v = prims w → v = w := fun v h1 w h2 => prims_inj t v w (hv v h1) (hw w h2)
        have len : ∀ v ∈ vs, ∀ w ∈ ws, (prims v).length = (prims w).length := fun v h1 w h2 => prims_len_eq (hv v h1) (hw w h2)
        rw [← hl'] at hl
        clear hv hw hl'
        induction vs generalizing ws with
        | nil => cases ws with
          | nil => rfl
          | cons => simp at hl
        | cons v vs ih =>
          cases ws with
          | nil => simp at hl
          | cons w ws =>
            simp only [primsL] at he
            obtain ⟨h1, h2⟩ := List.append_inj he (len v List.mem_cons_self w List.mem_cons_self)
            rw [inj v List.mem_cons_self w List.mem_cons_self h1, ih ws h2 (by simpa using hl)
              (fun a ha b hb => inj a (List.mem_cons_of_mem _ ha) b (List.mem_cons_of_mem _ hb))
              (fun a ha b hb => len a (List.mem_cons_of_mem _ ha) b (List.mem_cons_of_mem _ hb))]
      | _ => simp [HasType] at h'
    | _ => simp [HasType] at h
  | .struct ms, v, w, h, h', he => by
    cases v with
    | struct vs => cases w with
      | struct ws =>
        simp only [HasType] at h h'
        simp only [prims] at he
        rw [prims_injM ms vs ws h h' he]
      | _ => simp [HasType] at h'
    | _ => simp [HasType] at h
  | .tuple ts, v, w, h, h', he => by
    cases v with
    | tuple vs => cases w with
      | tuple ws =>
        simp only [HasType] at h h'
        simp only [prims] at he
        rw [prims_injL ts vs ws h h' he]
      | _ => simp [HasType] at h'
    | _ => simp [HasType] at h
theorem prims_injL : ∀ (ts : List CType) (vs ws : List (AVal (ZMod p))), HasTypeL ts vs → HasTypeL ts ws → primsL vs = primsL ws → vs = ws
  | [], [], [], _, _, _ => rfl
  | [], _ :: _, _, h, _, _ => by simp [HasTypeL] at h
  | [], _, _ :: _, _, h, _ => by simp [HasTypeL] at h
  | _ :: _, [], _, h, _, _ => by simp [HasTypeL] at h
  | _ :: _, _, [], _, h, _ => by simp [HasTypeL] at h
  | t :: ts, v :: vs, w :: ws, h, h', he => by
    simp only [HasTypeL] at h h'
    simp only [primsL] at he
    obtain ⟨h1, h2⟩ := List.append_inj he (prims_len_eq h.1 h'.1)
    rw [prims_inj t v w h.1 h'.1 h1, prims_injL ts vs ws h.2 h'.2 h2]
theorem prims_injM : ∀ (ts : List (Str × CType)) (vs ws : List (Str × AVal (ZMod p))), HasTypeM ts vs → HasTypeM ts ws → primsM vs = primsM ws → vs = ws
  | [], [], [], _, _, _ => rfl
  | [], _ :: _, _, h, _, _ => by simp [HasTypeM] at h
  | [], _, _ :: _, _, h, _ => by simp [HasTypeM] at h
  | _ :: _, [], _, h, _, _ => by simp [HasTypeM] at h
  | _ :: _, _, [], _, h, _ => by simp [HasTypeM] at h
  | (k, t) :: ts, (k1, v) :: vs, (k2, w) :: ws, h, h', he => by
    simp only [HasTypeM] at h h'
    simp only [primsM] at he
    obtain ⟨h1, h2⟩ := List.append_inj he (prims_len_eq h.2.1 h'.2.1)
    rw [prims_inj t v w h.2.1 h'.2.1 h1, prims_injM ts vs ws h.2.2 h'.2.2 h2, h.1, h'.1]
end

/-! ### Names of components -/

mutual
/-- The names and the values of the components of a value. -/
def leaves : AVal (ZMod p) → SId → List (SId × ZVal p)
  | .field x, id => [(id, .field x)]
  | .uint w n, id => [(id, .uint w.bits n)]
  | .bool b, id => [(id, .bool b)]
  | .array vs, id => leavesA vs id 0
  | .tuple vs, id => leavesT vs id 0
  | .struct ms, id => leavesM ms id
/-- For the elements of an array. -/
def leavesA : List (AVal (ZMod p)) → SId → ℕ → List (SId × ZVal p)
  | [], _, _ => []
  | v :: vs, id, i => leaves v (.select id i) ++ leavesA vs id (i + 1)
/-- For the elements of a tuple. -/
def leavesT : List (AVal (ZMod p)) → SId → ℕ → List (SId × ZVal p)
  | [], _, _ => []
  | v :: vs, id, i => leaves v (.element id i) ++ leavesT vs id (i + 1)
/-- For the members of a struct. -/
def leavesM : List (Str × AVal (ZMod p)) → SId → List (SId × ZVal p)
  | [], _ => []
  | (m, v) :: vs, id => leaves v (.member id m) ++ leavesM vs id
end

mutual
theorem leaves_snd : ∀ (v : AVal (ZMod p)) (id : SId), (leaves v id).map Prod.snd = prims v
  | .field x, id => rfl
  | .uint w n, id => rfl
  | .bool b, id => rfl
  | .array vs, id => by simp only [leaves, prims]; exact leavesA_snd vs id 0
  | .tuple vs, id => by simp only [leaves, prims]; exact leavesT_snd vs id 0
  | .struct ms, id => by simp only [leaves, prims]; exact leavesM_snd ms id
theorem leavesA_snd : ∀ (vs : List (AVal (ZMod p))) (id : SId) (i : ℕ), (leavesA vs id i).map Prod.snd = primsL vs
  | [], _, _ => rfl
  | v :: vs, id, i => by simp only [leavesA, primsL, List.map_append]; rw [leaves_snd v, leavesA_snd vs]
theorem leavesT_snd : ∀ (vs : List (AVal (ZMod p))) (id : SId) (i : ℕ), (leavesT vs id i).map Prod.snd = primsL vs
  | [], _, _ => rfl
  | v :: vs, id, i => by simp only [leavesT, primsL, List.map_append]; rw [leaves_snd v, leavesT_snd vs]
theorem leavesM_snd : ∀ (vs : List (Str × AVal (ZMod p))) (id : SId), (leavesM vs id).map Prod.snd = primsM vs
  | [], _ => rfl
  | (m, v) :: vs, id => by simp only [leavesM, primsM, List.map_append]; rw [leaves_snd v, leavesM_snd vs]
end

/-- A component as a variable of ZIR. -/
def leafVar (q : SId × ZVal p) : SId × ZType := (q.1, zty q.2)

theorem concatO_cons {α : Type _} {o : Option (List α)} {os : List (Option (List α))} {l : List α} (h : concatO (o :: os) = some l) :
    ∃ a b, o = some a ∧ concatO os = some b ∧ l = a ++ b := by
  cases o with
  | none => simp [concatO] at h
  | some a =>
    cases hb : concatO os with
    | none => simp [concatO, hb] at h
    | some b => simp [concatO, hb] at h; exact ⟨a, b, rfl, rfl, h.symm⟩

mutual
theorem flatIds_leaves : ∀ (t : CType) (v : AVal (ZMod p)) (id : SId) (l : List (SId × ZType)), HasType t v → flatIds t id = some l →
    l = (leaves v id).map leafVar
  | .int, v, id, l, h, hl => by simp [flatIds] at hl
  | .field, v, id, l, h, hl => by cases v <;> simp_all [HasType, flatIds, leaves, leafVar, zty]
  | .bool, v, id, l, h, hl => by cases v <;> simp_all [HasType, flatIds, leaves, leafVar, zty]
  | .uint w, v, id, l, h, hl => by cases v <;> simp_all [HasType, flatIds, leaves, leafVar, zty]
  | .array n t, v, id, l, h, hl => by
    cases v with
    | array vs =>
      simp only [HasType] at h
      obtain ⟨hlen, hv⟩ := h
      simp only [flatIds, List.range_eq_range'] at hl
      simp only [leaves]
      have ih : ∀ v ∈ vs, ∀ id l, flatIds t id = some l → l = (leaves v id).map leafVar := fun v h1 id l => flatIds_leaves t v id l (hv v h1)
      clear hv
      generalize 0 = k at hl ⊢
      induction vs generalizing n k l with
      | nil =>
        simp only [List.length_nil] at hlen
        subst hlen
        simp [concatO] at hl
        simp [leavesA, hl]
      | cons v vs ih2 =>
        subst hlen
        rw [List.length_cons, List.range'_succ, List.map_cons] at hl
        obtain ⟨a, b, h1, h2, h3⟩ := concatO_cons hl
        rw [h3, ih v List.mem_cons_self _ _ h1, ih2 vs.length b rfl (fun u hu => ih u (List.mem_cons_of_mem _ hu)) (k + 1) h2]
        simp [leavesA]
    | _ => simp [HasType] at h
  | .struct ms, v, id, l, h, hl => by
    cases v with
    | struct fs =>
      simp only [HasType] at h
      simp only [flatIds] at hl
      simp only [leaves]
      exact flatIdsM_leaves ms fs id l h hl
    | _ => simp [HasType] at h
  | .tuple ts, v, id, l, h, hl => by
    cases v with
    | tuple fs =>
      simp only [HasType] at h
      simp only [flatIds] at hl
      simp only [leaves]
      exact flatIdsT_leaves ts fs id 0 l h hl
    | _ => simp [HasType] at h
theorem flatIdsT_leaves : ∀ (ts : List CType) (vs : List (AVal (ZMod p))) (id : SId) (i : ℕ) (l : List (SId × ZType)), HasTypeL ts vs →
    flatIdsT ts id i = some l → l = (leavesT vs id i).map leafVar
  | [], [], _, _, l, _, hl => by simp [flatIdsT] at hl; simp [leavesT, hl]
  | [], _ :: _, _, _, _, h, _ => by simp [HasTypeL] at h
  | _ :: _, [], _, _, _, h, _ => by simp [HasTypeL] at h
  | t :: ts, v :: vs, id, i, l, h, hl => by
    simp only [HasTypeL] at h
    simp only [flatIdsT] at hl
    cases h1 : flatIds t (.element id i) with
    | none => simp [h1] at hl
    | some a => cases h2 : flatIdsT ts id (i + 1) with
      | none => simp [h1, h2] at hl
      | some b =>
        simp only [h1, h2, Option.some.injEq] at hl
        rw [← hl, flatIds_leaves t v _ a h.1 h1, flatIdsT_leaves ts vs id (i + 1) b h.2 h2]
        simp [leavesT]
theorem flatIdsM_leaves : ∀ (ts : List (Str × CType)) (vs : List (Str × AVal (ZMod p))) (id : SId) (l : List (SId × ZType)), HasTypeM ts vs →
    flatIdsM ts id = some l → l = (leavesM vs id).map leafVar
  | [], [], _, l, _, hl => by simp [flatIdsM] at hl; simp [leavesM, hl]
  | [], _ :: _, _, _, h, _ => by simp [HasTypeM] at h
  | _ :: _, [], _, _, h, _ => by simp [HasTypeM] at h
  | (m, t) :: ts, (m', v) :: vs, id, l, h, hl => by
    simp only [HasTypeM] at h
    obtain ⟨hm, h3, h4⟩ := h
    subst hm
    simp only [flatIdsM] at hl
    cases h1 : flatIds t (.member id m') with
    | none => simp [h1] at hl
    | some a => cases h2 : flatIdsM ts id with
      | none => simp [h1, h2] at hl
      | some b =>
        simp only [h1, h2, Option.some.injEq] at hl
        rw [← hl, flatIds_leaves t v _ a h3 h1, flatIdsM_leaves ts vs id b h4 h2]
        simp [leavesM]
end

end Zok.Typed
