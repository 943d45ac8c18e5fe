import Verif.Spec.Semantics

/-
Lemmas on the type checker.
-/

set_option linter.unusedVariables false
set_option linter.unusedSimpArgs false

namespace Zok.Sem
open Typed Abi
variable {p : ℕ} {D : Decls} {G : Scope}

theorem toF_eq (op : BinOp) : op.toF = op.field := by cases op <;> rfl
theorem toU_eq (op : BinOp) : op.toU = op.uint := by cases op <;> rfl

/-! ### Types -/

/-- A type without `int`. -/
def NoInt (t : CType) : Prop := (primCount t).isSome

theorem noInt_array {n : ℕ} {t : CType} : NoInt (.array n t) ↔ NoInt t := by
  simp only [NoInt, primCount]
  cases primCount t <;> simp

theorem noIntL_cons {t : CType} {ts : List CType} : (primCountL (t :: ts)).isSome ↔ (primCount t).isSome ∧ (primCountL ts).isSome := by
  simp only [primCountL]
  cases primCount t <;> cases primCountL ts <;> simp

theorem noIntM_cons {m : Str} {t : CType} {ts : List (Str × CType)} : (primCountM ((m, t) :: ts)).isSome ↔ (primCount t).isSome ∧ (primCountM ts).isSome := by
  simp only [primCountM]
  cases primCount t <;> cases primCountM ts <;> simp

mutual
theorem shape_noInt : ∀ t : CType, (primCount t.shape).isSome ↔ (primCount t).isSome
  | .int => by simp [CType.shape, primCount]
  | .field => by simp [CType.shape, primCount]
  | .bool => by simp [CType.shape, primCount]
  | .uint _ => by simp [CType.shape, primCount]
  | .array n t => by
    rw [CType.shape]
    exact (noInt_array (n := 0)).trans ((shape_noInt t).trans (noInt_array (n := n)).symm)
  | .struct ms => by rw [CType.shape]; simp only [primCount]; exact shapeM_noInt ms
  | .tuple ts => by rw [CType.shape]; simp only [primCount]; exact shapeL_noInt ts
theorem shapeL_noInt : ∀ ts : List CType, (primCountL (shapeL ts)).isSome ↔ (primCountL ts).isSome
  | [] => by simp [shapeL]
  | t :: ts => by rw [shapeL, noIntL_cons, noIntL_cons, shape_noInt t, shapeL_noInt ts]
theorem shapeM_noInt : ∀ ts : List (Str × CType), (primCountM (shapeM ts)).isSome ↔ (primCountM ts).isSome
  | [] => by simp [shapeM]
  | (m, t) :: ts => by rw [shapeM, noIntM_cons, noIntM_cons, shape_noInt t, shapeM_noInt ts]
end

theorem Alike.noInt {t u : CType} (h : Alike t u) : NoInt t ↔ NoInt u := by
  unfold NoInt
  rw [← shape_noInt t, ← shape_noInt u, h]

theorem Alike.refl (t : CType) : Alike t t := rfl
theorem Alike.symm {t u : CType} (h : Alike t u) : Alike u t := Eq.symm h
theorem Alike.trans {t u v : CType} (h : Alike t u) (h' : Alike u v) : Alike t v := Eq.trans h h'

theorem alike_array {n m : ℕ} {t u : CType} : Alike (.array n t) (.array m u) ↔ Alike t u := by
  simp [Alike, CType.shape]

mutual
theorem unsized_shape : ∀ t : CType, (unsized t).shape = t.shape
  | .int => by simp [unsized]
  | .field => by simp [unsized]
  | .bool => by simp [unsized]
  | .uint _ => by simp [unsized]
  | .array n t => by simp [unsized, CType.shape, unsized_shape t]
  | .struct ms => by simp [unsized, CType.shape, unsizedM_shape ms]
  | .tuple ts => by simp [unsized, CType.shape, unsizedL_shape ts]
theorem unsizedL_shape : ∀ ts : List CType, shapeL (unsizedL ts) = shapeL ts
  | [] => by simp [unsizedL]
  | t :: ts => by simp [unsizedL, shapeL, unsized_shape t, unsizedL_shape ts]
theorem unsizedM_shape : ∀ ts : List (Str × CType), shapeM (unsizedM ts) = shapeM ts
  | [] => by simp [unsizedM]
  | (m, t) :: ts => by simp [unsizedM, shapeM, unsized_shape t, unsizedM_shape ts]
end

theorem eqTy_alike {x : Bool} {a b : CType} (h : eqTy x a b = true) : Alike a b := by
  unfold eqTy at h
  split at h
  · rw [of_decide_eq_true h]; exact Alike.refl b
  · have := of_decide_eq_true h
    exact (unsized_shape a).symm.trans ((congrArg CType.shape this).trans (unsized_shape b))

theorem shapeL_map (ts : List CType) : shapeL ts = ts.map CType.shape := by
  induction ts with
  | nil => rfl
  | cons t ts ih => simp [shapeL, ih]
theorem shapeM_map (ts : List (Str × CType)) : shapeM ts = ts.map fun q => ([], q.2.shape) := by
  induction ts with
  | nil => rfl
  | cons t ts ih => obtain ⟨m, t⟩ := t; simp [shapeM, ih]

theorem zip_alike {x : Bool} : ∀ {ts us : List CType}, ts.length = us.length → (ts.zip us).all (fun q => eqTy x q.2 q.1) = true →
    ts.map CType.shape = us.map CType.shape
  | [], [], _, _ => rfl
  | t :: ts, u :: us, hl, h => by
    simp only [List.zip_cons_cons, List.all_cons, Bool.and_eq_true] at h
    simp only [List.map_cons]
    rw [zip_alike (by simpa using hl) h.2, (eqTy_alike h.1).symm]

theorem keepAs_some {x : Bool} {e e' : KExpr (ZMod p)} {t : CType} (h : keepAs x e t = some e') : e' = e ∧ Alike e.ty t := by
  unfold keepAs at h
  split at h
  · rename_i n t0 m t1 he
    split at h
    · cases h
      rename_i h1
      rw [he]
      exact ⟨rfl, alike_array.2 (eqTy_alike h1).symm⟩
    · cases h
  · rename_i ms0 ms1 he
    split at h
    · cases h
      rename_i h1
      refine ⟨rfl, ?_⟩
      have := zip_alike (by simpa using h1.1) h1.2
      simp only [List.map_map] at this
      rw [he, Alike, CType.shape, CType.shape, shapeM_map, shapeM_map]
      congr 1
      have h2 := congrArg (List.map fun s => (([] : Str), s)) this
      simpa [List.map_map, Function.comp_def] using h2
    · cases h
  · rename_i ts0 ts1 he
    split at h
    · cases h
      rename_i h1
      refine ⟨rfl, ?_⟩
      rw [he, Alike, CType.shape, CType.shape, shapeL_map, shapeL_map, zip_alike h1.1 h1.2]
    · cases h
  · cases h

theorem typeOk_field : TypeOk .field := by simp [TypeOk, CType.Distinct, CType.Small, primCount]
theorem typeOk_bool' : TypeOk .bool := by simp [TypeOk, CType.Distinct, CType.Small, primCount]
theorem typeOk_uint (w : UW) : TypeOk (.uint w) := by simp [TypeOk, CType.Distinct, CType.Small, primCount]
theorem typeOk_array {n : ℕ} {t : CType} (h : TypeOk t) (hn : n < 2 ^ 32) : TypeOk (.array n t) :=
  ⟨⟨by simpa [CType.Distinct] using h.1.1, by simp only [CType.Small]; exact ⟨hn, h.1.2⟩⟩, noInt_array.2 h.2⟩
theorem typeOk_elem {n : ℕ} {t : CType} (h : TypeOk (.array n t)) : TypeOk t :=
  ⟨⟨by simpa [CType.Distinct] using h.1.1, (by have := h.1.2; simp only [CType.Small] at this; exact this.2)⟩, noInt_array.1 h.2⟩

theorem typeOk_tuple {ts : List CType} (h : ∀ t ∈ ts, TypeOk t) : TypeOk (.tuple ts) := by
  have h1 : DistinctL ts ∧ SmallL ts ∧ (primCountL ts).isSome := by
    induction ts with
    | nil => simp [DistinctL, SmallL, primCountL]
    | cons t ts ih =>
      obtain ⟨a, b, c⟩ := ih (fun u hu => h u (by simp [hu]))
      have ht := h t (by simp)
      exact ⟨by simp only [DistinctL]; exact ⟨ht.1.1, a⟩, by simp only [SmallL]; exact ⟨ht.1.2, b⟩, noIntL_cons.2 ⟨ht.2, c⟩⟩
  exact ⟨⟨by simpa only [CType.Distinct] using h1.1, by simpa only [CType.Small] using h1.2.1⟩, by simpa only [primCount] using h1.2.2⟩

theorem typeOk_get {ts : List CType} (h : TypeOk (.tuple ts)) : ∀ {i : ℕ} {t : CType}, ts[i]? = some t → TypeOk t := by
  obtain ⟨⟨h1, h2⟩, h3⟩ := h
  simp only [CType.Distinct] at h1
  simp only [CType.Small] at h2
  simp only [primCount] at h3
  induction ts with
  | nil => intro i t h; simp at h
  | cons u ts ih =>
    simp only [DistinctL] at h1
    simp only [SmallL] at h2
    rw [noIntL_cons] at h3
    intro i t h
    cases i with
    | zero => simp only [List.getElem?_cons_zero, Option.some.injEq] at h; subst h; exact ⟨⟨h1.1, h2.1⟩, h3.1⟩
    | succ i => exact ih h3.2 h1.2 h2.2 (by simpa using h)

theorem typeOk_mem {ms : List (Str × CType)} (h : TypeOk (.struct ms)) : ∀ {m : Str} {t : CType}, (m, t) ∈ ms → TypeOk t := by
  obtain ⟨⟨h1, h2⟩, h3⟩ := h
  simp only [CType.Distinct] at h1
  replace h1 := h1.2
  simp only [CType.Small] at h2
  simp only [primCount] at h3
  induction ms with
  | nil => intro m t h; simp at h
  | cons q ms ih =>
    obtain ⟨m', u⟩ := q
    simp only [DistinctM] at h1
    simp only [SmallM] at h2
    rw [noIntM_cons] at h3
    intro m t h
    rcases List.mem_cons.1 h with h | h
    · cases h; exact ⟨⟨h1.1, h2.1⟩, h3.1⟩
    · exact ih h3.2 h2.2 h1.2 h

theorem lookup_mem {β : Type} {m : Str} {b : β} : ∀ {l : List (Str × β)}, l.lookup m = some b → (m, b) ∈ l
  | [], h => by simp at h
  | (k, c) :: l, h => by
    rw [List.lookup_cons] at h
    split at h
    · rename_i hk
      cases h
      rw [beq_iff_eq] at hk
      simp [hk]
    · exact List.mem_cons_of_mem _ (lookup_mem h)

/-! ### Final expressions -/

/-- There is a typed expression, which is a reading of the source. -/
def FinE (D : Decls) (G : Scope) (k : KExpr (ZMod p)) (s : SExpr) : Prop :=
  ∃ e, toT k = some e ∧ e.ty = k.ty ∧ Reads D G s e ∧ (Agree e → e.Wt ∧ TypeOk e.ty)

/-- The same for elements and spreads of an array with elements of type like `t`. -/
def FinES (D : Decls) (G : Scope) (t : CType) (ks : List (KSpread (ZMod p))) (ss : List SSpread) : Prop :=
  ∃ es, toTS ks = some es ∧ ReadsS D G ss es ∧ (AgreeS t es → WtS t es ∧ spreadCount t es (ks.map KSpread.size).sum ∧ (ks ≠ [] → TypeOk t))

/-- The same for lists of expressions with types like `ts`. -/
def FinEL (D : Decls) (G : Scope) (ts : List CType) (ks : List (KExpr (ZMod p))) (ss : List SExpr) : Prop :=
  ∃ es, toTL ks = some es ∧ ReadsL D G ss es ∧ es.map TExpr.ty = ks.map KExpr.ty ∧
    (AgreeL ts es → WtL es ∧ es.map TExpr.ty = ts ∧ ∀ t ∈ ts, TypeOk t)

/-- The same for the members of a struct. -/
def FinEM (D : Decls) (G : Scope) (names : List Str) (ss : List SExpr) (ms : List (Str × CType)) (ks : List (KExpr (ZMod p))) : Prop :=
  ∃ es, toTL ks = some es ∧ ReadsM D G names ss ms es ∧ es.map TExpr.ty = ks.map KExpr.ty ∧
    (AgreeL (ms.map Prod.snd) es → WtL es ∧ es.map TExpr.ty = ms.map Prod.snd)

theorem finE_un {op : UnOp} {k : KExpr (ZMod p)} {s : SExpr} {t : CType} (h : FinE D G k s) (ht : k.ty = t)
    (ho : (t = .field ∧ op ≠ .not) ∨ (∃ w, t = .uint w) ∨ (t = .bool ∧ op = .not)) : FinE D G (.un op t k) (.un op s) := by
  obtain ⟨e, h1, h2, h3, h4⟩ := h
  rw [ht] at h2
  rcases ho with ⟨rfl, ho⟩ | ⟨w, rfl⟩ | ⟨rfl, rfl⟩
  · cases op with
    | neg => exact ⟨.fneg e, by simp [toT, h1], rfl, .fneg h3, fun ha => ⟨⟨h2, (h4 ha).1⟩, typeOk_field⟩⟩
    | pos => exact ⟨.fpos e, by simp [toT, h1], rfl, .fpos h3, fun ha => ⟨⟨h2, (h4 ha).1⟩, typeOk_field⟩⟩
    | not => exact absurd rfl ho
  · cases op with
    | neg => exact ⟨.uneg w e, by simp [toT, h1], rfl, .uneg h3, fun ha => ⟨⟨h2, (h4 ha).1⟩, typeOk_uint w⟩⟩
    | pos => exact ⟨.upos w e, by simp [toT, h1], rfl, .upos h3, fun ha => ⟨⟨h2, (h4 ha).1⟩, typeOk_uint w⟩⟩
    | not => exact ⟨.unot w e, by simp [toT, h1], rfl, .unot h3, fun ha => ⟨⟨h2, (h4 ha).1⟩, typeOk_uint w⟩⟩
  · exact ⟨.bnot e, by simp [toT, h1], rfl, .bnot h3, fun ha => ⟨⟨h2, (h4 ha).1⟩, typeOk_bool'⟩⟩

theorem finE_bin {op : BinOp} {k1 k2 : KExpr (ZMod p)} {s1 s2 : SExpr} {t : CType} (h : FinE D G k1 s1) (h' : FinE D G k2 s2) (ht : k1.ty = t) (ht' : k2.ty = t)
    (ho : (t = .field ∧ op ≠ .rem) ∨ (∃ w, t = .uint w)) : FinE D G (.bin op t k1 k2) (.bin op s1 s2) := by
  obtain ⟨e, h1, h2, h3, h4⟩ := h
  obtain ⟨e', h1', h2', h3', h4'⟩ := h'
  rw [ht] at h2
  rw [ht'] at h2'
  rcases ho with ⟨rfl, ho⟩ | ⟨w, rfl⟩
  · obtain ⟨o, hop⟩ : ∃ o, op.toF = some o := by cases op <;> simp_all [BinOp.toF]
    exact ⟨.fbin o e e', by simp [toT, h1, h1', hop], rfl, .fbin (by rw [← toF_eq, hop]) h3 h3',
      fun ha => ⟨⟨h2, h2', (h4 ha.1).1, (h4' ha.2).1⟩, typeOk_field⟩⟩
  · have hr : op.toU.rightWidth w = w := by cases op <;> rfl
    exact ⟨.ubin w op.toU e e', by simp [toT, h1, h1'], rfl, by rw [toU_eq]; exact .ubin h3 h3',
      fun ha => ⟨⟨h2, by rw [h2', hr], (h4 ha.1).1, (h4' ha.2).1⟩, typeOk_uint w⟩⟩

/-- `&&` of integer literals. -/
theorem finE_band {k1 k2 : KExpr (ZMod p)} {s1 s2 : SExpr} {t : CType} (h : FinE D G k1 s1) (h' : FinE D G k2 s2) (ht : k1.ty = t) (ht' : k2.ty = t)
    (ho : t = .field ∨ (∃ w, t = .uint w)) : FinE D G (.bin .band t k1 k2) (.logic .and s1 s2) := by
  obtain ⟨e, h1, h2, h3, h4⟩ := h
  obtain ⟨e', h1', h2', h3', h4'⟩ := h'
  rw [ht] at h2
  rw [ht'] at h2'
  rcases ho with rfl | ⟨w, rfl⟩
  · exact ⟨.fbin .and e e', by simp [toT, h1, h1', BinOp.toF], rfl, .logicF h3 h3', fun ha => ⟨⟨h2, h2', (h4 ha.1).1, (h4' ha.2).1⟩, typeOk_field⟩⟩
  · exact ⟨.ubin w .and e e', by simp [toT, h1, h1', BinOp.toU], rfl, .logicU h3 h3',
      fun ha => ⟨⟨h2, h2', (h4 ha.1).1, (h4' ha.2).1⟩, typeOk_uint w⟩⟩

theorem finE_sh {op : ShOp} {k1 k2 : KExpr (ZMod p)} {s1 s2 : SExpr} {t : CType} (h : FinE D G k1 s1) (h' : FinE D G k2 s2) (ht : k1.ty = t) (ht' : k2.ty = .uint .b32)
    (ho : t = .field ∨ ((∃ w, t = .uint w) ∧ op ≠ .pow)) : FinE D G (.sh op t k1 k2) (.sh op s1 s2) := by
  obtain ⟨e, h1, h2, h3, h4⟩ := h
  obtain ⟨e', h1', h2', h3', h4'⟩ := h'
  rw [ht] at h2
  rw [ht'] at h2'
  rcases ho with rfl | ⟨⟨w, rfl⟩, ho⟩
  · cases op with
    | pow => exact ⟨.fubin .pow e e', by simp [toT, h1, h1'], rfl, .fpow h3 h3', fun ha => ⟨⟨h2, h2', (h4 ha.1).1, (h4' ha.2).1⟩, typeOk_field⟩⟩
    | shl => exact ⟨.fubin .shl e e', by simp [toT, h1, h1'], rfl, .fshl h3 h3', fun ha => ⟨⟨h2, h2', (h4 ha.1).1, (h4' ha.2).1⟩, typeOk_field⟩⟩
    | shr => exact ⟨.fubin .shr e e', by simp [toT, h1, h1'], rfl, .fshr h3 h3', fun ha => ⟨⟨h2, h2', (h4 ha.1).1, (h4' ha.2).1⟩, typeOk_field⟩⟩
  · cases op with
    | pow => exact absurd rfl ho
    | shl => exact ⟨.ubin w .shl e e', by simp [toT, h1, h1'], rfl, .ushl h3 h3', fun ha => ⟨⟨h2, h2', (h4 ha.1).1, (h4' ha.2).1⟩, typeOk_uint w⟩⟩
    | shr => exact ⟨.ubin w .shr e e', by simp [toT, h1, h1'], rfl, .ushr h3 h3', fun ha => ⟨⟨h2, h2', (h4 ha.1).1, (h4' ha.2).1⟩, typeOk_uint w⟩⟩

theorem finE_logic {op : BOp} {k1 k2 : KExpr (ZMod p)} {s1 s2 : SExpr} (h : FinE D G k1 s1) (h' : FinE D G k2 s2) (ht : k1.ty = .bool) (ht' : k2.ty = .bool) :
    FinE D G (.logic op k1 k2) (.logic op s1 s2) := by
  obtain ⟨e, h1, h2, h3, h4⟩ := h
  obtain ⟨e', h1', h2', h3', h4'⟩ := h'
  exact ⟨.bbin op e e', by simp [toT, h1, h1'], rfl, .logic h3 h3', fun ha => ⟨⟨h2.trans ht, h2'.trans ht', (h4 ha.1).1, (h4' ha.2).1⟩, typeOk_bool'⟩⟩

/-- The typed comparison. -/
def relK (op : RelOp) (a b : KExpr (ZMod p)) : KExpr (ZMod p) := match op with
  | .lt => .cmp .lt a b
  | .le => .cmp .le a b
  | .gt => .cmp .lt b a
  | .ge => .cmp .le b a

theorem finE_rel {op : RelOp} {k1 k2 : KExpr (ZMod p)} {s1 s2 : SExpr} (h : FinE D G k1 s1) (h' : FinE D G k2 s2) (ht : relTy k1.ty k2.ty = true) :
    FinE D G (relK op k1 k2) (.rel op s1 s2) := by
  obtain ⟨e, h1, h2, h3, h4⟩ := h
  obtain ⟨e', h1', h2', h3', h4'⟩ := h'
  have hc : (k1.ty = .field ∧ k2.ty = .field) ∨ ∃ w, k1.ty = .uint w ∧ k2.ty = .uint w := by
    unfold relTy at ht
    split at ht
    · exact .inl ⟨by assumption, by assumption⟩
    · rename_i w w' ha hb
      rw [of_decide_eq_true ht] at ha
      exact .inr ⟨w', ha, hb⟩
    · cases ht
  rcases hc with ⟨hf, hf'⟩ | ⟨w, hf, hf'⟩
  · cases op
    · exact ⟨.fcmp .lt e e', by simp [relK, toT, h1, h1', hf], rfl, .flt h3 h3', fun ha => ⟨⟨h2.trans hf, h2'.trans hf', (h4 ha.1).1, (h4' ha.2).1⟩, typeOk_bool'⟩⟩
    · exact ⟨.fcmp .le e e', by simp [relK, toT, h1, h1', hf], rfl, .fle h3 h3', fun ha => ⟨⟨h2.trans hf, h2'.trans hf', (h4 ha.1).1, (h4' ha.2).1⟩, typeOk_bool'⟩⟩
    · exact ⟨.fcmp .lt e' e, by simp [relK, toT, h1, h1', hf'], rfl, .fgt h3 h3', fun ha => ⟨⟨h2'.trans hf', h2.trans hf, (h4' ha.1).1, (h4 ha.2).1⟩, typeOk_bool'⟩⟩
    · exact ⟨.fcmp .le e' e, by simp [relK, toT, h1, h1', hf'], rfl, .fge h3 h3', fun ha => ⟨⟨h2'.trans hf', h2.trans hf, (h4' ha.1).1, (h4 ha.2).1⟩, typeOk_bool'⟩⟩
  · cases op
    · exact ⟨.ucmp .lt e e', by simp [relK, toT, h1, h1', hf], rfl, .ult h3 h3', fun ha => ⟨⟨⟨w, h2.trans hf, h2'.trans hf'⟩, (h4 ha.1).1, (h4' ha.2).1⟩, typeOk_bool'⟩⟩
    · exact ⟨.ucmp .le e e', by simp [relK, toT, h1, h1', hf], rfl, .ule h3 h3', fun ha => ⟨⟨⟨w, h2.trans hf, h2'.trans hf'⟩, (h4 ha.1).1, (h4' ha.2).1⟩, typeOk_bool'⟩⟩
    · exact ⟨.ucmp .lt e' e, by simp [relK, toT, h1, h1', hf'], rfl, .ugt h3 h3', fun ha => ⟨⟨⟨w, h2'.trans hf', h2.trans hf⟩, (h4' ha.1).1, (h4 ha.2).1⟩, typeOk_bool'⟩⟩
    · exact ⟨.ucmp .le e' e, by simp [relK, toT, h1, h1', hf'], rfl, .uge h3 h3', fun ha => ⟨⟨⟨w, h2'.trans hf', h2.trans hf⟩, (h4' ha.1).1, (h4 ha.2).1⟩, typeOk_bool'⟩⟩

theorem finE_eq {k1 k2 : KExpr (ZMod p)} {s1 s2 : SExpr} (h : FinE D G k1 s1) (h' : FinE D G k2 s2) (ht : Alike k1.ty k2.ty) :
    FinE D G (.eq k1 k2) (.eq s1 s2) := by
  obtain ⟨e, h1, h2, h3, h4⟩ := h
  obtain ⟨e', h1', h2', h3', h4'⟩ := h'
  exact ⟨.eq e e', by simp [toT, h1, h1'], rfl, .eq h3 h3',
    fun ha => ⟨⟨ha.1 (by rw [h2, h2']; exact ht), (h4 ha.2.1).2, (h4 ha.2.1).1, (h4' ha.2.2).1⟩, typeOk_bool'⟩⟩

theorem finE_cond {k k1 k2 : KExpr (ZMod p)} {s s1 s2 : SExpr} {t : CType} (hc : FinE D G k s) (h : FinE D G k1 s1) (h' : FinE D G k2 s2) (hk : k.ty = .bool)
    (h1t : k1.ty = t) (ht : Alike k1.ty k2.ty ∨ (k1.ty.IsUint ∧ k2.ty.IsUint)) : FinE D G (.cond t k k1 k2) (.cond s s1 s2) := by
  obtain ⟨e0, h10, h20, h30, h40⟩ := hc
  obtain ⟨e, h1, h2, h3, h4⟩ := h
  obtain ⟨e', h1', h2', h3', h4'⟩ := h'
  refine ⟨.cond t e0 e e', by simp [toT, h1, h1', h10], rfl, .cond h30 h3 h3', fun ha => ?_⟩
  simp only [Agree] at ha
  have := ha.1 (by rw [h2, h2']; exact ht)
  refine ⟨⟨h20.trans hk, h2.trans h1t, (this ▸ h2).trans h1t, (h40 ha.2.1).1, (h4 ha.2.2.1).1, (h4' ha.2.2.2).1⟩, ?_⟩
  have := (h4 ha.2.2.1).2
  rw [h2, h1t] at this
  exact this

theorem finE_select {k1 k2 : KExpr (ZMod p)} {s1 s2 : SExpr} {t : CType} {n : ℕ} (h : FinE D G k1 s1) (h' : FinE D G k2 s2) (ht : k1.ty = .array n t)
    (ht' : k2.ty = .uint .b32) : FinE D G (.select t k1 k2) (.select s1 s2) := by
  obtain ⟨e, h1, h2, h3, h4⟩ := h
  obtain ⟨e', h1', h2', h3', h4'⟩ := h'
  refine ⟨.select t e e', by simp [toT, h1, h1'], rfl, .select h3 h3', fun ha => ⟨⟨⟨n, h2.trans ht⟩, h2'.trans ht', (h4 ha.1).1, (h4' ha.2).1⟩, ?_⟩⟩
  have := (h4 ha.1).2
  rw [h2, ht] at this
  exact typeOk_elem this

theorem finE_element {k : KExpr (ZMod p)} {s : SExpr} {t : CType} {ts : List CType} {i : ℕ} (h : FinE D G k s) (ht : k.ty = .tuple ts) (hi : ts[i]? = some t) :
    FinE D G (.element t k i) (.element s i) := by
  obtain ⟨e, h1, h2, h3, h4⟩ := h
  refine ⟨.element t e i, by simp [toT, h1], rfl, .element h3, fun ha => ⟨⟨⟨ts, h2.trans ht, hi⟩, (h4 ha.2).1⟩, ?_⟩⟩
  have := (h4 ha.2).2
  rw [h2, ht] at this
  exact typeOk_get this hi

theorem finE_member {k : KExpr (ZMod p)} {s : SExpr} {t : CType} {ms : List (Str × CType)} {m : Str} (h : FinE D G k s) (ht : k.ty = .struct ms)
    (hm : ms.lookup m = some t) : FinE D G (.member t k m) (.member s m) := by
  obtain ⟨e, h1, h2, h3, h4⟩ := h
  refine ⟨.member t e m, by simp [toT, h1], rfl, .member h3, fun ha => ⟨⟨⟨ms, h2.trans ht, hm⟩, (h4 ha).1⟩, ?_⟩⟩
  have := (h4 ha).2
  rw [h2, ht] at this
  exact typeOk_mem this (lookup_mem hm)

theorem finE_array {t : CType} {ks : List (KSpread (ZMod p))} {ss : List SSpread} {n : ℕ} (h : FinES D G t ks ss) (h0 : ks ≠ [])
    (hn : n = (ks.map KSpread.size).sum % 2 ^ 32) : FinE D G (.array t n ks) (.array ss) := by
  obtain ⟨es, h1, h2, h3⟩ := h
  refine ⟨.array t n es, by simp [toT, h1], rfl, .array h2, fun ha => ?_⟩
  simp only [Agree] at ha
  obtain ⟨h4, h5, h6⟩ := h3 ha.1
  have hlt := ha.2 _ h5
  rw [Nat.mod_eq_of_lt hlt] at hn
  subst hn
  exact ⟨⟨h6 h0, h5, h4⟩, typeOk_array (h6 h0) hlt⟩

theorem finE_repeat {k : KExpr (ZMod p)} {s c : SExpr} {n : ℕ} (h : FinE D G k s) (hc : Reads (p := p) D G c (.uval .b32 n)) (hn : n < 2 ^ 32) :
    FinE D G (.repeat_ k.ty n k (.uval .b32 n)) (.repeat_ s c) := by
  obtain ⟨e, h1, h2, h3, h4⟩ := h
  refine ⟨.repeat_ k.ty n e (.uval .b32 n), by simp [toT, h1], rfl, .repeat_ h3 hc, fun ha => ?_⟩
  simp only [Agree] at ha
  have h5 := h4 ha.1
  rw [h2] at h5
  exact ⟨⟨⟨h5.2, h2⟩, rfl, h5.1⟩, typeOk_array h5.2 hn⟩

theorem finE_fval {n : ℕ} {s : SExpr} (h : Reads (p := p) D G s (.fval n)) : FinE (p := p) D G (.fval n) s :=
  ⟨.fval n, by simp [toT], rfl, h, fun _ => ⟨trivial, typeOk_field⟩⟩
theorem finE_uval {w : UW} {n : ℕ} {s : SExpr} (h : Reads (p := p) D G s (.uval w n)) (hn : n < 2 ^ w.bits) : FinE (p := p) D G (.uval w n) s :=
  ⟨.uval w n, by simp [toT], rfl, h, fun _ => ⟨hn, typeOk_uint w⟩⟩

theorem shapeL_length {ts us : List CType} (h : shapeL ts = shapeL us) : ts.length = us.length := by
  have := congrArg List.length h
  simpa [shapeL_map] using this

theorem finEL_nil : FinEL (p := p) D G [] [] [] := ⟨[], by simp [toTL], .nil, rfl, fun _ => ⟨trivial, rfl, by simp⟩⟩
theorem finEL_cons {t : CType} {ts : List CType} {k : KExpr (ZMod p)} {ks : List (KExpr (ZMod p))} {s : SExpr} {ss : List SExpr} (h : FinE D G k s) (ht : Alike k.ty t)
    (h' : FinEL D G ts ks ss) : FinEL D G (t :: ts) (k :: ks) (s :: ss) := by
  obtain ⟨e, h1, h2, h3, h4⟩ := h
  obtain ⟨es, h1', h3', h2', h4'⟩ := h'
  refine ⟨e :: es, by simp [toTL, h1, h1'], .cons h3 h3', by simp [h2, h2'], fun ha => ?_⟩
  simp only [AgreeL] at ha
  have e1 := ha.1 (h2 ▸ ht)
  obtain ⟨a, b, c⟩ := h4' ha.2.2
  have e2 := h4 ha.2.1
  refine ⟨⟨e2.1, a⟩, by simp [e1, b], ?_⟩
  intro u hu
  rcases List.mem_cons.1 hu with rfl | hu
  · exact e1 ▸ e2.2
  · exact c u hu

theorem finE_tuple {ks : List (KExpr (ZMod p))} {ss : List SExpr} (h : FinEL D G (ks.map KExpr.ty) ks ss) : FinE D G (.tuple (ks.map KExpr.ty) ks) (.tuple ss) := by
  obtain ⟨es, h1, h3, h2, h4⟩ := h
  refine ⟨.tuple (ks.map KExpr.ty) es, by simp [toT, h1], rfl, .tuple h3, fun ha => ?_⟩
  simp only [Agree, h2] at ha
  obtain ⟨a, b, c⟩ := h4 ha
  exact ⟨⟨h2, a⟩, typeOk_tuple c⟩

theorem finEM_nil {names : List Str} {ss : List SExpr} : FinEM (p := p) D G names ss [] [] := ⟨[], by simp [toTL], .nil, rfl, fun _ => ⟨trivial, rfl⟩⟩
theorem finEM_cons {names : List Str} {ss : List SExpr} {m : Str} {t : CType} {ms : List (Str × CType)} {k : KExpr (ZMod p)} {ks : List (KExpr (ZMod p))} {s : SExpr}
    (hl : (names.zip ss).lookup m = some s) (h : FinE D G k s) (ht : Alike k.ty t) (h' : FinEM D G names ss ms ks) : FinEM D G names ss ((m, t) :: ms) (k :: ks) := by
  obtain ⟨e, h1, h2, h3, h4⟩ := h
  obtain ⟨es, h1', h3', h2', h4'⟩ := h'
  refine ⟨e :: es, by simp [toTL, h1, h1'], .cons hl h3 h3', by simp [h2, h2'], fun ha => ?_⟩
  simp only [AgreeL, List.map_cons] at ha
  have e1 := ha.1 (h2 ▸ ht)
  obtain ⟨a, b⟩ := h4' ha.2.2
  exact ⟨⟨(h4 ha.2.1).1, a⟩, by simp [e1, b]⟩

theorem finE_struct {name : Str} {names : List Str} {ss : List SExpr} {ms : List (Str × CType)} {ks : List (KExpr (ZMod p))} (hD : D name = some ms)
    (hn : ms.length = names.length) (hok : TypeOk (.struct ms)) (h : FinEM D G names ss ms ks) : FinE D G (.struct ms ks) (.struct name names ss) := by
  obtain ⟨es, h1, h3, h2, h4⟩ := h
  refine ⟨.struct ms es, by simp [toT, h1], rfl, .struct hD hn h3, fun ha => ?_⟩
  simp only [Agree] at ha
  obtain ⟨a, b⟩ := h4 ha
  have hd := hok.1.1
  simp only [CType.Distinct] at hd
  exact ⟨⟨hd.1, b, a⟩, hok⟩

theorem finES_nil {t : CType} : FinES (p := p) D G t [] [] := ⟨[], by simp [toTS], .nil, fun _ => ⟨trivial, rfl, fun h => absurd rfl h⟩⟩
theorem finES_expr {t : CType} {k : KExpr (ZMod p)} {ks : List (KSpread (ZMod p))} {s : SExpr} {ss : List SSpread} (h : FinE D G k s) (ht : Alike k.ty t)
    (h' : FinES D G t ks ss) : FinES D G t (.expr k :: ks) (.expr s :: ss) := by
  obtain ⟨e, h1, h2, h3, h4⟩ := h
  obtain ⟨es, h1', h3', h4'⟩ := h'
  refine ⟨.expr e :: es, by simp [toTS, h1, h1'], .expr h3 h3', fun ha => ?_⟩
  simp only [AgreeS] at ha
  have e1 := ha.1 (h2 ▸ ht)
  obtain ⟨a, b, _⟩ := h4' ha.2.2
  have e2 := h4 ha.2.1
  exact ⟨⟨⟨e1, e2.1⟩, a⟩, ⟨_, by simp [KSpread.size, Nat.add_comm], b⟩, fun _ => e1 ▸ e2.2⟩
theorem finES_spread {t u : CType} {n : ℕ} {k : KExpr (ZMod p)} {ks : List (KSpread (ZMod p))} {s : SExpr} {ss : List SSpread} (h : FinE D G k s)
    (hk : k.ty = .array n u) (ht : Alike u t) (h' : FinES D G t ks ss) : FinES D G t (.spread k :: ks) (.spread s :: ss) := by
  obtain ⟨e, h1, h2, h3, h4⟩ := h
  obtain ⟨es, h1', h3', h4'⟩ := h'
  refine ⟨.spread e :: es, by simp [toTS, h1, h1'], .spread h3 h3', fun ha => ?_⟩
  simp only [AgreeS] at ha
  rw [hk] at h2
  have e1 := ha.1 n u h2 ht
  subst e1
  obtain ⟨a, b, _⟩ := h4' ha.2.2
  have e2 := h4 ha.2.1
  refine ⟨⟨e2.1, a⟩, ⟨n, _, h2, by simp [KSpread.size, hk], b⟩, fun _ => ?_⟩
  have := e2.2
  rw [h2] at this
  exact typeOk_elem this

/-- The checker leaves an integer literal without type in the expression, or it is final. -/
def Fin (D : Decls) (G : Scope) (k : KExpr (ZMod p)) (s : SExpr) : Prop := toT k = none ∨ FinE D G k s
/-- For lists. -/
def FinL (D : Decls) (G : Scope) (ts : List CType) (ks : List (KExpr (ZMod p))) (ss : List SExpr) : Prop := toTL ks = none ∨ FinEL D G ts ks ss
/-- For members. -/
def FinM (D : Decls) (G : Scope) (names : List Str) (ss : List SExpr) (ms : List (Str × CType)) (ks : List (KExpr (ZMod p))) : Prop :=
  toTL ks = none ∨ FinEM D G names ss ms ks
/-- For elements and spreads. -/
def FinS (D : Decls) (G : Scope) (t : CType) (ks : List (KSpread (ZMod p))) (ss : List SSpread) : Prop := toTS ks = none ∨ FinES D G t ks ss

theorem fin_un {op : UnOp} {k : KExpr (ZMod p)} {s : SExpr} {t : CType} (h : Fin D G k s) (ht : k.ty = t)
    (ho : (t = .field ∧ op ≠ .not) ∨ (∃ w, t = .uint w) ∨ (t = .bool ∧ op = .not)) : Fin D G (.un op t k) (.un op s) := by
  rcases h with h | h
  · refine .inl ?_
    simp [toT, toTL, toTS, h]
  exact .inr (finE_un h ht ho)

theorem fin_bin {op : BinOp} {k1 k2 : KExpr (ZMod p)} {s1 s2 : SExpr} {t : CType} (h : Fin D G k1 s1) (h' : Fin D G k2 s2) (ht : k1.ty = t) (ht' : k2.ty = t)
    (ho : (t = .field ∧ op ≠ .rem) ∨ (∃ w, t = .uint w)) : Fin D G (.bin op t k1 k2) (.bin op s1 s2) := by
  rcases h with h | h
  · refine .inl ?_
    simp [toT, toTL, toTS, h]
  rcases h' with h' | h'
  · refine .inl ?_
    simp [toT, toTL, toTS, h']
  exact .inr (finE_bin h h' ht ht' ho)

theorem fin_band {k1 k2 : KExpr (ZMod p)} {s1 s2 : SExpr} {t : CType} (h : Fin D G k1 s1) (h' : Fin D G k2 s2) (ht : k1.ty = t) (ht' : k2.ty = t)
    (ho : t = .field ∨ (∃ w, t = .uint w)) : Fin D G (.bin .band t k1 k2) (.logic .and s1 s2) := by
  rcases h with h | h
  · refine .inl ?_
    simp [toT, toTL, toTS, h]
  rcases h' with h' | h'
  · refine .inl ?_
    simp [toT, toTL, toTS, h']
  exact .inr (finE_band h h' ht ht' ho)

theorem fin_sh {op : ShOp} {k1 k2 : KExpr (ZMod p)} {s1 s2 : SExpr} {t : CType} (h : Fin D G k1 s1) (h' : Fin D G k2 s2) (ht : k1.ty = t) (ht' : k2.ty = .uint .b32)
    (ho : t = .field ∨ ((∃ w, t = .uint w) ∧ op ≠ .pow)) : Fin D G (.sh op t k1 k2) (.sh op s1 s2) := by
  rcases h with h | h
  · refine .inl ?_
    simp [toT, toTL, toTS, h]
  rcases h' with h' | h'
  · refine .inl ?_
    simp [toT, toTL, toTS, h']
  exact .inr (finE_sh h h' ht ht' ho)

theorem fin_logic {op : BOp} {k1 k2 : KExpr (ZMod p)} {s1 s2 : SExpr} (h : Fin D G k1 s1) (h' : Fin D G k2 s2) (ht : k1.ty = .bool) (ht' : k2.ty = .bool) :
    Fin D G (.logic op k1 k2) (.logic op s1 s2) := by
  rcases h with h | h
  · refine .inl ?_
    simp [toT, toTL, toTS, h]
  rcases h' with h' | h'
  · refine .inl ?_
    simp [toT, toTL, toTS, h']
  exact .inr (finE_logic h h' ht ht')

theorem fin_rel {op : RelOp} {k1 k2 : KExpr (ZMod p)} {s1 s2 : SExpr} (h : Fin D G k1 s1) (h' : Fin D G k2 s2) (ht : relTy k1.ty k2.ty = true) :
    Fin D G (relK op k1 k2) (.rel op s1 s2) := by
  rcases h with h | h
  · refine .inl ?_
    cases op <;> simp [relK, toT, h]
  rcases h' with h' | h'
  · refine .inl ?_
    cases op <;> simp [relK, toT, h']
  exact .inr (finE_rel h h' ht)

theorem fin_eq {k1 k2 : KExpr (ZMod p)} {s1 s2 : SExpr} (h : Fin D G k1 s1) (h' : Fin D G k2 s2) (ht : Alike k1.ty k2.ty) :
    Fin D G (.eq k1 k2) (.eq s1 s2) := by
  rcases h with h | h
  · refine .inl ?_
    simp [toT, toTL, toTS, h]
  rcases h' with h' | h'
  · refine .inl ?_
    simp [toT, toTL, toTS, h']
  exact .inr (finE_eq h h' ht)

theorem fin_cond {k k1 k2 : KExpr (ZMod p)} {s s1 s2 : SExpr} {t : CType} (hc : Fin D G k s) (h : Fin D G k1 s1) (h' : Fin D G k2 s2) (hk : k.ty = .bool)
    (h1t : k1.ty = t) (ht : Alike k1.ty k2.ty ∨ (k1.ty.IsUint ∧ k2.ty.IsUint)) : Fin D G (.cond t k k1 k2) (.cond s s1 s2) := by
  rcases hc with hc | hc
  · refine .inl ?_
    simp [toT, toTL, toTS, hc]
  rcases h with h | h
  · refine .inl ?_
    simp [toT, toTL, toTS, h]
  rcases h' with h' | h'
  · refine .inl ?_
    simp [toT, toTL, toTS, h']
  exact .inr (finE_cond hc h h' hk h1t ht)

theorem fin_select {k1 k2 : KExpr (ZMod p)} {s1 s2 : SExpr} {t : CType} {n : ℕ} (h : Fin D G k1 s1) (h' : Fin D G k2 s2) (ht : k1.ty = .array n t)
    (ht' : k2.ty = .uint .b32) : Fin D G (.select t k1 k2) (.select s1 s2) := by
  rcases h with h | h
  · refine .inl ?_
    simp [toT, toTL, toTS, h]
  rcases h' with h' | h'
  · refine .inl ?_
    simp [toT, toTL, toTS, h']
  exact .inr (finE_select h h' ht ht')

theorem fin_element {k : KExpr (ZMod p)} {s : SExpr} {t : CType} {ts : List CType} {i : ℕ} (h : Fin D G k s) (ht : k.ty = .tuple ts) (hi : ts[i]? = some t) :
    Fin D G (.element t k i) (.element s i) := by
  rcases h with h | h
  · refine .inl ?_
    simp [toT, toTL, toTS, h]
  exact .inr (finE_element h ht hi)

theorem fin_member {k : KExpr (ZMod p)} {s : SExpr} {t : CType} {ms : List (Str × CType)} {m : Str} (h : Fin D G k s) (ht : k.ty = .struct ms)
    (hm : ms.lookup m = some t) : Fin D G (.member t k m) (.member s m) := by
  rcases h with h | h
  · refine .inl ?_
    simp [toT, toTL, toTS, h]
  exact .inr (finE_member h ht hm)

theorem fin_array {t : CType} {ks : List (KSpread (ZMod p))} {ss : List SSpread} {n : ℕ} (h : FinS D G t ks ss) (h0 : ks ≠ [])
    (hn : n = (ks.map KSpread.size).sum % 2 ^ 32) : Fin D G (.array t n ks) (.array ss) := by
  rcases h with h | h
  · refine .inl ?_
    simp [toT, toTL, toTS, h]
  exact .inr (finE_array h h0 hn)

theorem fin_repeat {k : KExpr (ZMod p)} {s c : SExpr} {n : ℕ} (h : Fin D G k s) (hc : Reads (p := p) D G c (.uval .b32 n)) (hn : n < 2 ^ 32) :
    Fin D G (.repeat_ k.ty n k (.uval .b32 n)) (.repeat_ s c) := by
  rcases h with h | h
  · refine .inl ?_
    simp [toT, toTL, toTS, h]
  exact .inr (finE_repeat h hc hn)

theorem fin_fval {n : ℕ} {s : SExpr} (h : Reads (p := p) D G s (.fval n)) : Fin (p := p) D G (.fval n) s := by
  exact .inr (finE_fval h)

theorem fin_uval {w : UW} {n : ℕ} {s : SExpr} (h : Reads (p := p) D G s (.uval w n)) (hn : n < 2 ^ w.bits) : Fin (p := p) D G (.uval w n) s := by
  exact .inr (finE_uval h hn)

theorem finL_nil : FinL (p := p) D G [] [] [] := by
  exact .inr (finEL_nil )

theorem finL_cons {t : CType} {ts : List CType} {k : KExpr (ZMod p)} {ks : List (KExpr (ZMod p))} {s : SExpr} {ss : List SExpr} (h : Fin D G k s) (ht : Alike k.ty t)
    (h' : FinL D G ts ks ss) : FinL D G (t :: ts) (k :: ks) (s :: ss) := by
  rcases h with h | h
  · refine .inl ?_
    simp [toT, toTL, toTS, h]
  rcases h' with h' | h'
  · refine .inl ?_
    simp [toT, toTL, toTS, h']
  exact .inr (finEL_cons h ht h')

theorem fin_tuple {ks : List (KExpr (ZMod p))} {ss : List SExpr} (h : FinL D G (ks.map KExpr.ty) ks ss) : Fin D G (.tuple (ks.map KExpr.ty) ks) (.tuple ss) := by
  rcases h with h | h
  · refine .inl ?_
    simp [toT, toTL, toTS, h]
  exact .inr (finE_tuple h)

theorem finM_nil {names : List Str} {ss : List SExpr} : FinM (p := p) D G names ss [] [] := by
  exact .inr (finEM_nil )

theorem finM_cons {names : List Str} {ss : List SExpr} {m : Str} {t : CType} {ms : List (Str × CType)} {k : KExpr (ZMod p)} {ks : List (KExpr (ZMod p))} {s : SExpr}
    (hl : (names.zip ss).lookup m = some s) (h : Fin D G k s) (ht : Alike k.ty t) (h' : FinM D G names ss ms ks) : FinM D G names ss ((m, t) :: ms) (k :: ks) := by
  rcases h with h | h
  · refine .inl ?_
    simp [toT, toTL, toTS, h]
  rcases h' with h' | h'
  · refine .inl ?_
    simp [toT, toTL, toTS, h']
  exact .inr (finEM_cons hl h ht h')

theorem fin_struct {name : Str} {names : List Str} {ss : List SExpr} {ms : List (Str × CType)} {ks : List (KExpr (ZMod p))} (hD : D name = some ms)
    (hn : ms.length = names.length) (hok : TypeOk (.struct ms)) (h : FinM D G names ss ms ks) : Fin D G (.struct ms ks) (.struct name names ss) := by
  rcases h with h | h
  · refine .inl ?_
    simp [toT, toTL, toTS, h]
  exact .inr (finE_struct hD hn hok h)

theorem finS_nil {t : CType} : FinS (p := p) D G t [] [] := by
  exact .inr (finES_nil )

theorem finS_expr {t : CType} {k : KExpr (ZMod p)} {ks : List (KSpread (ZMod p))} {s : SExpr} {ss : List SSpread} (h : Fin D G k s) (ht : Alike k.ty t)
    (h' : FinS D G t ks ss) : FinS D G t (.expr k :: ks) (.expr s :: ss) := by
  rcases h with h | h
  · refine .inl ?_
    simp [toT, toTL, toTS, h]
  rcases h' with h' | h'
  · refine .inl ?_
    simp [toT, toTL, toTS, h']
  exact .inr (finES_expr h ht h')

theorem finS_spread {t u : CType} {n : ℕ} {k : KExpr (ZMod p)} {ks : List (KSpread (ZMod p))} {s : SExpr} {ss : List SSpread} (h : Fin D G k s)
    (hk : k.ty = .array n u) (ht : Alike u t) (h' : FinS D G t ks ss) : FinS D G t (.spread k :: ks) (.spread s :: ss) := by
  rcases h with h | h
  · refine .inl ?_
    simp [toT, toTL, toTS, h]
  rcases h' with h' | h'
  · refine .inl ?_
    simp [toT, toTL, toTS, h']
  exact .inr (finES_spread h hk ht h')

/-! ### Expressions under check -/

mutual
/-- The structs in a type have no `int` in them. -/
def StructsOk : CType → Prop
  | .array _ t => StructsOk t
  | .struct ms => NoInt (.struct ms)
  | .tuple ts => StructsOkL ts
  | .int => True
  | .field => True
  | .bool => True
  | .uint _ => True
/-- For every element. -/
def StructsOkL : List CType → Prop
  | [] => True
  | t :: ts => StructsOk t ∧ StructsOkL ts
end

mutual
theorem NoInt.structs : ∀ {t : CType}, NoInt t → StructsOk t
  | .array n t, h => by simp only [StructsOk]; exact NoInt.structs (noInt_array.1 h)
  | .struct ms, h => by simp only [StructsOk]; exact h
  | .tuple ts, h => by
    simp only [StructsOk]
    simp only [NoInt, primCount] at h
    exact noIntL_structs h
  | .int, _ => by simp [StructsOk]
  | .field, _ => by simp [StructsOk]
  | .bool, _ => by simp [StructsOk]
  | .uint _, _ => by simp [StructsOk]
theorem noIntL_structs : ∀ {ts : List CType}, (primCountL ts).isSome → StructsOkL ts
  | [], _ => by simp [StructsOkL]
  | t :: ts, h => by
    simp only [StructsOkL]
    rw [noIntL_cons] at h
    exact ⟨NoInt.structs h.1, noIntL_structs h.2⟩
end

theorem structsOkL_get : ∀ {ts : List CType} {i : ℕ} {t : CType}, StructsOkL ts → ts[i]? = some t → StructsOk t
  | [], i, t, _, h => by simp at h
  | u :: ts, 0, t, hs, h => by
    simp only [StructsOkL] at hs
    simp only [List.getElem?_cons_zero, Option.some.injEq] at h
    exact h ▸ hs.1
  | u :: ts, i + 1, t, hs, h => by
    simp only [StructsOkL] at hs
    exact structsOkL_get hs.2 (by simpa using h)

/-- Expressions which `alignTo` takes apart. -/
def KExpr.inline {F : Type} : KExpr F → Bool
  | .array _ _ _ | .repeat_ _ _ _ _ | .struct _ _ | .tuple _ _ => true
  | _ => false

/-- If no integer literal of no type is left, the expression is a reading of the source. -/
def Rd (D : Decls) (G : Scope) (k : KExpr (ZMod p)) (s : SExpr) : Prop := ∀ e, toT k = some e → e.ty = k.ty ∧ Reads D G s e

theorem Fin.rd {k : KExpr (ZMod p)} {s : SExpr} (h : Fin D G k s) : Rd D G k s := by
  intro e he
  rcases h with h | ⟨e', h1, h2, h3, _⟩
  · rw [h] at he; cases he
  · rw [h1] at he; cases he; exact ⟨h2, h3⟩

mutual
/-- The checker has made the expression from the source. -/
inductive Raw (D : Decls) (G : Scope) : KExpr (ZMod p) → SExpr → Prop
  | other {k : KExpr (ZMod p)} {s : SExpr} : k.inline = false → k.ty ≠ .int → StructsOk k.ty → Rd D G k s → (NoInt k.ty → Fin D G k s) → Raw D G k s
  | inum {n : ℕ} : Raw D G (.inum n) (.int n)
  | un {op : UnOp} {k : KExpr (ZMod p)} {s : SExpr} : k.ty = .int → Raw D G k s → Raw D G (.un op .int k) (.un op s)
  | bin {op : BinOp} {k1 k2 : KExpr (ZMod p)} {s1 s2 : SExpr} : op ≠ .rem → Raw D G k1 s1 → Raw D G k2 s2 → Raw D G (.bin op .int k1 k2) (.bin op s1 s2)
  | band {k1 k2 : KExpr (ZMod p)} {s1 s2 : SExpr} : Raw D G k1 s1 → Raw D G k2 s2 → Raw D G (.bin .band .int k1 k2) (.logic .and s1 s2)
  | sh {op : ShOp} {k1 k2 : KExpr (ZMod p)} {s1 s2 : SExpr} : Raw D G k1 s1 → Fin D G k2 s2 → k2.ty = .uint .b32 →
      Raw D G (.sh op .int k1 k2) (.sh op s1 s2)
  | cond {k k1 k2 : KExpr (ZMod p)} {s s1 s2 : SExpr} : Fin D G k s → k.ty = .bool → Raw D G k1 s1 → Raw D G k2 s2 →
      Raw D G (.cond .int k k1 k2) (.cond s s1 s2)
  | array {t : CType} {n : ℕ} {ks : List (KSpread (ZMod p))} {ss : List SSpread} : RawS D G ks ss → StructsOk t → n = (ks.map KSpread.size).sum % 2 ^ 32 →
      (NoInt t → ∃ k ks', ks = k :: ks' ∧ Alike k.ty t) → Raw D G (.array t n ks) (.array ss)
  | repeat_ {t : CType} {n : ℕ} {k : KExpr (ZMod p)} {s c : SExpr} : Raw D G k s → Reads (p := p) D G c (.uval .b32 n) → n < 2 ^ 32 → StructsOk t →
      (NoInt t → Alike k.ty t) → Raw D G (.repeat_ t n k (.uval .b32 n)) (.repeat_ s c)
  | struct {name : Str} {names : List Str} {ms : List (Str × CType)} {ks : List (KExpr (ZMod p))} {ss : List SExpr} : D name = some ms →
      ms.length = names.length → TypeOk (.struct ms) → RawM D G names ss ms ks → Raw D G (.struct ms ks) (.struct name names ss)
  | tuple {ts : List CType} {ks : List (KExpr (ZMod p))} {ss : List SExpr} : ts = ks.map KExpr.ty → RawL D G ks ss → Raw D G (.tuple ts ks) (.tuple ss)
/-- For lists. -/
inductive RawL (D : Decls) (G : Scope) : List (KExpr (ZMod p)) → List SExpr → Prop
  | nil : RawL D G [] []
  | cons {k : KExpr (ZMod p)} {ks : List (KExpr (ZMod p))} {s : SExpr} {ss : List SExpr} : Raw D G k s → RawL D G ks ss → RawL D G (k :: ks) (s :: ss)
/-- For elements and spreads. -/
inductive RawS (D : Decls) (G : Scope) : List (KSpread (ZMod p)) → List SSpread → Prop
  | nil : RawS D G [] []
  | expr {k : KExpr (ZMod p)} {ks : List (KSpread (ZMod p))} {s : SExpr} {ss : List SSpread} : Raw D G k s → RawS D G ks ss →
      RawS D G (.expr k :: ks) (.expr s :: ss)
  | spread {k : KExpr (ZMod p)} {ks : List (KSpread (ZMod p))} {s : SExpr} {ss : List SSpread} {n : ℕ} {u : CType} : Raw D G k s → k.ty = .array n u → RawS D G ks ss →
      RawS D G (.spread k :: ks) (.spread s :: ss)
/-- For members. -/
inductive RawM (D : Decls) (G : Scope) : List Str → List SExpr → List (Str × CType) → List (KExpr (ZMod p)) → Prop
  | nil {names : List Str} {ss : List SExpr} : RawM D G names ss [] []
  | cons {names : List Str} {ss : List SExpr} {m : Str} {t : CType} {ms : List (Str × CType)} {s : SExpr} {k : KExpr (ZMod p)} {ks : List (KExpr (ZMod p))} :
      (names.zip ss).lookup m = some s → Raw D G k s → Alike k.ty t → RawM D G names ss ms ks → RawM D G names ss ((m, t) :: ms) (k :: ks)
end

mutual
theorem Raw.structs : ∀ {k : KExpr (ZMod p)} {s : SExpr}, Raw D G k s → StructsOk k.ty
  | _, _, .other _ _ h _ _ => h
  | _, _, .inum => by simp [KExpr.ty, StructsOk]
  | _, _, .un _ _ => by simp [KExpr.ty, StructsOk]
  | _, _, .bin _ _ _ => by simp [KExpr.ty, StructsOk]
  | _, _, .band _ _ => by simp [KExpr.ty, StructsOk]
  | _, _, .sh _ _ _ => by simp [KExpr.ty, StructsOk]
  | _, _, .cond _ _ _ _ => by simp [KExpr.ty, StructsOk]
  | _, _, .array _ h _ _ => by simpa [KExpr.ty, StructsOk] using h
  | _, _, .repeat_ _ _ _ h _ => by simpa [KExpr.ty, StructsOk] using h
  | _, _, .struct _ _ h _ => by simp only [KExpr.ty, StructsOk]; exact h.2
  | _, _, .tuple h h' => by subst h; simp only [KExpr.ty, StructsOk]; exact RawL.structs h'
theorem RawL.structs : ∀ {ks : List (KExpr (ZMod p))} {ss : List SExpr}, RawL D G ks ss → StructsOkL (ks.map KExpr.ty)
  | _, _, .nil => by simp [StructsOkL]
  | _, _, .cons h h' => by simp only [List.map_cons, StructsOkL]; exact ⟨Raw.structs h, RawL.structs h'⟩
end

mutual
theorem raw_rd : ∀ {k : KExpr (ZMod p)} {s : SExpr}, Raw D G k s → Rd D G k s
  | _, _, .other _ _ _ h _ => h
  | _, _, .inum => fun e he => by simp [toT] at he
  | _, _, .un _ _ => fun e he => by simp [toT] at he
  | _, _, .bin _ _ _ => fun e he => by simp [toT] at he
  | _, _, .band _ _ => fun e he => by simp [toT] at he
  | _, _, .sh _ _ _ => fun e he => by simp [toT] at he
  | _, _, .cond hf _ h1 h2 => fun e he => by
    simp only [toT] at he
    obtain ⟨c, hc, he⟩ := Option.bind_eq_some_iff.1 he
    obtain ⟨a, ha, he⟩ := Option.bind_eq_some_iff.1 he
    obtain ⟨b, hb, he⟩ := Option.bind_eq_some_iff.1 he
    cases he
    exact ⟨rfl, .cond (hf.rd c hc).2 (raw_rd h1 a ha).2 (raw_rd h2 b hb).2⟩
  | _, _, .array h _ _ _ => fun e he => by
    simp only [toT] at he
    obtain ⟨es, hes, he⟩ := Option.bind_eq_some_iff.1 he
    cases he
    exact ⟨rfl, .array (rawS_rd h hes)⟩
  | _, _, .repeat_ h hc _ _ _ => fun e he => by
    simp only [toT] at he
    obtain ⟨a, ha, he⟩ := Option.bind_eq_some_iff.1 he
    cases he
    exact ⟨rfl, .repeat_ (raw_rd h a ha).2 hc⟩
  | _, _, .struct hD hn _ h => fun e he => by
    simp only [toT] at he
    obtain ⟨es, hes, he⟩ := Option.bind_eq_some_iff.1 he
    cases he
    exact ⟨rfl, .struct hD hn (rawM_rd h hes)⟩
  | _, _, .tuple _ h => fun e he => by
    simp only [toT] at he
    obtain ⟨es, hes, he⟩ := Option.bind_eq_some_iff.1 he
    cases he
    exact ⟨rfl, .tuple (rawL_rd h hes)⟩
theorem rawL_rd : ∀ {ks : List (KExpr (ZMod p))} {ss : List SExpr}, RawL D G ks ss → ∀ {es}, toTL ks = some es → ReadsL D G ss es
  | _, _, .nil, es, he => by simp only [toTL] at he; cases he; exact .nil
  | _, _, .cons h h', es, he => by
    simp only [toTL] at he
    obtain ⟨a, ha, he⟩ := Option.bind_eq_some_iff.1 he
    obtain ⟨b, hb, he⟩ := Option.bind_eq_some_iff.1 he
    cases he
    exact .cons (raw_rd h a ha).2 (rawL_rd h' hb)
theorem rawS_rd : ∀ {ks : List (KSpread (ZMod p))} {ss : List SSpread}, RawS D G ks ss → ∀ {es}, toTS ks = some es → ReadsS D G ss es
  | _, _, .nil, es, he => by simp only [toTS] at he; cases he; exact .nil
  | _, _, .expr h h', es, he => by
    simp only [toTS] at he
    obtain ⟨a, ha, he⟩ := Option.bind_eq_some_iff.1 he
    obtain ⟨b, hb, he⟩ := Option.bind_eq_some_iff.1 he
    cases he
    exact .expr (raw_rd h a ha).2 (rawS_rd h' hb)
  | _, _, .spread h _ h', es, he => by
    simp only [toTS] at he
    obtain ⟨a, ha, he⟩ := Option.bind_eq_some_iff.1 he
    obtain ⟨b, hb, he⟩ := Option.bind_eq_some_iff.1 he
    cases he
    exact .spread (raw_rd h a ha).2 (rawS_rd h' hb)
theorem rawM_rd : ∀ {names : List Str} {ss : List SExpr} {ms : List (Str × CType)} {ks : List (KExpr (ZMod p))}, RawM D G names ss ms ks → ∀ {es}, toTL ks = some es →
    ReadsM D G names ss ms es
  | _, _, _, _, .nil, es, he => by simp only [toTL] at he; cases he; exact .nil
  | _, _, _, _, .cons hl h _ h', es, he => by
    simp only [toTL] at he
    obtain ⟨a, ha, he⟩ := Option.bind_eq_some_iff.1 he
    obtain ⟨b, hb, he⟩ := Option.bind_eq_some_iff.1 he
    cases he
    exact .cons hl (raw_rd h a ha).2 (rawM_rd h' hb)
end

theorem castInt_none {t : CType} {k : KExpr (ZMod p)} (h : k.ty ≠ .int) : castInt t k = none := by
  cases k with
  | inum n => exact absurd rfl h
  | un op ti e => cases ti <;> first | exact absurd rfl h | simp [castInt]
  | bin op ti e e' => cases ti <;> first | exact absurd rfl h | simp [castInt]
  | sh op ti e e' => cases op <;> cases ti <;> first | exact absurd rfl h | simp [castInt]
  | cond ti c e e' => cases ti <;> first | exact absurd rfl h | simp [castInt]
  | _ => simp [castInt]

theorem cast_spec {t : CType} (ht : t = .field ∨ ∃ w, t = .uint w) : ∀ {k k' : KExpr (ZMod p)} {s : SExpr}, Raw D G k s → castInt t k = some k' →
    Fin D G k' s ∧ k'.ty = t ∧ k'.inline = false
  | _, k', _, .other _ h2 _ _ _, h => by rw [castInt_none h2] at h; cases h
  | _, k', _, .inum (n := n), h => by
    rcases ht with rfl | ⟨w, rfl⟩
    · simp only [castInt] at h
      split at h
      · cases h; exact ⟨fin_fval (.intF (by assumption)), rfl, rfl⟩
      · cases h
    · simp only [castInt] at h
      split at h
      · cases h; exact ⟨fin_uval (.intU (by assumption)) (by assumption), rfl, rfl⟩
      · cases h
  | _, k', _, .un (op := op) hk hr, h => by
    simp only [castInt] at h
    split at h
    · rename_i ho
      obtain ⟨e', he, h⟩ := Option.bind_eq_some_iff.1 h
      cases h
      obtain ⟨a, b, _⟩ := cast_spec ht hr he
      refine ⟨fin_un a b ?_, rfl, rfl⟩
      rcases ht with rfl | ⟨w, rfl⟩
      · exact .inl ⟨rfl, by rintro rfl; simp [UnOp.okFor] at ho⟩
      · exact .inr (.inl ⟨w, rfl⟩)
    · cases h
  | _, k', _, .bin (op := op) hop hr1 hr2, h => by
    simp only [castInt] at h
    split at h
    · rename_i ho
      obtain ⟨e1, he1, h⟩ := Option.bind_eq_some_iff.1 h
      obtain ⟨e2, he2, h⟩ := Option.bind_eq_some_iff.1 h
      cases h
      obtain ⟨a1, b1, _⟩ := cast_spec ht hr1 he1
      obtain ⟨a2, b2, _⟩ := cast_spec ht hr2 he2
      refine ⟨fin_bin a1 a2 b1 b2 ?_, rfl, rfl⟩
      rcases ht with rfl | ⟨w, rfl⟩
      · exact .inl ⟨rfl, hop⟩
      · exact .inr ⟨w, rfl⟩
    · cases h
  | _, k', _, .band hr1 hr2, h => by
    simp only [castInt] at h
    split at h
    · obtain ⟨e1, he1, h⟩ := Option.bind_eq_some_iff.1 h
      obtain ⟨e2, he2, h⟩ := Option.bind_eq_some_iff.1 h
      cases h
      obtain ⟨a1, b1, _⟩ := cast_spec ht hr1 he1
      obtain ⟨a2, b2, _⟩ := cast_spec ht hr2 he2
      exact ⟨fin_band a1 a2 b1 b2 ht, rfl, rfl⟩
    · cases h
  | _, k', _, .sh (op := op) hr1 hf hw, h => by
    cases op with
    | pow => simp [castInt] at h
    | shl =>
      simp only [castInt] at h
      obtain ⟨e1, he1, h⟩ := Option.bind_eq_some_iff.1 h
      cases h
      obtain ⟨a1, b1, _⟩ := cast_spec ht hr1 he1
      exact ⟨fin_sh a1 hf b1 hw (ht.imp id fun q => ⟨q, by simp⟩), rfl, rfl⟩
    | shr =>
      simp only [castInt] at h
      obtain ⟨e1, he1, h⟩ := Option.bind_eq_some_iff.1 h
      cases h
      obtain ⟨a1, b1, _⟩ := cast_spec ht hr1 he1
      exact ⟨fin_sh a1 hf b1 hw (ht.imp id fun q => ⟨q, by simp⟩), rfl, rfl⟩
  | _, k', _, .cond hf hb hr1 hr2, h => by
    simp only [castInt] at h
    obtain ⟨e1, he1, h⟩ := Option.bind_eq_some_iff.1 h
    obtain ⟨e2, he2, h⟩ := Option.bind_eq_some_iff.1 h
    cases h
    obtain ⟨a1, b1, _⟩ := cast_spec ht hr1 he1
    obtain ⟨a2, b2, _⟩ := cast_spec ht hr2 he2
    exact ⟨fin_cond hf a1 a2 hb b1 (.inl (b1.trans b2.symm ▸ Alike.refl _)), rfl, rfl⟩
  | _, k', _, .array _ _ _ _, h => by simp [castInt] at h
  | _, k', _, .repeat_ _ _ _ _ _, h => by simp [castInt] at h
  | _, k', _, .struct _ _ _ _, h => by simp [castInt] at h
  | _, k', _, .tuple _ _, h => by simp [castInt] at h

theorem noInt_field : NoInt .field := rfl
theorem noInt_bool : NoInt .bool := rfl
theorem noInt_uint {w : UW} : NoInt (.uint w) := rfl

/-- The conversion of an expression which is not written inline, to a type which is not a compound one. -/
theorem scalarTo_raw {t : CType} {k k' : KExpr (ZMod p)} {s : SExpr} (hr : Raw D G k s) (hi : NoInt k.ty → Fin D G k s) (h : scalarTo k t = some k') :
    Fin D G k' s ∧ k'.ty = t ∧ NoInt t ∧ (k' = k ∨ k'.inline = false) := by
  unfold scalarTo at h
  split at h
  · cases h; rename_i hk; exact ⟨hi (hk ▸ noInt_field), hk, noInt_field, .inl rfl⟩
  · obtain ⟨a, b, c⟩ := cast_spec (.inl rfl) hr h
    exact ⟨a, b, noInt_field, .inr c⟩
  · cases h; rename_i hk; exact ⟨hi (hk ▸ noInt_bool), hk, noInt_bool, .inl rfl⟩
  · split at h
    · rename_i hk hw; cases h; subst hw; exact ⟨hi (hk ▸ noInt_uint), hk, noInt_uint, .inl rfl⟩
    · cases h
  · obtain ⟨a, b, c⟩ := cast_spec (.inr ⟨_, rfl⟩) hr h
    exact ⟨a, b, noInt_uint, .inr c⟩
  · cases h

/-- A final expression which is not inline. -/
theorem raw_fin {k : KExpr (ZMod p)} {s : SExpr} (h : Fin D G k s) (hi : k.inline = false) (hn : NoInt k.ty) : Raw D G k s :=
  .other hi (by intro h; rw [h] at hn; exact absurd hn (by simp [NoInt, primCount])) hn.structs h.rd (fun _ => h)

theorem not_inline_fin : ∀ {k : KExpr (ZMod p)} {s : SExpr}, Raw D G k s → k.inline = false → (NoInt k.ty → Fin D G k s)
  | _, _, .other _ _ _ _ h, _ => h
  | _, _, .inum, _ => fun h => absurd h (by simp [NoInt, primCount, KExpr.ty])
  | _, _, .un _ _, _ => fun h => absurd h (by simp [NoInt, primCount, KExpr.ty])
  | _, _, .bin _ _ _, _ => fun h => absurd h (by simp [NoInt, primCount, KExpr.ty])
  | _, _, .band _ _, _ => fun h => absurd h (by simp [NoInt, primCount, KExpr.ty])
  | _, _, .sh _ _ _, _ => fun h => absurd h (by simp [NoInt, primCount, KExpr.ty])
  | _, _, .cond _ _ _ _, _ => fun h => absurd h (by simp [NoInt, primCount, KExpr.ty])
  | _, _, .array _ _ _ _, h => by simp [KExpr.inline] at h
  | _, _, .repeat_ _ _ _ _ _, h => by simp [KExpr.inline] at h
  | _, _, .struct _ _ _ _, h => by simp [KExpr.inline] at h
  | _, _, .tuple _ _, h => by simp [KExpr.inline] at h

theorem alignTo_other {x : Bool} {k : KExpr (ZMod p)} {t : CType} (hi : k.inline = false) :
    alignTo x k t = (match t with | .array _ _ | .struct _ | .tuple _ => keepAs x k t | _ => scalarTo k t) := by
  cases k <;> first | (simp [KExpr.inline] at hi; done) | (cases t <;> simp [alignTo])

/-- The conversion of an expression which is not written inline. -/
theorem align_other {x : Bool} {t : CType} {k k' : KExpr (ZMod p)} {s : SExpr} (hr : Raw D G k s) (hi : k.inline = false) (h : alignTo x k t = some k') :
    Raw D G k' s ∧ (NoInt t → Fin D G k' s ∧ Alike k'.ty t ∧ (NoInt k.ty → Alike k'.ty k.ty)) := by
  rw [alignTo_other hi] at h
  have hfin := not_inline_fin hr hi
  have hs : scalarTo k t = some k' → Raw D G k' s ∧ (NoInt t → Fin D G k' s ∧ Alike k'.ty t ∧ (NoInt k.ty → Alike k'.ty k.ty)) := by
    intro h
    obtain ⟨a, b, c, d⟩ := scalarTo_raw hr hfin h
    have hi' : k'.inline = false := by rcases d with rfl | d <;> assumption
    refine ⟨raw_fin a hi' (b.symm ▸ c), fun _ => ⟨a, b ▸ Alike.refl _, fun hn => ?_⟩⟩
    rcases d with rfl | d
    · exact Alike.refl _
    · unfold scalarTo at h
      split at h <;> first | cases h | skip
      all_goals first
        | exact Alike.refl _
        | (exfalso; simp_all [NoInt, primCount]; done)
        | (split at h <;> first | (cases h; exact Alike.refl _) | cases h)
  have hk : keepAs x k t = some k' → Raw D G k' s ∧ (NoInt t → Fin D G k' s ∧ Alike k'.ty t ∧ (NoInt k.ty → Alike k'.ty k.ty)) := by
    intro h
    obtain ⟨rfl, ha⟩ := keepAs_some h
    exact ⟨hr, fun hn => ⟨hfin ((Alike.noInt ha).2 hn), ha, fun _ => Alike.refl _⟩⟩
  split at h
  · exact hk h
  · exact hk h
  · exact hk h
  · exact hs h

theorem not_noInt_int : ¬NoInt .int := by simp [NoInt, primCount]

theorem align_size {x : Bool} {n m : ℕ} {t u : CType} {k k' : KExpr (ZMod p)} (h : alignTo x k (.array n t) = some k') (hk : k.ty = .array m u) :
    ∃ u', k'.ty = .array m u' := by
  cases hi : k.inline with
  | false =>
    rw [alignTo_other hi] at h
    exact ⟨u, (keepAs_some h).1 ▸ hk⟩
  | true =>
    cases k with
    | array t0 n0 es =>
      simp only [KExpr.ty, CType.array.injEq] at hk
      obtain ⟨rfl, _⟩ := hk
      simp only [alignTo] at h
      split at h
      · split at h
        · cases h
        · cases h; exact ⟨_, rfl⟩
      · split at h
        · cases h; exact ⟨_, rfl⟩
        · cases h
      · cases h
    | repeat_ t0 n0 e c =>
      simp only [KExpr.ty, CType.array.injEq] at hk
      obtain ⟨rfl, _⟩ := hk
      simp only [alignTo] at h
      split at h
      · cases h; exact ⟨_, rfl⟩
      · obtain ⟨e', _, h⟩ := Option.bind_eq_some_iff.1 h
        cases h; exact ⟨_, rfl⟩
      · cases h
    | struct ms es => simp [KExpr.ty] at hk
    | tuple ts es => simp [KExpr.ty] at hk
    | _ => simp [KExpr.inline] at hi

theorem rawM_length {names : List Str} {ss : List SExpr} : ∀ {ms : List (Str × CType)} {ks : List (KExpr (ZMod p))}, RawM D G names ss ms ks → ks.length = ms.length
  | _, _, .nil => rfl
  | _, _, .cons _ _ _ h => by simp [rawM_length h]

theorem rawL_structs_head {k : KSpread (ZMod p)} {ks : List (KSpread (ZMod p))} {ss : List SSpread} (h : RawS D G (k :: ks) ss) : StructsOk k.ty := by
  cases h with
  | expr h _ => exact h.structs
  | spread h hk _ =>
    have := h.structs
    rw [hk, StructsOk] at this
    simpa [KSpread.ty, hk] using this

theorem noIntM_map : ∀ {ms : List (Str × CType)}, (primCountL (ms.map Prod.snd)).isSome ↔ (primCountM ms).isSome
  | [] => by simp [primCountL, primCountM]
  | (m, u) :: ms => by rw [noIntM_cons, List.map_cons, noIntL_cons, noIntM_map]

mutual
theorem align_spec {x : Bool} : ∀ {k : KExpr (ZMod p)} {s : SExpr}, Raw D G k s → ∀ {t : CType} {k' : KExpr (ZMod p)}, StructsOk t → alignTo x k t = some k' →
    Raw D G k' s ∧ (NoInt t → Fin D G k' s ∧ Alike k'.ty t ∧ (NoInt k.ty → Alike k'.ty k.ty))
  | _, _, .other a b c d e, t, k', _, h => align_other (.other a b c d e) a h
  | _, _, .inum, t, k', _, h => align_other .inum rfl h
  | _, _, .un a b, t, k', _, h => align_other (.un a b) rfl h
  | _, _, .bin a b c, t, k', _, h => align_other (.bin a b c) rfl h
  | _, _, .band a b, t, k', _, h => align_other (.band a b) rfl h
  | _, _, .sh a b c, t, k', _, h => align_other (.sh a b c) rfl h
  | _, _, .cond a b c d, t, k', _, h => align_other (.cond a b c d) rfl h
  | _, _, .array (t := t0) (n := n) (ks := ks) (ss := ss) hS hst hn hf, t, k', ht, h => by
    simp only [alignTo] at h
    split at h
    · split at h
      · cases h
      · cases h
        refine ⟨.array hS (rawL_structs_head hS) hn (fun _ => ⟨_, _, rfl, Alike.refl _⟩), fun h => ?_⟩
        rw [noInt_array] at h
        exact absurd h not_noInt_int
    · rename_i n1 t1 _
      split at h
      · rename_i e es' he
        cases h
        have ht1 : StructsOk t1 := by simpa only [StructsOk] using ht
        obtain ⟨a1, a2, a3⟩ := alignS_spec hS ht1 he
        refine ⟨.array a1 (rawL_structs_head a1) (by rw [a2]; exact hn) (fun _ => ⟨_, _, rfl, Alike.refl _⟩), fun hni => ?_⟩
        rw [noInt_array] at hni
        obtain ⟨b1, b2⟩ := a3 hni
        obtain ⟨c1, c2⟩ := b2 _ _ rfl
        refine ⟨fin_array (b1 _ c1) (by simp) (by rw [a2]; exact hn), alike_array.2 c1, fun h0 => ?_⟩
        simp only [KExpr.ty, noInt_array] at h0
        obtain ⟨k0, ks0, rfl, hk0⟩ := hf h0
        exact alike_array.2 ((c2 _ _ rfl ((Alike.noInt hk0).2 h0)).trans hk0)
      · cases h
    · cases h
  | _, _, .repeat_ (t := t0) (n := n) (k := k) hr hc hn hst hf, t, k', ht, h => by
    simp only [alignTo] at h
    split at h
    · cases h
      refine ⟨.repeat_ hr hc hn (by simp [StructsOk]) (fun h => absurd h not_noInt_int), fun h => ?_⟩
      rw [noInt_array] at h
      exact absurd h not_noInt_int
    · rename_i n1 t1 _
      obtain ⟨e', he, h⟩ := Option.bind_eq_some_iff.1 h
      cases h
      have ht1 : StructsOk t1 := by simpa only [StructsOk] using ht
      obtain ⟨a1, a2⟩ := align_spec hr ht1 he
      refine ⟨.repeat_ a1 hc hn a1.structs (fun _ => Alike.refl _), fun hni => ?_⟩
      rw [noInt_array] at hni
      obtain ⟨b1, b2, b3⟩ := a2 hni
      refine ⟨fin_repeat b1 hc hn, alike_array.2 b2, fun h0 => ?_⟩
      simp only [KExpr.ty, noInt_array] at h0
      exact alike_array.2 ((b3 ((Alike.noInt (hf h0)).2 h0)).trans (hf h0))
    · cases h
  | _, _, .struct (ms := ms) hD hn hok hM, t, k', ht, h => by
    simp only [alignTo] at h
    split at h
    · rename_i ms1
      split at h
      · rename_i hl
        obtain ⟨es', he, h⟩ := Option.bind_eq_some_iff.1 h
        cases h
        have hni : (primCountL (ms1.map Prod.snd)).isSome := by
          simp only [StructsOk, NoInt, primCount] at ht
          exact noIntM_map.2 ht
        have hmi : (primCountM ms).isSome := by have := hok.2; simpa only [primCount] using this
        obtain ⟨a1, a2, a3⟩ := alignM_spec hM hmi hni (by rw [rawM_length hM, hl]; simp) he
        refine ⟨.struct hD hn hok a1, fun _ => ⟨fin_struct hD hn hok a2, ?_, fun _ => Alike.refl _⟩⟩
        simp only [KExpr.ty, Alike, CType.shape, CType.struct.injEq]
        rw [shapeM_map, shapeM_map]
        rw [shapeL_map, shapeL_map] at a3
        have h2 := congrArg (List.map fun s => (([] : Str), s)) a3
        simpa [List.map_map, Function.comp_def] using h2
      · cases h
    · cases h
  | _, _, .tuple (ts := ts) (ks := ks) hts hL, t, k', ht, h => by
    simp only [alignTo] at h
    split at h
    · rename_i ts1
      split at h
      · rename_i hl
        obtain ⟨es', he, h⟩ := Option.bind_eq_some_iff.1 h
        cases h
        have ht1 : StructsOkL ts1 := by simpa only [StructsOk] using ht
        obtain ⟨a1, a2⟩ := alignL_spec hL ht1 (by rw [← hl, hts]; simp) he
        refine ⟨.tuple rfl a1, fun hni => ?_⟩
        simp only [NoInt, primCount] at hni
        obtain ⟨b1, b2, b3⟩ := a2 hni
        refine ⟨fin_tuple b1, ?_, fun h0 => ?_⟩
        · simp only [KExpr.ty, Alike, CType.shape, b2]
        · subst hts
          simp only [KExpr.ty, NoInt, primCount] at h0
          simp only [KExpr.ty, Alike, CType.shape, b3 h0]
      · cases h
    · cases h
theorem alignL_spec {x : Bool} : ∀ {ks : List (KExpr (ZMod p))} {ss : List SExpr}, RawL D G ks ss → ∀ {ts : List CType} {ks' : List (KExpr (ZMod p))}, StructsOkL ts →
    ks.length = ts.length → alignL x ks ts = some ks' → RawL D G ks' ss ∧ ((primCountL ts).isSome → FinL D G (ks'.map KExpr.ty) ks' ss ∧
      shapeL (ks'.map KExpr.ty) = shapeL ts ∧ ((primCountL (ks.map KExpr.ty)).isSome → shapeL (ks'.map KExpr.ty) = shapeL (ks.map KExpr.ty)))
  | _, _, .nil, [], ks', _, _, h => by
    simp only [alignL] at h
    cases h
    exact ⟨.nil, fun _ => ⟨finL_nil, rfl, fun _ => rfl⟩⟩
  | _, _, .nil, _ :: _, ks', _, hl, h => by simp at hl
  | _, _, .cons _ _, [], ks', _, hl, h => by simp at hl
  | _, _, .cons hr hL, t :: ts, ks', ht, hl, h => by
    simp only [alignL] at h
    obtain ⟨e1, he1, h⟩ := Option.bind_eq_some_iff.1 h
    obtain ⟨es, hes, h⟩ := Option.bind_eq_some_iff.1 h
    cases h
    simp only [StructsOkL] at ht
    obtain ⟨a1, a2⟩ := align_spec hr ht.1 he1
    obtain ⟨b1, b2⟩ := alignL_spec hL ht.2 (by simpa using hl) hes
    refine ⟨.cons a1 b1, fun hni => ?_⟩
    rw [noIntL_cons] at hni
    obtain ⟨c1, c2, c3⟩ := a2 hni.1
    obtain ⟨d1, d2, d3⟩ := b2 hni.2
    refine ⟨finL_cons c1 (Alike.refl _) d1, ?_, fun h0 => ?_⟩
    · simp only [List.map_cons, shapeL, d2, show e1.ty.shape = t.shape from c2]
    · rw [List.map_cons, noIntL_cons] at h0
      simp only [List.map_cons, shapeL, d3 h0.2]
      rw [show e1.ty.shape = _ from c3 h0.1]
theorem alignM_spec {x : Bool} {names : List Str} {ss : List SExpr} : ∀ {ms : List (Str × CType)} {ks : List (KExpr (ZMod p))}, RawM D G names ss ms ks →
    ∀ {us : List CType} {ks' : List (KExpr (ZMod p))}, (primCountM ms).isSome → (primCountL us).isSome → ks.length = us.length → alignL x ks us = some ks' →
    RawM D G names ss ms ks' ∧ FinM D G names ss ms ks' ∧ shapeL (ms.map Prod.snd) = shapeL us
  | _, _, .nil, [], ks', _, _, _, h => by
    simp only [alignL] at h
    cases h
    exact ⟨.nil, finM_nil, rfl⟩
  | _, _, .nil, _ :: _, ks', _, _, hl, h => by simp at hl
  | _, _, .cons _ _ _ _, [], ks', _, _, hl, h => by simp at hl
  | _, _, .cons (t := t) hlk hr hal hM, u :: us, ks', hm, hu, hl, h => by
    simp only [alignL] at h
    obtain ⟨e1, he1, h⟩ := Option.bind_eq_some_iff.1 h
    obtain ⟨es, hes, h⟩ := Option.bind_eq_some_iff.1 h
    cases h
    rw [noIntM_cons] at hm
    rw [noIntL_cons] at hu
    obtain ⟨a1, a2⟩ := align_spec hr (NoInt.structs hu.1) he1
    obtain ⟨b1, b2, b3⟩ := alignM_spec hM hm.2 hu.2 (by simpa using hl) hes
    obtain ⟨c1, c2, c3⟩ := a2 hu.1
    have c4 : Alike e1.ty t := (c3 ((Alike.noInt hal).2 hm.1)).trans hal
    refine ⟨.cons hlk a1 c4 b1, finM_cons hlk c1 c4 b2, ?_⟩
    simp only [List.map_cons, shapeL, b3]
    rw [show t.shape = u.shape from c4.symm.trans c2]
theorem alignS_spec {x : Bool} {n : ℕ} : ∀ {ks : List (KSpread (ZMod p))} {ss : List SSpread}, RawS D G ks ss → ∀ {t : CType} {ks' : List (KSpread (ZMod p))},
    StructsOk t → alignS x n ks t = some ks' → RawS D G ks' ss ∧ ks'.map KSpread.size = ks.map KSpread.size ∧
      (NoInt t → (∀ u, Alike u t → FinS D G u ks' ss) ∧
        ∀ k' r', ks' = k' :: r' → Alike k'.ty t ∧ ∀ k r, ks = k :: r → NoInt k.ty → Alike k'.ty k.ty)
  | _, _, .nil, t, ks', _, h => by
    simp only [alignS] at h
    cases h
    exact ⟨.nil, rfl, fun _ => ⟨fun _ _ => finS_nil, fun _ _ h => by cases h⟩⟩
  | _, _, .expr hr hS, t, ks', ht, h => by
    simp only [alignS] at h
    obtain ⟨e1, he1, h⟩ := Option.bind_eq_some_iff.1 h
    obtain ⟨es, hes, h⟩ := Option.bind_eq_some_iff.1 h
    cases h
    obtain ⟨a1, a2⟩ := align_spec hr ht he1
    obtain ⟨b1, b2, b3⟩ := alignS_spec hS ht hes
    refine ⟨.expr a1 b1, by simp [b2, KSpread.size], fun hni => ?_⟩
    obtain ⟨c1, c2, c3⟩ := a2 hni
    obtain ⟨d1, _⟩ := b3 hni
    refine ⟨fun u hu => finS_expr c1 (c2.trans hu.symm) (d1 u hu), fun k' r' he => ?_⟩
    cases he
    exact ⟨c2, fun k r he hk => by cases he; exact c3 hk⟩
  | _, _, .spread (n := m) (u := v) hr hk hS, t, ks', ht, h => by
    simp only [alignS] at h
    obtain ⟨e1, he1, h⟩ := Option.bind_eq_some_iff.1 h
    obtain ⟨es, hes, h⟩ := Option.bind_eq_some_iff.1 h
    cases h
    obtain ⟨v', hv'⟩ := align_size he1 hk
    obtain ⟨a1, a2⟩ := align_spec hr (t := .array n t) (by simpa only [StructsOk] using ht) he1
    obtain ⟨b1, b2, b3⟩ := alignS_spec hS ht hes
    refine ⟨.spread a1 hv' b1, by simp [b2, KSpread.size, hk, hv'], fun hni => ?_⟩
    obtain ⟨c1, c2, c3⟩ := a2 (noInt_array.2 hni)
    rw [hv', alike_array] at c2
    rw [hv', hk, noInt_array, alike_array] at c3
    obtain ⟨d1, _⟩ := b3 hni
    refine ⟨fun u hu => finS_spread c1 hv' (c2.trans hu.symm) (d1 u hu), fun k' r' he => ?_⟩
    cases he
    refine ⟨by simpa [KSpread.ty, hv'] using c2, fun k r he hk' => ?_⟩
    cases he
    simp only [KSpread.ty, hk] at hk'
    simpa [KSpread.ty, hv', hk] using c3 hk'
end

/-! ### The common type -/

theorem bind_ok {α β : Type} {x : Except CErr α} {f : α → Except CErr β} {b : β} (h : (x >>= f) = .ok b) : ∃ a, x = .ok a ∧ f a = .ok b := by
  cases x with
  | error e => cases h
  | ok a => exact ⟨a, rfl, h⟩
theorem orReject_ok {α : Type} {x : Option α} {a : α} (h : orReject x = .ok a) : x = some a := by
  cases x with
  | none => cases h
  | some b => cases h; rfl

mutual
theorem common_noInt : ∀ {t u c : CType}, common t u = .ok c → NoInt c
  | .bool, u, c, h => by cases u <;> simp [common] at h <;> (subst h; rfl)
  | .int, u, c, h => by cases u <;> simp [common] at h <;> (subst h; rfl)
  | .field, u, c, h => by cases u <;> simp [common] at h <;> (subst h; rfl)
  | .uint w, u, c, h => by
    cases u <;> simp [common] at h
    · subst h; rfl
    · split at h <;> cases h
      rfl
  | .array n t, u, c, h => by
    cases u <;> simp only [common] at h <;> first | cases h | skip
    obtain ⟨c', h1, h2⟩ := bind_ok h
    cases h2
    exact noInt_array.2 (common_noInt h1)
  | .struct ms, u, c, h => by
    cases u <;> simp only [common] at h <;> first | cases h | skip
    obtain ⟨c', h1, h2⟩ := bind_ok h
    cases h2
    simp only [NoInt, primCount]
    exact commonM_noInt h1
  | .tuple ts, u, c, h => by
    cases u <;> simp only [common] at h <;> first | cases h | skip
    obtain ⟨c', h1, h2⟩ := bind_ok h
    cases h2
    simp only [NoInt, primCount]
    exact commonL_noInt h1
theorem commonL_noInt : ∀ {ts us cs : List CType}, commonL ts us = .ok cs → (primCountL cs).isSome
  | [], _, cs, h => by simp [commonL] at h; subst h; simp [primCountL]
  | _ :: _, [], cs, h => by simp [commonL] at h; subst h; simp [primCountL]
  | t :: ts, u :: us, cs, h => by
    simp only [commonL] at h
    obtain ⟨c', h1, h⟩ := bind_ok h
    obtain ⟨cs', h2, h⟩ := bind_ok h
    cases h
    exact noIntL_cons.2 ⟨common_noInt h1, commonL_noInt h2⟩
theorem commonM_noInt : ∀ {ts us cs : List (Str × CType)}, commonM ts us = .ok cs → (primCountM cs).isSome
  | [], _, cs, h => by simp [commonM] at h; subst h; simp [primCountM]
  | _ :: _, [], cs, h => by simp [commonM] at h; subst h; simp [primCountM]
  | (m, t) :: ts, (m', u) :: us, cs, h => by
    simp only [commonM] at h
    split at h
    · rename_i c hc
      obtain ⟨cs', h2, h⟩ := bind_ok h
      cases h
      exact noIntM_cons.2 ⟨common_noInt hc, commonM_noInt h2⟩
    · cases h
end

/-- The result of a check. -/
def Okk (D : Decls) (G : Scope) (k : KExpr (ZMod p)) (s : SExpr) : Prop := Raw D G k s ∧ (NoInt k.ty → Fin D G k s)

theorem alignPair_spec {k1 k2 a b : KExpr (ZMod p)} {s1 s2 : SExpr} (h1 : Okk D G k1 s1) (h2 : Okk D G k2 s2) (h : alignPair k1 k2 = .ok (a, b)) :
    (a.ty = .int ∧ b.ty = .int ∧ Raw D G a s1 ∧ Raw D G b s2) ∨
    (Fin D G a s1 ∧ Fin D G b s2 ∧ NoInt a.ty ∧ NoInt b.ty ∧ (Alike a.ty b.ty ∨ (a.ty.IsUint ∧ b.ty.IsUint))) := by
  have hcomp : ∀ {t : CType}, common k1.ty k2.ty = .ok t → ∀ {l r : KExpr (ZMod p)}, orReject (alignTo false k1 t) = .ok l → orReject (alignTo false k2 t) = .ok r →
      (Fin D G l s1 ∧ Fin D G r s2 ∧ NoInt l.ty ∧ NoInt r.ty ∧ (Alike l.ty r.ty ∨ (l.ty.IsUint ∧ r.ty.IsUint))) := by
    intro t hc l r hl hr
    have hn := common_noInt hc
    obtain ⟨a1, a2, _⟩ := (align_spec h1.1 hn.structs (orReject_ok hl)).2 hn
    obtain ⟨b1, b2, _⟩ := (align_spec h2.1 hn.structs (orReject_ok hr)).2 hn
    exact ⟨a1, b1, (Alike.noInt a2).2 hn, (Alike.noInt b2).2 hn, .inl (a2.trans b2.symm)⟩
  have hcast1 : ∀ {t : CType} {l : KExpr (ZMod p)}, (t = .field ∨ ∃ w, t = .uint w) → orReject (castInt t k1) = .ok l → Fin D G l s1 ∧ l.ty = t := by
    intro t l ht hl
    obtain ⟨a, b, _⟩ := cast_spec ht h1.1 (orReject_ok hl)
    exact ⟨a, b⟩
  have hcast2 : ∀ {t : CType} {l : KExpr (ZMod p)}, (t = .field ∨ ∃ w, t = .uint w) → orReject (castInt t k2) = .ok l → Fin D G l s2 ∧ l.ty = t := by
    intro t l ht hl
    obtain ⟨a, b, _⟩ := cast_spec ht h2.1 (orReject_ok hl)
    exact ⟨a, b⟩
  unfold alignPair at h
  split at h
  · rename_i ha hb
    obtain ⟨l, hl, h⟩ := bind_ok h
    cases h
    obtain ⟨q1, q2⟩ := hcast1 (.inl rfl) hl
    refine .inr ⟨q1, h2.2 (hb ▸ noInt_field), q2 ▸ noInt_field, hb ▸ noInt_field, .inl ?_⟩
    rw [q2, hb]; exact Alike.refl _
  · rename_i ha hb
    obtain ⟨l, hl, h⟩ := bind_ok h
    cases h
    obtain ⟨q1, q2⟩ := hcast2 (.inl rfl) hl
    refine .inr ⟨h1.2 (ha ▸ noInt_field), q1, ha ▸ noInt_field, q2 ▸ noInt_field, .inl ?_⟩
    rw [q2, ha]; exact Alike.refl _
  · rename_i w ha hb
    obtain ⟨l, hl, h⟩ := bind_ok h
    cases h
    obtain ⟨q1, q2⟩ := hcast1 (.inr ⟨_, rfl⟩) hl
    refine .inr ⟨q1, h2.2 (hb ▸ noInt_uint), q2 ▸ noInt_uint, hb ▸ noInt_uint, .inl ?_⟩
    rw [q2, hb]; exact Alike.refl _
  · rename_i w ha hb
    obtain ⟨l, hl, h⟩ := bind_ok h
    cases h
    obtain ⟨q1, q2⟩ := hcast2 (.inr ⟨_, rfl⟩) hl
    refine .inr ⟨h1.2 (ha ▸ noInt_uint), q1, ha ▸ noInt_uint, q2 ▸ noInt_uint, .inl ?_⟩
    rw [q2, ha]; exact Alike.refl _
  · obtain ⟨t, hc, h⟩ := bind_ok h
    obtain ⟨l, hl, h⟩ := bind_ok h
    obtain ⟨r, hr, h⟩ := bind_ok h
    cases h
    exact .inr (hcomp hc hl hr)
  · obtain ⟨t, hc, h⟩ := bind_ok h
    obtain ⟨l, hl, h⟩ := bind_ok h
    obtain ⟨r, hr, h⟩ := bind_ok h
    cases h
    exact .inr (hcomp hc hl hr)
  · obtain ⟨t, hc, h⟩ := bind_ok h
    obtain ⟨l, hl, h⟩ := bind_ok h
    obtain ⟨r, hr, h⟩ := bind_ok h
    cases h
    exact .inr (hcomp hc hl hr)
  · rename_i w w' ha hb
    cases h
    exact .inr ⟨h1.2 (ha ▸ noInt_uint), h2.2 (hb ▸ noInt_uint), ha ▸ noInt_uint, hb ▸ noInt_uint, .inr ⟨ha ▸ trivial, hb ▸ trivial⟩⟩
  · rename_i ha hb
    cases h
    exact .inr ⟨h1.2 (ha ▸ noInt_bool), h2.2 (hb ▸ noInt_bool), ha ▸ noInt_bool, hb ▸ noInt_bool, .inl (ha.trans hb.symm ▸ Alike.refl _)⟩
  · rename_i ha hb
    cases h
    exact .inr ⟨h1.2 (ha ▸ noInt_field), h2.2 (hb ▸ noInt_field), ha ▸ noInt_field, hb ▸ noInt_field, .inl (ha.trans hb.symm ▸ Alike.refl _)⟩
  · rename_i ha hb
    cases h
    exact .inl ⟨ha, hb, h1.1, h2.1⟩
  · cases h

theorem scalarTo_spec {t : CType} {k k' : KExpr (ZMod p)} {s : SExpr} (h : Okk D G k s) (he : orReject (scalarTo k t) = .ok k') :
    Fin D G k' s ∧ k'.ty = t ∧ NoInt t := by
  obtain ⟨a, b, c, _⟩ := scalarTo_raw h.1 h.2 (orReject_ok he)
  exact ⟨a, b, c⟩

/-- A final expression which is not inline. -/
theorem okk_fin {k : KExpr (ZMod p)} {s : SExpr} (h : Fin D G k s) (hi : k.inline = false) (hn : NoInt k.ty) : Okk D G k s := ⟨raw_fin h hi hn, fun _ => h⟩

theorem fin_element' {k : KExpr (ZMod p)} {s : SExpr} {t : CType} {ts : List CType} {i : ℕ} (h : Okk D G k s) (ht : k.ty = .tuple ts) (hi : ts[i]? = some t) :
    Fin D G (.element t k i) (.element s i) := by
  cases hT : toT k with
  | none => exact .inl (by simp [toT, hT])
  | some e =>
    obtain ⟨h2, h3⟩ := raw_rd h.1 e hT
    refine .inr ⟨.element t e i, by simp [toT, hT], rfl, .element h3, fun ha => ?_⟩
    simp only [Agree] at ha
    rcases h.2 (by have := ha.1; rwa [h2] at this) with h' | ⟨e', h1', _, _, h4'⟩
    · rw [h'] at hT; cases hT
    · rw [h1'] at hT; cases hT
      have := (h4' ha.2).2
      rw [h2, ht] at this
      exact ⟨⟨⟨ts, h2.trans ht, hi⟩, (h4' ha.2).1⟩, typeOk_get this hi⟩

theorem noIntM_mem : ∀ {ms : List (Str × CType)} {m : Str} {t : CType}, (primCountM ms).isSome → (m, t) ∈ ms → NoInt t
  | [], m, t, _, h => by simp at h
  | (m', u) :: ms, m, t, hs, h => by
    rw [noIntM_cons] at hs
    rcases List.mem_cons.1 h with h | h
    · cases h; exact hs.1
    · exact noIntM_mem hs.2 h

end Zok.Sem
