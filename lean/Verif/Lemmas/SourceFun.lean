import Verif.Lemmas.Source
import Verif.Props.Reducer

/-
A typed function which reads a source function returns what the source function returns; as a function of the reducer, it is well typed.
-/

set_option linter.unusedVariables false
set_option linter.unusedSimpArgs false
set_option linter.unusedSectionVars false

namespace Zok.Sem
open Typed Abi
variable {p : ℕ} {D : Decls} {V : SVars} [Fact p.Prime] {E : SEnv p} {env : TEnv p} {Z : Type} {O : Oracle p Z}

theorem evA_sound (ho : EnvOk V.types E env) : ∀ {a : SAssignee} {t : CType} {v : AVal (ZMod p)}, EvA D E a t v → ∀ {a' : TAssignee (ZMod p)}, ReadsA D V a a' → a'.Wt →
    a'.ty = some t ∧ getA env a' = .ok v := by
  intro a t v h
  induction h with
  | @ident x _ _ h =>
    intro a' hr hw
    have k := ho.types x
    cases hr with
    | ident h' =>
      rw [h] at k
      simp only [SVars.types, h', Option.map_some, Option.some.injEq] at k
      subst k
      obtain ⟨a, b⟩ := ho.vals _ _ _ h
      exact ⟨rfl, by simp [getA, evalT, b, a]⟩
  | select h hi hk ih =>
    intro a' hr hw
    cases hr with
    | select r1 r2 =>
      obtain ⟨a, b⟩ := ih r1 hw.2.2.2
      have c := (ev_sound ho hi r2 hw.2.2.1 (.inl hw.2.1)).2
      exact ⟨by simp [TAssignee.ty, a], by simp [getA, b, c, asArray, asUint, Except.bind, bind, selectVal, hk]⟩
  | element h hi hv ih =>
    intro a' hr hw
    cases hr with
    | element r1 =>
      obtain ⟨a, b⟩ := ih r1 hw.2
      exact ⟨by simp [TAssignee.ty, a, hi], by simp [getA, b, Except.bind, bind, hv]⟩
  | member h hi hv ih =>
    intro a' hr hw
    cases hr with
    | member r1 =>
      obtain ⟨a, b⟩ := ih r1 hw.2
      exact ⟨by simp [TAssignee.ty, a, hi], by simp [getA, b, Except.bind, bind, hv]⟩

theorem hasTypeL_set : ∀ {ts : List CType} {vs : List (AVal (ZMod p))} {i : ℕ} {t : CType} {v : AVal (ZMod p)}, HasTypeL ts vs → ts[i]? = some t → HasType t v →
    HasTypeL ts (vs.set i v)
  | [], _, _, _, _, _, h, _ => by simp at h
  | _ :: _, [], _, _, _, h, _, _ => h.elim
  | _ :: _, _ :: _, 0, _, _, h, h1, h2 => by
    simp only [List.getElem?_cons_zero, Option.some.injEq] at h1
    subst h1
    exact ⟨h2, h.2⟩
  | _ :: _, _ :: _, i + 1, _, _, h, h1, h2 => ⟨h.1, hasTypeL_set h.2 (by simpa using h1) h2⟩

theorem hasTypeM_other : ∀ {ms : List (Str × CType)} {fs : List (Str × AVal (ZMod p))} {m : Str} {v : AVal (ZMod p)}, HasTypeM ms fs → m ∉ ms.map Prod.fst →
    HasTypeM ms (fs.map fun f => if f.1 = m then (f.1, v) else f)
  | [], [], _, _, _, _ => by simp [HasTypeM]
  | [], _ :: _, _, _, h, _ => h.elim
  | _ :: _, [], _, _, h, _ => h.elim
  | (k, t) :: ms, (k', w) :: fs, m, v, h, hm => by
    simp only [List.map_cons, List.mem_cons, not_or] at hm
    obtain ⟨rfl, h1, h2⟩ := h
    rw [List.map_cons, if_neg (fun h => hm.1 h.symm)]
    exact ⟨rfl, h1, hasTypeM_other h2 hm.2⟩

theorem hasTypeM_put : ∀ {ms : List (Str × CType)} {fs : List (Str × AVal (ZMod p))} {m : Str} {t : CType} {v : AVal (ZMod p)}, (ms.map Prod.fst).Nodup → HasTypeM ms fs →
    ms.lookup m = some t → HasType t v → HasTypeM ms (fs.map fun f => if f.1 = m then (f.1, v) else f)
  | [], _, _, _, _, _, _, h, _ => by simp at h
  | _ :: _, [], _, _, _, _, h, _, _ => h.elim
  | (k, t) :: ms, (k', w) :: fs, m, _, v, hn, h, hl, hv => by
    simp only [List.map_cons, List.nodup_cons] at hn
    obtain ⟨rfl, h1, h2⟩ := h
    rw [List.lookup_cons] at hl
    rw [List.map_cons]
    split at hl
    · rename_i hk
      cases hl
      rw [beq_iff_eq] at hk
      subst hk
      rw [if_pos rfl]
      exact ⟨rfl, hv, hasTypeM_other h2 hn.1⟩
    · rename_i hk
      rw [if_neg (fun (h : k' = m) => by simp [h] at hk)]
      exact ⟨rfl, h1, hasTypeM_put hn.2 h2 hl hv⟩

theorem evA_type (ho : EnvOk V.types E env) {a : SAssignee} {t : CType} {v : AVal (ZMod p)} (h : EvA D E a t v) : ∀ {a' : TAssignee (ZMod p)}, ReadsA D V a a' → a'.Wt →
    HasType t v ∧ TypeOk t := by
  induction h with
  | @ident x _ _ h =>
    intro a' hr hw
    have k := ho.types x
    cases hr with
    | ident h' =>
      rw [h] at k
      simp only [SVars.types, h', Option.map_some, Option.some.injEq] at k
      subst k
      exact ⟨(ho.vals _ _ _ h).1, hw⟩
  | select h hi hk ih =>
    intro a' hr hw
    cases hr with
    | select r1 r2 =>
      obtain ⟨a, b⟩ := ih r1 hw.2.2.2
      simp only [HasType] at a
      exact ⟨a.2 _ (List.mem_of_getElem? hk), typeOk_elem b⟩
  | element h hi hv ih =>
    intro a' hr hw
    cases hr with
    | element r1 =>
      obtain ⟨a, b⟩ := ih r1 hw.2
      simp only [HasType] at a
      exact ⟨hasTypeL_get _ _ _ _ _ a hi hv, typeOk_get b hi⟩
  | member h hi hv ih =>
    intro a' hr hw
    cases hr with
    | member r1 =>
      obtain ⟨a, b⟩ := ih r1 hw.2
      simp only [HasType] at a
      exact ⟨hasTypeM_lookup _ _ _ _ _ a hi hv, typeOk_mem b (lookup_mem hi)⟩

theorem put_type (ho : EnvOk V.types E env) {a : SAssignee} {v : AVal (ZMod p)} {x : TId} {w : AVal (ZMod p)} (h : Put D E a v x w) :
    ∀ {a' : TAssignee (ZMod p)} {t T : CType} {w' : AVal (ZMod p)}, ReadsA D V a a' → a'.Wt → a'.ty = some t → HasType t v → E x = some (T, w') → HasType T w := by
  induction h with
  | @ident x _ =>
    intro a' t T w' hr hw ht hv hE
    have k := ho.types x
    cases hr with
    | ident h' =>
      rw [hE] at k
      simp only [SVars.types, h', Option.map_some, Option.some.injEq] at k
      cases ht
      rw [← k]
      exact hv
  | select h hi hk _ ih =>
    intro a' t T w' hr hw ht hv hE
    cases hr with
    | select r1 r2 =>
      have t1 := (evA_sound ho h r1 hw.2.2.2).1
      have t2 := evA_type ho h r1 hw.2.2.2
      refine ih r1 hw.2.2.2 t1 ?_ hE
      simp only [TAssignee.ty, t1, Option.some.injEq] at ht
      subst ht
      simp only [HasType] at t2 ⊢
      refine ⟨by rw [List.length_set]; exact t2.1.1, fun u hu => ?_⟩
      rcases List.mem_or_eq_of_mem_set hu with hu | rfl
      · exact t2.1.2 u hu
      · exact hv
  | element h _ ih =>
    intro a' t T w' hr hw ht hv hE
    cases hr with
    | element r1 =>
      have t1 := (evA_sound ho h r1 hw.2).1
      have t2 := evA_type ho h r1 hw.2
      refine ih r1 hw.2 t1 ?_ hE
      obtain ⟨⟨ts, t', h1, h2⟩, -⟩ := hw
      rw [t1] at h1
      cases h1
      simp only [TAssignee.ty, t1] at ht
      simp only [HasType] at t2 ⊢
      exact hasTypeL_set t2.1 ht hv
  | member h _ ih =>
    intro a' t T w' hr hw ht hv hE
    cases hr with
    | member r1 =>
      have t1 := (evA_sound ho h r1 hw.2).1
      have t2 := evA_type ho h r1 hw.2
      refine ih r1 hw.2 t1 ?_ hE
      obtain ⟨⟨ts, t', h1, h2⟩, -⟩ := hw
      rw [t1] at h1
      cases h1
      simp only [TAssignee.ty, t1] at ht
      have hn := t2.2.1.1
      simp only [CType.Distinct] at hn
      simp only [HasType] at t2 ⊢
      exact hasTypeM_put hn.1 t2.1 ht hv

theorem put_sound (ho : EnvOk V.types E env) {a : SAssignee} {v : AVal (ZMod p)} {x : TId} {w : AVal (ZMod p)} (h : Put D E a v x w) :
    ∀ {a' : TAssignee (ZMod p)}, ReadsA D V a a' → a'.Wt → a'.root = x ∧ setA env a' v = .ok w := by
  induction h with
  | ident =>
    intro a' hr hw
    cases hr
    exact ⟨rfl, rfl⟩
  | select h hi hk _ ih =>
    intro a' hr hw
    cases hr with
    | select r1 r2 =>
      obtain ⟨-, b⟩ := evA_sound ho h r1 hw.2.2.2
      have c := (ev_sound ho hi r2 hw.2.2.1 (.inl hw.2.1)).2
      obtain ⟨i1, i2⟩ := ih r1 hw.2.2.2
      exact ⟨i1, by simp [setA, b, c, asArray, asUint, Except.bind, bind, hk, i2]⟩
  | element h _ ih =>
    intro a' hr hw
    cases hr with
    | element r1 =>
      obtain ⟨-, b⟩ := evA_sound ho h r1 hw.2
      obtain ⟨i1, i2⟩ := ih r1 hw.2
      exact ⟨i1, by simp [setA, b, Except.bind, bind, i2]⟩
  | member h _ ih =>
    intro a' hr hw
    cases hr with
    | member r1 =>
      obtain ⟨-, b⟩ := evA_sound ho h r1 hw.2
      obtain ⟨i1, i2⟩ := ih r1 hw.2
      exact ⟨i1, by simp [setA, b, Except.bind, bind, i2]⟩

theorem EnvOk.insert (ho : EnvOk V.types E env) {x : TId} {t : CType} {m : Bool} {v : AVal (ZMod p)} (hv : HasType t v) :
    EnvOk (V.insert x t m).types (E.set x t v) (fun y => if y = x then some v else env y) where
  types y := by
    have := ho.types y
    simp only [SVars.types, SVars.insert, SEnv.set] at this ⊢
    split
    · rfl
    · exact this
  vals y t' v' h := by
    simp only [SEnv.set] at h ⊢
    split at h
    · rename_i hy
      cases h
      rw [if_pos hy]
      exact ⟨hv, rfl⟩
    · rename_i hy
      rw [if_neg hy]
      exact ho.vals _ _ _ h

theorem EnvOk.update (ho : EnvOk V.types E env) {x : TId} {T : CType} {v v' : AVal (ZMod p)} (hx : E x = some (T, v')) (hv : HasType T v) :
    EnvOk V.types (E.set x T v) (fun y => if y = x then some v else env y) where
  types y := by
    have := ho.types y
    simp only [SEnv.set] at this ⊢
    split
    · rename_i hy
      rw [this, hy, hx]
      rfl
    · exact this
  vals y t' v'' h := by
    simp only [SEnv.set] at h ⊢
    split at h
    · rename_i hy
      cases h
      rw [if_pos hy]
      exact ⟨hv, rfl⟩
    · rename_i hy
      rw [if_neg hy]
      exact ho.vals _ _ _ h

theorem run_sound {r : CType} {E : SEnv p} {ss : List SStmt} {out : AVal (ZMod p)} (h : Run D r E ss out) : ∀ {V : SVars} {σ : TState p} {ts : List (TStmt (ZMod p))},
    EnvOk V.types E σ.env → ReadsSS D V ss ts → (∀ s ∈ ts, s.Wt r) → ∃ σ', ExecTs O σ ts (.ok σ') ∧ σ'.out = some out := by
  induction h with
  | ret h =>
    intro V σ ts ho hr hw
    cases hr with
    | ret r1 r2 =>
      cases r2
      have w := hw _ List.mem_cons_self
      have a := (ev_sound ho h r1 w.2 (.inl w.1)).2
      exact ⟨_, .cons (.ret a) .nil, rfl⟩
  | definition h _ ih =>
    intro V σ ts ho hr hw
    cases hr with
    | definition r1 r2 =>
      have w := hw _ List.mem_cons_self
      have ht := Option.some.inj w.1
      have a := (ev_sound ho h r1 w.2.2 (.inl ht.symm)).2
      have hv := eval_hasType _ _ _ w.2.2 a
      rw [← ht] at hv
      obtain ⟨σ', h1, h2⟩ := ih (σ := σ.set _ _) (ho.insert hv) r2 fun s hs => hw s (List.mem_cons_of_mem _ hs)
      exact ⟨σ', .cons (.definition a rfl) h1, h2⟩
  | assignment hA h hP hx _ ih =>
    intro V σ ts ho hr hw
    cases hr with
    | assignment r0 r1 r2 =>
      have w := hw _ List.mem_cons_self
      have b := evA_sound ho hA r0 w.2.1
      have ht := Option.some.inj (b.1.symm.trans w.1)
      have a := (ev_sound ho h r1 w.2.2 (.inl ht.symm)).2
      obtain ⟨c, d⟩ := put_sound ho hP r0 w.2.1
      have hv := eval_hasType _ _ _ w.2.2 a
      rw [← ht] at hv
      have hT := put_type ho hP r0 w.2.1 b.1 hv hx
      obtain ⟨σ', h1, h2⟩ := ih (σ := σ.set _ _) (ho.update hx hT) r2 fun s hs => hw s (List.mem_cons_of_mem _ hs)
      exact ⟨σ', .cons (.definition a d) (by rw [c]; exact h1), h2⟩
  | assertion h _ ih =>
    intro V σ ts ho hr hw
    cases hr with
    | assertion r1 r2 =>
      have w := hw _ List.mem_cons_self
      have a := (ev_sound ho h r1 w.2 (.inl w.1)).2
      obtain ⟨σ', h1, h2⟩ := ih ho r2 fun s hs => hw s (List.mem_cons_of_mem _ hs)
      exact ⟨σ', .cons (.assertOk a) h1, h2⟩

theorem fails_sound {r : CType} {E : SEnv p} {ss : List SStmt} (h : RunFails D E ss) : ∀ {V : SVars} {σ : TState p} {ts : List (TStmt (ZMod p))},
    EnvOk V.types E σ.env → ReadsSS D V ss ts → (∀ s ∈ ts, s.Wt r) → ExecTs O σ ts (.error .assertionFailed) := by
  induction h with
  | here h =>
    intro V σ ts ho hr hw
    cases hr with
    | assertion r1 r2 =>
      have w := hw _ List.mem_cons_self
      have a := (ev_sound ho h r1 w.2 (.inl w.1)).2
      exact .fault (.assertFailed a)
  | definition h _ ih =>
    intro V σ ts ho hr hw
    cases hr with
    | definition r1 r2 =>
      have w := hw _ List.mem_cons_self
      have ht := Option.some.inj w.1
      have a := (ev_sound ho h r1 w.2.2 (.inl ht.symm)).2
      have hv := eval_hasType _ _ _ w.2.2 a
      rw [← ht] at hv
      exact .cons (.definition a rfl) (ih (σ := σ.set _ _) (ho.insert hv) r2 fun s hs => hw s (List.mem_cons_of_mem _ hs))
  | assignment hA h hP hx _ ih =>
    intro V σ ts ho hr hw
    cases hr with
    | assignment r0 r1 r2 =>
      have w := hw _ List.mem_cons_self
      have b := evA_sound ho hA r0 w.2.1
      have ht := Option.some.inj (b.1.symm.trans w.1)
      have a := (ev_sound ho h r1 w.2.2 (.inl ht.symm)).2
      obtain ⟨c, d⟩ := put_sound ho hP r0 w.2.1
      have hv := eval_hasType _ _ _ w.2.2 a
      rw [← ht] at hv
      have hT := put_type ho hP r0 w.2.1 b.1 hv hx
      exact .cons (.definition a d) (by rw [c]; exact ih (σ := σ.set _ _) (ho.update hx hT) r2 fun s hs => hw s (List.mem_cons_of_mem _ hs))
  | assertion h _ ih =>
    intro V σ ts ho hr hw
    cases hr with
    | assertion r1 r2 =>
      have w := hw _ List.mem_cons_self
      have a := (ev_sound ho h r1 w.2 (.inl w.1)).2
      exact .cons (.assertOk a) (ih ho r2 fun s hs => hw s (List.mem_cons_of_mem _ hs))

theorem envOk_args : ∀ (qs : List (TParam × Bool)) (args : List (AVal (ZMod p))) {V : SVars} {E : SEnv p} {σ : TState p}, HasTypeL (qs.map fun q => q.1.ty) args →
    EnvOk V.types E σ.env → EnvOk (SVars.ofParams qs V).types (E.ofArgs qs args) (σ.setAll ((qs.map Prod.fst).map TParam.id) args).env
  | [], [], _, _, _, _, h => h
  | [], _ :: _, _, _, _, h, _ => h.elim
  | _ :: _, [], _, _, _, h, _ => h.elim
  | (q, m) :: qs, v :: vs, V, E, σ, h, ho => envOk_args qs vs (V := V.insert q.id q.ty m) (E := E.set q.id q.ty v) (σ := σ.set q.id v) h.2 (ho.insert h.1)

theorem envOk_empty : EnvOk (p := p) (SVars.types fun _ => none) (fun _ => none) (⟨fun _ => none, none⟩ : TState p).env :=
  ⟨fun _ => rfl, fun _ _ _ h => by cases h⟩

/-! ### No slices -/

mutual
theorem reads_noSlice {G : Scope} : ∀ {s : SExpr} {e : TExpr (ZMod p)}, Reads D G s e → e.NoSlice
  | _, _, .intF _ | _, _, .intU _ | _, _, .fieldC _ | _, _, .uintC _ | _, _, .boolC | _, _, .ident _ => by simp [TExpr.NoSlice]
  | _, _, .fneg h | _, _, .fpos h | _, _, .uneg h | _, _, .upos h | _, _, .unot h | _, _, .bnot h => by simp only [TExpr.NoSlice]; exact reads_noSlice h
  | _, _, .element h | _, _, .member h => by simp only [TExpr.NoSlice]; exact reads_noSlice h
  | _, _, .fbin _ h h' => by simp only [TExpr.NoSlice]; exact ⟨reads_noSlice h, reads_noSlice h'⟩
  | _, _, .ubin h h' | _, _, .fpow h h' | _, _, .fshl h h' | _, _, .fshr h h' | _, _, .ushl h h' | _, _, .ushr h h' | _, _, .logic h h' | _, _, .logicF h h' | _, _, .logicU h h'
  | _, _, .flt h h' | _, _, .fle h h' | _, _, .ult h h' | _, _, .ule h h' | _, _, .eq h h' | _, _, .select h h' | _, _, .repeat_ h h' => by
    simp only [TExpr.NoSlice]; exact ⟨reads_noSlice h, reads_noSlice h'⟩
  | _, _, .fgt h h' | _, _, .fge h h' | _, _, .ugt h h' | _, _, .uge h h' => by simp only [TExpr.NoSlice]; exact ⟨reads_noSlice h', reads_noSlice h⟩
  | _, _, .cond h h' h'' => by simp only [TExpr.NoSlice]; exact ⟨reads_noSlice h, reads_noSlice h', reads_noSlice h''⟩
  | _, _, .array h => by simp only [TExpr.NoSlice]; exact readsS_noSlice h
  | _, _, .struct _ _ h => by simp only [TExpr.NoSlice]; exact readsM_noSlice h
  | _, _, .tuple h => by simp only [TExpr.NoSlice]; exact readsL_noSlice h
theorem readsL_noSlice {G : Scope} : ∀ {ss : List SExpr} {es : List (TExpr (ZMod p))}, ReadsL D G ss es → NoSliceL es
  | _, _, .nil => by simp [NoSliceL]
  | _, _, .cons h h' => by simp only [NoSliceL]; exact ⟨reads_noSlice h, readsL_noSlice h'⟩
theorem readsS_noSlice {G : Scope} : ∀ {ss : List SSpread} {es : List (TSpread (ZMod p))}, ReadsS D G ss es → NoSliceS es
  | _, _, .nil => by simp [NoSliceS]
  | _, _, .expr h h' | _, _, .spread h h' => by simp only [NoSliceS]; exact ⟨reads_noSlice h, readsS_noSlice h'⟩
theorem readsM_noSlice {G : Scope} : ∀ {names : List Str} {ss : List SExpr} {ms : List (Str × CType)} {es : List (TExpr (ZMod p))}, ReadsM D G names ss ms es → NoSliceL es
  | _, _, _, _, .nil => by simp [NoSliceL]
  | _, _, _, _, .cons _ h h' => by simp only [NoSliceL]; exact ⟨reads_noSlice h, readsM_noSlice h'⟩
end

/-! ### Functions of the reducer -/

/-- The function, as a function with loops and calls. -/
def toReduce (f : TFun (ZMod p)) : Typed.SFun (ZMod p) := ⟨f.params, f.body.map .simple, f.ret⟩

/-- No functions. -/
def noFunctions : Program (ZMod p) := fun _ _ _ _ => none

theorem noFunctions_wt : (noFunctions (p := p)).Wt := fun _ _ _ _ _ h => by cases h
theorem noFunctions_free : (noFunctions (p := p)).OracleFree := fun _ _ _ _ _ h => by cases h

theorem readsSS_wtSs {r : CType} : ∀ {ss : List SStmt} {V : SVars} {ts : List (TStmt (ZMod p))}, ReadsSS D V ss ts → (∀ s ∈ ts, s.Wt r) → WtSs r (ts.map .simple)
  | _, _, _, .nil, _ => by simp [WtSs]
  | _, _, _, .definition h h', hw => by
    simp only [List.map_cons, WtSs]
    exact ⟨⟨hw _ List.mem_cons_self, fun _ _ _ => .inr (reads_noSlice h)⟩, readsSS_wtSs h' fun s hs => hw s (List.mem_cons_of_mem _ hs)⟩
  | _, _, _, .assignment _ h h', hw => by
    simp only [List.map_cons, WtSs]
    exact ⟨⟨hw _ List.mem_cons_self, fun _ _ _ => .inr (reads_noSlice h)⟩, readsSS_wtSs h' fun s hs => hw s (List.mem_cons_of_mem _ hs)⟩
  | _, _, _, .assertion h h', hw => by
    simp only [List.map_cons, WtSs]
    exact ⟨hw _ List.mem_cons_self, readsSS_wtSs h' fun s hs => hw s (List.mem_cons_of_mem _ hs)⟩
  | _, _, _, .ret h h', hw => by
    simp only [List.map_cons, WtSs]
    exact ⟨hw _ List.mem_cons_self, readsSS_wtSs h' fun s hs => hw s (List.mem_cons_of_mem _ hs)⟩

theorem exec_simple {ts : List (TStmt (ZMod p))} {P : Program (ZMod p)} : ∀ {σ : TState p} {r : Except Fault (TState p)}, ExecTs O σ ts r ↔ ExecSs O P σ (ts.map .simple) r := by
  induction ts with
  | nil =>
    intro σ r
    refine ⟨fun h => by cases h; exact .nil, fun h => by cases h; exact .nil⟩
  | cons s ts ih =>
    intro σ r
    constructor
    · intro h
      cases h with
      | fault h => exact .fault (.simple h)
      | cons h h' => exact .cons (.simple h) (ih.1 h')
    · intro h
      cases h with
      | fault h => cases h with | simple h => exact .fault h
      | cons h h' => cases h with | simple h => exact .cons h (ih.2 h')

end Zok.Sem
