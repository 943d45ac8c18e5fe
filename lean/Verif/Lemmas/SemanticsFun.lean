import Verif.Lemmas.SemanticsCheck

/-
The type checker on statements and functions.
-/

set_option linter.unusedVariables false
set_option linter.unusedSimpArgs false

namespace Zok.Sem
open Typed Abi
variable {p : ℕ} {D : Decls} {V : SVars}

theorem typed_ok {k : KExpr (ZMod p)} {e : TExpr (ZMod p)} (h : typed k = .ok e) : toT k = some e := by
  unfold typed at h
  split at h
  · rename_i e' he; cases h; exact he
  · cases h

/-- The parts of `Fin`. -/
theorem fin_some {G : Scope} {k : KExpr (ZMod p)} {s : SExpr} {e : TExpr (ZMod p)} (h : Fin D G k s) (he : toT k = some e) :
    e.ty = k.ty ∧ Reads D G s e ∧ (Agree e → e.Wt ∧ TypeOk e.ty) := by
  rcases h with h | ⟨e', h1, h2, h3, h4⟩
  · rw [h] at he; cases he
  · rw [h1] at he; cases he; exact ⟨h2, h3, h4⟩

/-- The types of the scope are types without integer literals. -/
def SVars.Ok (V : SVars) : Prop := ∀ x t m, V x = some (t, m) → TypeOk t

theorem SVars.Ok.types (h : V.Ok) : ∀ x t, V.types x = some t → TypeOk t := by
  intro x t hx
  simp only [SVars.types, Option.map_eq_some_iff] at hx
  obtain ⟨⟨t', m⟩, h1, h2⟩ := hx
  cases h2
  exact h x t' m h1

theorem SVars.Ok.insert (h : V.Ok) {x : TId} {t : CType} {m : Bool} (ht : TypeOk t) : (V.insert x t m).Ok := by
  intro y u m' hy
  simp only [SVars.insert] at hy
  split at hy
  · cases hy; exact ht
  · exact h y u m' hy

theorem assignee_spec (hD : Decls.Ok D) (hV : V.Ok) : ∀ (a : SAssignee) {a' : TAssignee (ZMod p)}, checkAssignee D V a = .ok a' →
    ReadsA D V a a' ∧ (∀ t, a'.ty = some t → TypeOk t) ∧ (AgreeA a' → a'.Wt)
  | .ident x, a', h => by
    simp only [checkAssignee] at h
    split at h <;> cases h
    rename_i t ht
    exact ⟨.ident ht, by intro u hu; simp only [TAssignee.ty] at hu; cases hu; exact hV x t true ht, fun _ => hV x t true ht⟩
  | .select a i, a', h => by
    simp only [checkAssignee] at h
    have hbo := bind_ok h
    clear h
    obtain ⟨a1, h1, h⟩ := hbo
    obtain ⟨r1, r2, r3⟩ := assignee_spec hD hV a h1
    split at h
    · rename_i n t ht
      have hbo := bind_ok h
      clear h
      obtain ⟨k, h2, h⟩ := hbo
      have hbo := bind_ok h
      clear h
      obtain ⟨k', h3, h⟩ := hbo
      have hbo := bind_ok h
      clear h
      obtain ⟨j, h4, h⟩ := hbo
      cases h
      obtain ⟨q1, q2, _⟩ := scalarTo_spec (check_spec hD hV.types i h2) h3
      obtain ⟨q3, q4, q5⟩ := fin_some q1 (typed_ok h4)
      refine ⟨.select r1 q4, ?_, fun ha => ⟨⟨n, t, ht⟩, q3.trans q2, (q5 ha.2).1, r3 ha.1⟩⟩
      intro u hu
      simp only [TAssignee.ty, ht, Option.some.injEq] at hu
      exact hu ▸ typeOk_elem (r2 _ ht)
    · cases h
  | .member a m, a', h => by
    simp only [checkAssignee] at h
    have hbo := bind_ok h
    clear h
    obtain ⟨a1, h1, h⟩ := hbo
    obtain ⟨r1, r2, r3⟩ := assignee_spec hD hV a h1
    split at h
    · rename_i ms ht
      split at h <;> cases h
      rename_i hm
      obtain ⟨t, hm⟩ := Option.isSome_iff_exists.1 hm
      refine ⟨.member r1, ?_, fun ha => ⟨⟨ms, t, ht, hm⟩, r3 ha⟩⟩
      intro u hu
      simp only [TAssignee.ty, ht] at hu
      exact typeOk_mem (r2 _ ht) (lookup_mem hu)
    · cases h
  | .element a i, a', h => by
    simp only [checkAssignee] at h
    have hbo := bind_ok h
    clear h
    obtain ⟨a1, h1, h⟩ := hbo
    obtain ⟨r1, r2, r3⟩ := assignee_spec hD hV a h1
    split at h
    · rename_i ts ht
      split at h <;> cases h
      rename_i hm
      refine ⟨.element r1, ?_, fun ha => ⟨⟨ts, ts[i], ht, by simp⟩, r3 ha⟩⟩
      intro u hu
      simp only [TAssignee.ty, ht] at hu
      exact typeOk_get (r2 _ ht) hu
    · cases h

/-- The conversion to a declared type. -/
theorem align_decl (hD : Decls.Ok D) (hV : V.Ok) {e : SExpr} {k k' : KExpr (ZMod p)} {e' : TExpr (ZMod p)} {t : CType} (ht : TypeOk t)
    (h : check D V.types e = .ok k) (h2 : orReject (alignTo true k t) = .ok k') (h3 : typed k' = .ok e') :
    e'.ty = k'.ty ∧ Alike e'.ty t ∧ Reads D V.types e e' ∧ (Agree e' → e'.Wt ∧ TypeOk e'.ty) := by
  have hc := check_spec hD hV.types e h
  have hn : NoInt t := ht.2
  obtain ⟨a, b⟩ := align_spec hc.1 hn.structs (orReject_ok h2)
  obtain ⟨c, d, _⟩ := b hn
  obtain ⟨q1, q2, q3⟩ := fin_some c (typed_ok h3)
  exact ⟨q1, q1 ▸ d, q2, q3⟩

theorem stmts_spec (hD : Decls.Ok D) {r : CType} (hr : TypeOk r) : ∀ (ss : List SStmt) {V : SVars} {ts : List (TStmt (ZMod p))}, V.Ok →
    (∀ s ∈ ss, ∀ t ∈ s.declares, TypeOk t) → checkStmts D r V ss = .ok ts → ReadsSS D V ss ts ∧ ((∀ s ∈ ts, AgreeStmt s) → ∀ s ∈ ts, s.Wt r)
  | [], V, ts, hV, ho, h => by
    simp only [checkStmts] at h
    cases h
    exact ⟨.nil, fun _ => by simp⟩
  | s :: ss, V, ts, hV, ho, h => by
    simp only [checkStmts] at h
    have hbo := bind_ok h
    clear h
    obtain ⟨⟨V', s'⟩, h1, h⟩ := hbo
    have hbo := bind_ok h
    clear h
    obtain ⟨ts', h2, h⟩ := hbo
    cases h
    have ho' : ∀ s ∈ ss, ∀ t ∈ s.declares, TypeOk t := fun s hs => ho s (by simp [hs])
    dsimp only at h2
    cases s with
    | definition x t m e =>
      have ht : TypeOk t := ho (.definition x t m e) List.mem_cons_self t (by simp [SStmt.declares])
      simp only [checkStmt] at h1
      have hbo := bind_ok h1
      clear h1
      obtain ⟨k, g1, h1⟩ := hbo
      have hbo := bind_ok h1
      clear h1
      obtain ⟨k', g2, h1⟩ := hbo
      have hbo := bind_ok h1
      clear h1
      obtain ⟨e', g3, h1⟩ := hbo
      cases h1
      obtain ⟨q1, q2, q3, q4⟩ := align_decl hD hV ht g1 g2 g3
      obtain ⟨i1, i2⟩ := stmts_spec hD hr ss (hV.insert ht) ho' h2
      refine ⟨.definition q3 i1, fun ha => ?_⟩
      intro u hu
      rcases List.mem_cons.1 hu with rfl | hu
      · obtain ⟨a1, a2, a3⟩ := ha _ List.mem_cons_self
        have e1 := a1 t rfl q2
        exact ⟨by rw [e1]; rfl, ht, (q4 a3).1⟩
      · exact i2 (fun s hs => ha s (List.mem_cons_of_mem _ hs)) u hu
    | assignment a e =>
      simp only [checkStmt] at h1
      have hbo := bind_ok h1
      clear h1
      obtain ⟨a', g0, h1⟩ := hbo
      have hbo := bind_ok h1
      clear h1
      obtain ⟨k, g1, h1⟩ := hbo
      obtain ⟨r1, r2, r3⟩ := assignee_spec hD hV a g0
      split at h1
      · rename_i t hat
        have hbo := bind_ok h1
        clear h1
        obtain ⟨k', g2, h1⟩ := hbo
        have hbo := bind_ok h1
        clear h1
        obtain ⟨e', g3, h1⟩ := hbo
        cases h1
        have ht := r2 t hat
        obtain ⟨q1, q2, q3, q4⟩ := align_decl hD hV ht g1 g2 g3
        obtain ⟨i1, i2⟩ := stmts_spec hD hr ss hV ho' h2
        refine ⟨.assignment r1 q3 i1, fun ha => ?_⟩
        intro u hu
        rcases List.mem_cons.1 hu with rfl | hu
        · obtain ⟨a1, a2, a3⟩ := ha _ List.mem_cons_self
          have e1 := a1 t hat q2
          exact ⟨by rw [e1]; exact hat, r3 a2, (q4 a3).1⟩
        · exact i2 (fun s hs => ha s (List.mem_cons_of_mem _ hs)) u hu
      · cases h1
    | assertion e err =>
      simp only [checkStmt] at h1
      have hbo := bind_ok h1
      clear h1
      obtain ⟨k, g1, h1⟩ := hbo
      split at h1
      · rename_i hk
        have hbo := bind_ok h1
        clear h1
        obtain ⟨e', g3, h1⟩ := hbo
        cases h1
        have hc := check_spec hD hV.types e g1
        obtain ⟨q1, q2, q3⟩ := fin_some (hc.2 (hk ▸ noInt_bool)) (typed_ok g3)
        obtain ⟨i1, i2⟩ := stmts_spec hD hr ss hV ho' h2
        refine ⟨.assertion q2 i1, fun ha => ?_⟩
        intro u hu
        rcases List.mem_cons.1 hu with rfl | hu
        · exact ⟨q1.trans hk, (q3 (ha _ List.mem_cons_self)).1⟩
        · exact i2 (fun s hs => ha s (List.mem_cons_of_mem _ hs)) u hu
      · cases h1
    | ret e =>
      simp only [checkStmt] at h1
      have hbo := bind_ok h1
      clear h1
      obtain ⟨k, g1, h1⟩ := hbo
      have hbo := bind_ok h1
      clear h1
      obtain ⟨k', g2, h1⟩ := hbo
      split at h1
      · rename_i hk
        have hbo := bind_ok h1
        clear h1
        obtain ⟨e', g3, h1⟩ := hbo
        cases h1
        obtain ⟨q1, q2, q3, q4⟩ := align_decl hD hV hr g1 g2 g3
        obtain ⟨i1, i2⟩ := stmts_spec hD hr ss hV ho' h2
        refine ⟨.ret q3 i1, fun ha => ?_⟩
        intro u hu
        rcases List.mem_cons.1 hu with rfl | hu
        · exact ⟨q1.trans hk, (q4 (ha _ List.mem_cons_self)).1⟩
        · exact i2 (fun s hs => ha s (List.mem_cons_of_mem _ hs)) u hu
      · cases h1

theorem ofParams_ok : ∀ (qs : List (TParam × Bool)) {V : SVars}, V.Ok → (∀ q ∈ qs, TypeOk q.1.ty) → (SVars.ofParams qs V).Ok
  | [], V, hV, _ => hV
  | (q, m) :: qs, V, hV, h => by
    simp only [SVars.ofParams]
    exact ofParams_ok qs (hV.insert (h (q, m) (by simp))) (fun q hq => h q (by simp [hq]))

/-- A `return` of the empty tuple behind statements without it. -/
theorem readsSS_ret : ∀ {ss : List SStmt} {V : SVars} {ts : List (TStmt (ZMod p))}, ReadsSS D V ss ts →
    ReadsSS D V (ss ++ [.ret (.tuple [])]) (ts ++ [.ret (.tuple [] [])])
  | _, _, _, .nil => .ret (.tuple .nil) .nil
  | _, _, _, .definition h h' => .definition h (readsSS_ret h')
  | _, _, _, .assignment h h' h'' => .assignment h h' (readsSS_ret h'')
  | _, _, _, .assertion h h' => .assertion h (readsSS_ret h')
  | _, _, _, .ret h h' => .ret h (readsSS_ret h')

theorem fun_spec (hD : Decls.Ok D) {f : SFun} {tf : TFun (ZMod p)} (hf : f.TypesOk) (h : checkFun D f = .ok tf) :
    tf.params = f.params.map Prod.fst ∧ tf.ret = f.ret ∧ (tf.params.map TParam.id).Nodup ∧ ReadsSS D (SVars.ofParams f.params fun _ => none) f.stmts tf.body ∧
    (f.stmts.filter SStmt.isRet).length = 1 ∧ ((∀ s ∈ tf.body, AgreeStmt s) → tf.Wt) := by
  obtain ⟨hp, hr, hb⟩ := hf
  have hV : (SVars.ofParams f.params fun _ => none).Ok := ofParams_ok _ (fun _ _ _ h => by cases h) hp
  unfold checkFun at h
  split at h
  · rename_i hnd
    have hnd' : ((f.params.map Prod.fst).map TParam.id).Nodup := by simpa [List.map_map, Function.comp_def] using hnd
    have hpar : ∀ q ∈ f.params.map Prod.fst, TypeOk q.ty := by
      intro q hq
      obtain ⟨q', h1, rfl⟩ := List.mem_map.1 hq
      exact hp q' h1
    split at h
    · rename_i h1
      have hbo := bind_ok h
      clear h
      obtain ⟨body, h2, h⟩ := hbo
      cases h
      have hst : f.stmts = f.body := by
        unfold SFun.stmts
        rw [if_pos]
        rw [List.any_eq_true]
        have : 0 < (f.body.filter SStmt.isRet).length := by omega
        obtain ⟨s, hs⟩ := List.exists_mem_of_length_pos this
        exact ⟨s, List.mem_of_mem_filter hs, List.of_mem_filter hs⟩
      obtain ⟨a, b⟩ := stmts_spec hD hr f.body hV hb h2
      exact ⟨rfl, rfl, hnd', by rw [hst]; exact a, by rw [hst]; exact h1, fun ha => ⟨hpar, hr, b ha⟩⟩
    · split at h
      · rename_i h0
        have hbo := bind_ok h
        clear h
        obtain ⟨body, h2, h⟩ := hbo
        cases h
        have hst : f.stmts = f.body ++ [.ret (.tuple [])] := by
          unfold SFun.stmts
          rw [if_neg]
          rw [List.any_eq_true]
          rintro ⟨s, hs, hs'⟩
          have := List.mem_filter.2 ⟨hs, hs'⟩
          rw [List.length_eq_zero_iff.1 h0.1] at this
          simp at this
        obtain ⟨a, b⟩ := stmts_spec hD hr f.body hV hb h2
        refine ⟨rfl, rfl, hnd', by rw [hst]; exact readsSS_ret a, by rw [hst, List.filter_append, List.length_append, h0.1]; rfl, fun ha => ⟨hpar, hr, ?_⟩⟩
        intro s hs
        rcases List.mem_append.1 hs with hs | hs
        · exact b (fun s hs => ha s (List.mem_append_left _ hs)) s hs
        · simp only [List.mem_singleton] at hs
          subst hs
          refine ⟨?_, ?_⟩
          · rw [h0.2]; rfl
          · simp [TExpr.Wt, WtL]
      · cases h
  · cases h

end Zok.Sem
