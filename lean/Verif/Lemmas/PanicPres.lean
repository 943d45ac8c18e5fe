import Verif.Lemmas.PanicWt

/-
Lemmas on the extraction of panics: what is preserved.
-/

set_option linter.unusedSectionVars false
set_option linter.unusedSimpArgs false
set_option linter.unusedVariables false

namespace Zok.Px
variable {p : ℕ} {Z : Type} [Fact p.Prime] {Γ Γ' Γ'' : TCtx} {hx : Z → Buf p Z → Z}

theorem embed_args {embed : Embed} {g : List ℕ} {args : List (ZExpr (ZMod p))} {ts : List ZType} (h : WtEmbed Γ embed g args ts) :
    ∀ e ∈ args, WtZ Γ e := by
  have bs : ∀ {es : List (BExpr (ZMod p))}, WtBs Γ es → ∀ e ∈ es, WtB Γ e := by
    intro es
    induction es with
    | nil => exact fun _ e he => by cases he
    | cons x es ih =>
      intro h e he
      rcases List.mem_cons.1 he with rfl | he
      · exact h.1
      · exact ih h.2 e he
  cases h with
  | cast h => intro e he; rw [List.mem_singleton] at he; subst he; exact h
  | toBits h _ => intro e he; rw [List.mem_singleton] at he; subst he; exact h
  | fromBits h _ =>
    intro e he
    obtain ⟨b, hb, rfl⟩ := List.mem_map.1 he
    exact bs h b hb
  | bitArrayLe h1 h2 _ _ =>
    intro e he
    rcases List.mem_append.1 he with he | he
    · obtain ⟨b, hb, rfl⟩ := List.mem_map.1 he
      exact bs h1 b hb
    · obtain ⟨b, hb, rfl⟩ := List.mem_map.1 he
      exact bs h2 b hb
  | unpack h => intro e he; rw [List.mem_singleton] at he; subst he; exact h

theorem wtAsms_mapHint {ss : List (ZAsm (ZMod p) Z)} (h : WtAsms Γ ss Γ') : WtAsms Γ (ss.map (mapHint hx)) Γ' := by
  induction h with
  | nil => exact .nil
  | cons h1 h2 ih =>
    refine .cons ?_ ih
    cases h1 with
    | assignment h => exact .assignment h
    | constraint a b => exact .constraint a b

theorem plainAsms_mapHint {ss : List (ZAsm (ZMod p) Z)} {V : FullVars} (h : ss.all (plainAsm V) = true) :
    (ss.map (mapHint hx)).all (plainAsm V) = true := by
  rw [List.all_eq_true] at h ⊢
  intro s hs
  obtain ⟨t, ht, rfl⟩ := List.mem_map.1 hs
  have := h t ht
  cases t <;> exact this

/-- A folded statement is well-typed, and plain if the statement is. -/
structure GS (Γ Γ' : TCtx) (ss : List (ZStmt (ZMod p) Z)) (P : FullVars → Option FullVars) : Prop where
  wt : WtStmts Γ ss Γ'
  plain : ∀ V V', P V = some V' → plainStmts V ss = some V'

theorem GS.of {gs : Buf p Z} {s : ZStmt (ZMod p) Z} {P : FullVars → Bool} {Q : FullVars → Option FullVars} (hg : GW Γ gs P) (hs : WtStmt Γ s Γ')
    (hP : ∀ V V', Q V = some V' → P V = true ∧ plainStmt V s = some V') : GS Γ Γ' (gs ++ [s]) Q := by
  refine ⟨wt_append hg.wt (.cons hs .nil), fun V V' h => ?_⟩
  obtain ⟨h1, h2⟩ := hP V V' h
  rw [plain_append, hg.plain V h1]
  simp [plainStmts, h2]

mutual
theorem gsStmt : ∀ {Γ Γ' : TCtx} (s : ZStmt (ZMod p) Z), s.Extractable → WtStmt Γ s Γ' →
    GS Γ Γ' (exStmt hx s) (fun V => plainStmt V s)
  | Γ, Γ', .ret es, h, hw => by
    cases hw with | ret hw =>
    simp only [exStmt]
    rw [exZs_eq es, List.nil_append]
    exact GS.of (gwZs hw) (.ret hw) (fun V V' h => ⟨by simp only [plainStmt, Option.ite_none_right_eq_some] at h; exact h.1, h⟩)
  | Γ, Γ', .definition x e, h, hw => by
    cases hw with | definition hw =>
    simp only [exStmt]
    rw [exZ_eq e, List.nil_append]
    exact GS.of (gwZ hw) (.definition hw) (fun V V' h => ⟨by simp only [plainStmt, Option.ite_none_right_eq_some] at h; exact h.1, h⟩)
  | Γ, Γ', .ifElse c t e, h, hw => by
    cases hw with | ifElse w1 w2 w3 =>
    have ht := gsStmts t h.2.1 w2
    have he := gsStmts e h.2.2 w3
    simp only [exStmt]
    rw [exB_eq c, List.nil_append]
    refine GS.of (gwB c w1) (.ifElse w1 ht.wt he.wt) (fun V V' h => ?_)
    simp only [plainStmt, Option.ite_none_right_eq_some, Option.bind_eq_some_iff] at h ⊢
    obtain ⟨h1, V1, h2, h3⟩ := h
    exact ⟨h1, h1, V1, ht.plain _ _ h2, he.plain _ _ h3⟩
  | Γ, Γ', .assertion e err, h, hw => by
    cases hw with | assertion w1 w2 =>
    simp only [exStmt]
    rw [exB_eq e, List.nil_append]
    exact GS.of (gwB e w1) (.assertion w1 w2) (fun V V' h => ⟨by simp only [plainStmt, Option.ite_none_right_eq_some] at h; exact h.1, h⟩)
  | Γ, Γ', .multiDef xs embed g args, h, hw => by
    cases hw with | multiDef w1 w2 w3 =>
    simp only [exStmt]
    rw [exZs_eq args, List.nil_append]
    refine GS.of (gwZs (embed_args w3)) (.multiDef w1 w2 w3) (fun V V' h => ⟨?_, h⟩)
    simp only [plainStmt, Option.ite_none_right_eq_some, Bool.and_eq_true] at h
    exact h.1.1
  | Γ, Γ', .log es, h, hw => by
    cases hw with | log w =>
    simp only [exStmt]
    rw [exZss_eq es, List.nil_append]
    refine GS.of (gwZs w) (.log w) (fun V V' h => ⟨?_, h⟩)
    simp only [plainStmt, Option.ite_none_right_eq_some, List.all_eq_true] at h
    rw [List.all_eq_true]
    intro e he
    obtain ⟨l, hl, hel⟩ := List.mem_flatten.1 he
    exact h.1 l hl e hel
  | Γ, Γ', .assembly ss, h, hw => by
    cases hw with | assembly w =>
    have hb : exAsms hx ss [] = (ss.map (mapHint hx), []) := exAsms_poly h
    simp only [exStmt, hb, List.nil_append]
    refine ⟨.cons (.assembly (wtAsms_mapHint w)) .nil, fun V V' h => ?_⟩
    simp only [plainStmt, Option.ite_none_right_eq_some] at h
    simp only [plainStmts, plainStmt, plainAsms_mapHint h.1, if_true, Option.bind_some]
    exact h.2
theorem gsStmts : ∀ {Γ Γ' : TCtx} (ss : List (ZStmt (ZMod p) Z)), ZStmt.ExtractableL ss → WtStmts Γ ss Γ' →
    GS Γ Γ' (exStmts hx ss) (fun V => plainStmts V ss)
  | Γ, Γ', [], _, hw => by cases hw; exact ⟨.nil, fun _ _ h => h⟩
  | Γ, Γ', s :: ss, h, hw => by
    cases hw with | cons w1 w2 =>
    have h1 := gsStmt s h.1 w1
    have h2 := gsStmts ss h.2 w2
    simp only [exStmts]
    refine ⟨wt_append h1.wt h2.wt, fun V V' h => ?_⟩
    simp only [plainStmts, Option.bind_eq_some_iff] at h
    obtain ⟨V1, h3, h4⟩ := h
    rw [plain_append, h1.plain _ _ h3]
    exact h2.plain _ _ h4
end

/-! ### Properties of single statements -/

/-- Guards whose assertions carry errors of ZIR. -/
inductive ZGuard : ZStmt (ZMod p) Z → Prop
  | assertion {e err} : err.ofZir → ZGuard (.assertion e err)
  | ifElse {c t e} : (∀ s, s ∈ t → ZGuard s) → (∀ s, s ∈ e → ZGuard s) → ZGuard (.ifElse c t e)

abbrev ZGuards (gs : Buf p Z) : Prop := ∀ s ∈ gs, ZGuard s

theorem zg_append {a b : Buf p Z} (ha : ZGuards a) (hb : ZGuards b) : ZGuards (a ++ b) := by
  intro s hs
  rcases List.mem_append.1 hs with h | h
  · exact ha s h
  · exact hb s h

theorem zg_cond {c : BExpr (ZMod p)} {a pt pe : Buf p Z} (ha : ZGuards a) (ht : ZGuards pt) (he : ZGuards pe) :
    ZGuards (a ++ condGuard c pt pe []) := by
  refine zg_append ha ?_
  unfold condGuard
  split
  · exact fun _ h => by cases h
  · intro s hs
    rw [List.nil_append, List.mem_singleton] at hs
    subst hs
    exact .ifElse ht he

theorem zg_single {e : BExpr (ZMod p)} {err : RuntimeError} (h : err.ofZir) : ZGuards ([.assertion e err] : Buf p Z) := by
  intro s hs
  rw [List.mem_singleton] at hs
  subst hs
  exact .assertion h

theorem zg_nil : ZGuards ([] : Buf p Z) := fun _ h => by cases h

mutual
theorem zgF : ∀ e : FExpr (ZMod p), ZGuards (gF Z e)
  | .value _ => zg_nil
  | .ident _ => zg_nil
  | .select l r => by
    rw [gF_select]
    exact zg_append (zgFs l) (zgU r)
  | .add l r => by
    rw [gF_add]
    exact zg_append (zgF l) (zgF r)
  | .sub l r => by
    rw [gF_sub]
    exact zg_append (zgF l) (zgF r)
  | .mult l r => by
    rw [gF_mult]
    exact zg_append (zgF l) (zgF r)
  | .and l r => by
    rw [gF_and]
    exact zg_append (zgF l) (zgF r)
  | .or l r => by
    rw [gF_or]
    exact zg_append (zgF l) (zgF r)
  | .xor l r => by
    rw [gF_xor]
    exact zg_append (zgF l) (zgF r)
  | .pow l r => by
    rw [gF_pow]
    exact zg_append (zgF l) (zgU r)
  | .leftShift l r => by
    rw [gF_leftShift]
    exact zg_append (zgF l) (zgU r)
  | .rightShift l r => by
    rw [gF_rightShift]
    exact zg_append (zgF l) (zgU r)
  | .div l r => by
    rw [gF_div]
    exact zg_append (zg_append (zgF l) (zgF r)) (zg_single trivial)
  | .cond c t e => by
    rw [gF_cond]
    exact zg_cond (zgB c) (zgF t) (zgF e)
theorem zgFs : ∀ es : List (FExpr (ZMod p)), ZGuards (gFs Z es)
  | [] => zg_nil
  | e :: es => by
    rw [gFs_cons]
    exact zg_append (zgF e) (zgFs es)
theorem zgB : ∀ e : BExpr (ZMod p), ZGuards (gB Z e)
  | .value _ => zg_nil
  | .ident _ => zg_nil
  | .select l r => by
    rw [gB_select]
    exact zg_append (zgBs l) (zgU r)
  | .fieldLt l r => by
    rw [gB_lt]
    split
    · exact zg_append (zgF l) (zgF r)
    · exact zg_append (zg_append (zg_append (zgF l) (zgF r)) (zg_single trivial)) (zg_single trivial)
  | .fieldLe l r => by
    rw [gB_fieldLe]
    exact zg_append (zgF l) (zgF r)
  | .fieldEq l r => by
    rw [gB_fieldEq]
    exact zg_append (zgF l) (zgF r)
  | .uintLt l r => by
    rw [gB_uintLt]
    exact zg_append (zgU l) (zgU r)
  | .uintLe l r => by
    rw [gB_uintLe]
    exact zg_append (zgU l) (zgU r)
  | .uintEq l r => by
    rw [gB_uintEq]
    exact zg_append (zgU l) (zgU r)
  | .boolEq l r => by
    rw [gB_boolEq]
    exact zg_append (zgB l) (zgB r)
  | .or l r => by
    rw [gB_or]
    exact zg_append (zgB l) (zgB r)
  | .and l r => by
    rw [gB_and]
    exact zg_append (zgB l) (zgB r)
  | .not e => by
    rw [gB_not]
    exact zgB e
  | .cond c t e => by
    rw [gB_cond]
    exact zg_cond (zgB c) (zgB t) (zgB e)
theorem zgBs : ∀ es : List (BExpr (ZMod p)), ZGuards (gBs Z es)
  | [] => zg_nil
  | e :: es => by
    rw [gBs_cons]
    exact zg_append (zgB e) (zgBs es)
theorem zgU : ∀ e : UExpr (ZMod p), ZGuards (gU Z e)
  | .mk w _ i => (zgUI w i)
theorem zgUs : ∀ es : List (UExpr (ZMod p)), ZGuards (gUs Z es)
  | [] => zg_nil
  | e :: es => by
    rw [gUs_cons]
    exact zg_append (zgU e) (zgUs es)
theorem zgUI : ∀ (w : ℕ) (e : UInner (ZMod p)), ZGuards (gUI Z w e)
  | _, .value _ => zg_nil
  | _, .ident _ => zg_nil
  | w, .select l r => by
    rw [gUI_select]
    exact zg_append (zgUs l) (zgU r)
  | w, .add l r => by
    rw [gUI_add]
    exact zg_append (zgU l) (zgU r)
  | w, .sub l r => by
    rw [gUI_sub]
    exact zg_append (zgU l) (zgU r)
  | w, .mult l r => by
    rw [gUI_mult]
    exact zg_append (zgU l) (zgU r)
  | w, .rem l r => by
    rw [gUI_rem]
    exact zg_append (zgU l) (zgU r)
  | w, .xor l r => by
    rw [gUI_xor]
    exact zg_append (zgU l) (zgU r)
  | w, .and l r => by
    rw [gUI_and]
    exact zg_append (zgU l) (zgU r)
  | w, .or l r => by
    rw [gUI_or]
    exact zg_append (zgU l) (zgU r)
  | w, .leftShift l r => by
    rw [gUI_leftShift]
    exact zg_append (zgU l) (zgU r)
  | w, .rightShift l r => by
    rw [gUI_rightShift]
    exact zg_append (zgU l) (zgU r)
  | w, .div l r => by
    rw [gUI_div]
    exact zg_append (zg_append (zgU l) (zgU r)) (zg_single trivial)
  | w, .not e => by
    rw [gUI_not]
    exact zgU e
  | w, .cond c t e => by
    rw [gUI_cond]
    exact zg_cond (zgB c) (zgU t) (zgU e)
end

theorem zgZ (e : ZExpr (ZMod p)) : ZGuards (gZ Z e) := by
  cases e with
  | field e => exact zgF e
  | bool e => exact zgB e
  | uint e => exact zgU e

theorem zgZs (es : List (ZExpr (ZMod p))) : ZGuards (gZs Z es) := by
  induction es with
  | nil => exact zg_nil
  | cons e es ih =>
    rw [gZs_cons]
    exact zg_append (zgZ e) ih

/-- What a property of statements has to satisfy to be preserved. -/
structure Closed (hx : Z → Buf p Z → Z) (Q : ZStmt (ZMod p) Z → Prop) (QL : List (ZStmt (ZMod p) Z) → Prop) : Prop where
  list : ∀ ss, QL ss ↔ ∀ s ∈ ss, Q s
  ifElse : ∀ c t e, Q (.ifElse c t e) ↔ QL t ∧ QL e
  assertion : ∀ e err, err.ofZir → Q (.assertion e err)
  assembly : ∀ ss, Q (.assembly ss) → Q (.assembly (ss.map (mapHint hx)))

variable {Q : ZStmt (ZMod p) Z → Prop} {QL : List (ZStmt (ZMod p) Z) → Prop}

theorem Closed.guard (hQ : Closed hx Q QL) {s : ZStmt (ZMod p) Z} (h : ZGuard s) : Q s := by
  induction h with
  | assertion h => exact hQ.assertion _ _ h
  | ifElse _ _ h1 h2 => exact (hQ.ifElse _ _ _).2 ⟨(hQ.list _).2 h1, (hQ.list _).2 h2⟩

theorem Closed.append (hQ : Closed hx Q QL) {a b : List (ZStmt (ZMod p) Z)} : QL (a ++ b) ↔ QL a ∧ QL b := by
  simp only [hQ.list, List.mem_append, or_imp, forall_and]

theorem Closed.guarded (hQ : Closed hx Q QL) {gs : Buf p Z} {s : ZStmt (ZMod p) Z} (hg : ZGuards gs) (hs : Q s) : QL (gs ++ [s]) := by
  rw [hQ.append, hQ.list, hQ.list]
  refine ⟨fun s h => hQ.guard (hg s h), fun t ht => ?_⟩
  rw [List.mem_singleton] at ht
  subst ht
  exact hs

mutual
theorem closedStmt (hQ : Closed hx Q QL) : ∀ s : ZStmt (ZMod p) Z, s.Extractable → Q s → QL (exStmt hx s)
  | .ret es, h, hq => by
    simp only [exStmt]
    rw [exZs_eq es, List.nil_append]
    exact hQ.guarded (zgZs es) hq
  | .definition x e, h, hq => by
    simp only [exStmt]
    rw [exZ_eq e, List.nil_append]
    exact hQ.guarded (zgZ e) hq
  | .ifElse c t e, h, hq => by
    obtain ⟨q1, q2⟩ := (hQ.ifElse _ _ _).1 hq
    have h1 := closedStmts hQ t h.2.1 q1
    have h2 := closedStmts hQ e h.2.2 q2
    simp only [exStmt]
    rw [exB_eq c, List.nil_append]
    exact hQ.guarded (zgB c) ((hQ.ifElse _ _ _).2 ⟨h1, h2⟩)
  | .assertion e err, h, hq => by
    simp only [exStmt]
    rw [exB_eq e, List.nil_append]
    exact hQ.guarded (zgB e) hq
  | .multiDef xs embed g args, h, hq => by
    simp only [exStmt]
    rw [exZs_eq args, List.nil_append]
    exact hQ.guarded (zgZs args) hq
  | .log es, h, hq => by
    simp only [exStmt]
    rw [exZss_eq es, List.nil_append]
    exact hQ.guarded (zgZs es.flatten) hq
  | .assembly ss, h, hq => by
    have hb : exAsms hx ss [] = (ss.map (mapHint hx), []) := exAsms_poly h
    simp only [exStmt, hb]
    exact hQ.guarded zg_nil (hQ.assembly _ hq)
theorem closedStmts (hQ : Closed hx Q QL) : ∀ ss : List (ZStmt (ZMod p) Z), ZStmt.ExtractableL ss → QL ss → QL (exStmts hx ss)
  | [], h, hq => hq
  | s :: ss, h, hq => by
    have hq1 : Q s := (hQ.list _).1 hq s List.mem_cons_self
    have hq2 : QL ss := (hQ.list _).2 fun t ht => (hQ.list _).1 hq t (List.mem_cons_of_mem _ ht)
    have h1 := closedStmt hQ s h.1 hq1
    have h2 := closedStmts hQ ss h.2 hq2
    simp only [exStmts]
    exact hQ.append.2 ⟨h1, h2⟩
end

theorem closed_noAsm : Closed hx (ZStmt.NoAsm (p := p) (Z := Z)) ZStmt.NoAsmL where
  list ss := by
    induction ss with
    | nil => simp [ZStmt.NoAsmL]
    | cons s ss ih => simp [ZStmt.NoAsmL, ih]
  ifElse _ _ _ := Iff.rfl
  assertion _ _ _ := trivial
  assembly _ h := h

theorem closed_oracleFree : Closed hx (ZStmt.OracleFree (F := ZMod p) (Z := Z)) ZStmt.OracleFreeL where
  list ss := by
    induction ss with
    | nil => simp [ZStmt.OracleFreeL]
    | cons s ss ih => simp [ZStmt.OracleFreeL, ih]
  ifElse _ _ _ := Iff.rfl
  assertion _ _ _ := trivial
  assembly _ h := h

theorem closed_inner : Closed hx (ZStmt.Inner (F := ZMod p) (Z := Z)) ZStmt.InnerL where
  list ss := by
    induction ss with
    | nil => simp [ZStmt.InnerL]
    | cons s ss ih => simp [ZStmt.InnerL, ih]
  ifElse _ _ _ := Iff.rfl
  assertion _ _ h := h
  assembly _ h := h

theorem closed_noCast : Closed hx (ZStmt.NoCast (F := ZMod p) (Z := Z)) ZStmt.NoCastL where
  list ss := by
    induction ss with
    | nil => simp [ZStmt.NoCastL]
    | cons s ss ih => simp [ZStmt.NoCastL, ih]
  ifElse _ _ _ := Iff.rfl
  assertion _ _ _ := trivial
  assembly _ h := h

theorem exStmts_append (a b : List (ZStmt (ZMod p) Z)) : exStmts hx (a ++ b) = exStmts hx a ++ exStmts hx b := by
  induction a with
  | nil => rfl
  | cons s ss ih => simp only [List.cons_append, exStmts, ih, List.append_assoc]

theorem extractable_append {a b : List (ZStmt (ZMod p) Z)} :
    ZStmt.ExtractableL (a ++ b) ↔ ZStmt.ExtractableL a ∧ ZStmt.ExtractableL b := by
  induction a with
  | nil => simp [ZStmt.ExtractableL]
  | cons s ss ih => simp only [List.cons_append, ZStmt.ExtractableL, ih, and_assoc]

/-- The last statement is still the return statement. -/
theorem exStmts_ret {ss : List (ZStmt (ZMod p) Z)} {es : List (ZExpr (ZMod p))} :
    exStmts hx (ss ++ [.ret es]) = exStmts hx ss ++ gZs Z es ++ [.ret es] := by
  rw [exStmts_append]
  simp only [exStmts, exStmt, List.append_nil]
  rw [exZs_eq es, List.nil_append, List.append_assoc]
  rfl

theorem extract_singleReturn {f : ZFun (ZMod p) Z} (hf : ZStmt.ExtractableL f.body) (h : SingleReturn f) :
    SingleReturn (extractPanics hx f) := by
  obtain ⟨ss, es, h1, h2⟩ := h
  rw [h1] at hf
  refine ⟨exStmts hx ss ++ gZs Z es, es, ?_, ?_⟩
  · rw [← exStmts_ret, ← h1]; rfl
  · exact (closed_inner (hx := hx)).append.2 ⟨closedStmts closed_inner ss (extractable_append.1 hf).1 h2,
      ((closed_inner (hx := hx)).list _).2 fun s hs => closed_inner.guard (hx := hx) (zgZs es s hs)⟩

theorem extract_wt {f : ZFun (ZMod p) Z} (hf : ZStmt.ExtractableL f.body) (h : WtFun f) : WtFun (extractPanics hx f) := by
  obtain ⟨h0, ss, es, Γ', h1, h2, h3⟩ := h
  refine ⟨h0, exStmts hx ss ++ gZs Z es, es, Γ', ?_, h2, (gsStmts f.body hf h3).wt⟩
  rw [← exStmts_ret, ← h1]; rfl

theorem extract_plain {f : ZFun (ZMod p) Z} (hf : ZStmt.ExtractableL f.body) (h : WtFun f) (hp : plainFun f = true) :
    plainFun (extractPanics hx f) = true := by
  obtain ⟨h0, ss, es, Γ', h1, h2, h3⟩ := h
  unfold plainFun at hp ⊢
  rw [Option.isSome_iff_exists] at hp ⊢
  obtain ⟨V, hV⟩ := hp
  exact ⟨V, (gsStmts f.body hf h3).plain _ _ hV⟩

end Zok.Px
