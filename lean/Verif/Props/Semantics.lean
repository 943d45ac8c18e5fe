import Verif.Lemmas.SemanticsFun

/-
C68: the type checker. A function it accepts is the function of the source: the same statements and operators in the same order, variables with the types they are
declared with, literals with their values, which fit into the types they are read at. The function is well typed as soon as the comparisons of types hold which the checker
leaves out: sizes of arrays, names of members, widths of the branches of conditionals. Without these comparisons it is not.
-/

set_option linter.unusedVariables false

namespace Zok.Sem
open Typed Abi
variable {p : ℕ} {D : Decls} {G : Scope} {V : SVars}

/-! ### Expressions -/

/-- An expression which is accepted in a scope is a reading of the source, if no integer literal is left without a type. -/
theorem C68_expression (hD : D.Ok) (hG : ∀ x t, G x = some t → TypeOk t) {s : SExpr} {k : KExpr (ZMod p)} (h : check D G s = .ok k) {e : TExpr (ZMod p)}
    (he : toT k = some e) : e.ty = k.ty ∧ Reads D G s e :=
  raw_rd (check_spec hD hG s h).1 e he

/-- It is well typed, up to the comparisons which are left out. -/
theorem C68_expression_well_typed_partial (hD : D.Ok) (hG : ∀ x t, G x = some t → TypeOk t) {s : SExpr} {k : KExpr (ZMod p)} (h : check D G s = .ok k)
    (hk : (primCount k.ty).isSome) {e : TExpr (ZMod p)} (he : toT k = some e) (ha : Agree e) : e.Wt ∧ TypeOk e.ty :=
  (fin_some ((check_spec hD hG s h).2 hk) he).2.2 ha

/-- An integer literal is converted to a type only if it fits, and has the type then. -/
theorem C68_literal {n : ℕ} {t : CType} {x : Bool} {k : KExpr (ZMod p)} (h : alignTo x (.inum n) t = some k) :
    (t = .field ∧ n < p ∧ k = .fval n) ∨ ∃ w, t = .uint w ∧ n < 2 ^ w.bits ∧ k = .uval w n := by
  cases t <;> simp only [alignTo, scalarTo, keepAs, KExpr.ty, castInt] at h <;> first | cases h | skip
  · split at h <;> cases h
    exact .inl ⟨rfl, by assumption, rfl⟩
  · split at h <;> cases h
    exact .inr ⟨_, rfl, by assumption, rfl⟩

/-! ### Functions -/

/-- A function which is accepted is the function of the source: it has the parameters, which have different names, the return type, and the statements of the source, one of
which is a `return`. The variables in the statements are in scope, and those which are assigned are mutable. -/
theorem C68_reads (hD : D.Ok) {f : SFun} {tf : TFun (ZMod p)} (hf : f.TypesOk) (h : checkFun D f = .ok tf) :
    tf.params = f.params.map Prod.fst ∧ tf.ret = f.ret ∧ (tf.params.map TParam.id).Nodup ∧ ReadsSS D (SVars.ofParams f.params fun _ => none) f.stmts tf.body ∧
    (f.stmts.filter SStmt.isRet).length = 1 := by
  obtain ⟨a, b, c, d, e, _⟩ := fun_spec hD hf h
  exact ⟨a, b, c, d, e⟩

/-- It is well typed, up to the comparisons which are left out. The rest of the compiler relies on the result being well typed. -/
theorem C68_well_typed_partial (hD : D.Ok) {f : SFun} {tf : TFun (ZMod p)} (hf : f.TypesOk) (h : checkFun D f = .ok tf) (ha : ∀ s ∈ tf.body, AgreeStmt s) : tf.Wt :=
  (fun_spec hD hf h).2.2.2.2.2 ha

/-! ### Arithmetic: no comparison is left out -/

/-- Expressions of field elements, booleans and integers, without conditionals. -/
def SExpr.Arith : SExpr → Prop
  | .int _ | .fieldC _ | .uintC _ _ | .boolC _ | .ident _ => True
  | .un _ e => e.Arith
  | .bin _ l r | .sh _ l r | .logic _ l r | .rel _ l r | .eq l r => l.Arith ∧ r.Arith
  | _ => False

/-- Field elements, booleans and integers. -/
def Scalar (t : CType) : Prop := t = .field ∨ t = .bool ∨ ∃ w, t = .uint w

theorem scalar_alike {t u : CType} (ht : Scalar t) (h : Alike t u) : t = u := by
  rcases ht with rfl | rfl | ⟨w, rfl⟩ <;> cases u <;> simp_all [Alike, CType.shape]

theorem arith_agree (hG : ∀ x t, G x = some t → Scalar t) : ∀ {s : SExpr} {e : TExpr (ZMod p)}, s.Arith → Reads D G s e → Scalar e.ty ∧ Agree e := by
  intro s
  induction s using SExpr.rec (motive_2 := fun _ => True) (motive_3 := fun _ => True) (motive_4 := fun _ => True) with
  | int n => intro e _ h; cases h <;> simp [TExpr.ty, Scalar, Agree]
  | fieldC n => intro e _ h; cases h; simp [TExpr.ty, Scalar, Agree]
  | uintC w n => intro e _ h; cases h; simp [TExpr.ty, Scalar, Agree]
  | boolC b => intro e _ h; cases h; simp [TExpr.ty, Scalar, Agree]
  | ident x =>
    intro e _ h
    cases h
    rename_i t ht
    exact ⟨hG x t ht, trivial⟩
  | un op e ih => intro e' ha h; cases h <;> (rename_i h; exact ⟨by simp [TExpr.ty, Scalar], (ih ha h).2⟩)
  | bin op l r ih1 ih2 => intro e' ha h; cases h <;> (rename_i h1 h2; exact ⟨by simp [TExpr.ty, Scalar], (ih1 ha.1 h1).2, (ih2 ha.2 h2).2⟩)
  | sh op l r ih1 ih2 => intro e' ha h; cases h <;> (rename_i h1 h2; exact ⟨by simp [TExpr.ty, Scalar], (ih1 ha.1 h1).2, (ih2 ha.2 h2).2⟩)
  | logic op l r ih1 ih2 => intro e' ha h; cases h <;> (rename_i h1 h2; exact ⟨by simp [TExpr.ty, Scalar], (ih1 ha.1 h1).2, (ih2 ha.2 h2).2⟩)
  | rel op l r ih1 ih2 =>
    intro e' ha h
    cases h <;> (rename_i h1 h2; first
      | exact ⟨by simp [TExpr.ty, Scalar], (ih1 ha.1 h1).2, (ih2 ha.2 h2).2⟩
      | exact ⟨by simp [TExpr.ty, Scalar], (ih2 ha.2 h2).2, (ih1 ha.1 h1).2⟩)
  | eq l r ih1 ih2 =>
    intro e' ha h
    cases h
    rename_i h1 h2
    have a := ih1 ha.1 h1
    have b := ih2 ha.2 h2
    exact ⟨by simp [TExpr.ty, Scalar], fun hal => scalar_alike a.1 hal, a.2, b.2⟩
  | cond => intro e ha; exact ha.elim
  | select => intro e ha; exact ha.elim
  | element => intro e ha; exact ha.elim
  | member => intro e ha; exact ha.elim
  | array => intro e ha; exact ha.elim
  | repeat_ => intro e ha; exact ha.elim
  | struct => intro e ha; exact ha.elim
  | tuple => intro e ha; exact ha.elim
  | _ => trivial

/-- An arithmetic expression which is accepted at a type of field elements, booleans or integers is well typed: there is no comparison which is left out. -/
theorem C68_arithmetic (hD : D.Ok) (hG : ∀ x t, G x = some t → Scalar t) {s : SExpr} (hs : s.Arith) {k : KExpr (ZMod p)} (h : check D G s = .ok k)
    (hk : k.ty ≠ .int) {e : TExpr (ZMod p)} (he : toT k = some e) : e.Wt ∧ e.ty = k.ty := by
  have hG' : ∀ x t, G x = some t → TypeOk t := by
    intro x t hx
    rcases hG x t hx with rfl | rfl | ⟨w, rfl⟩
    · exact typeOk_field
    · exact typeOk_bool'
    · exact typeOk_uint w
  obtain ⟨h1, h2⟩ := C68_expression hD hG' h he
  obtain ⟨h3, h4⟩ := arith_agree hG hs h2
  refine ⟨(C68_expression_well_typed_partial hD hG' h ?_ he h4).1, h1⟩
  rw [← h1]
  rcases h3 with h3 | h3 | ⟨w, h3⟩ <;> rw [h3] <;> rfl

/-- Expressions and declarations of a function are arithmetic. -/
def SStmt.Arith : SStmt → Prop
  | .definition _ t _ e => Scalar t ∧ e.Arith
  | .assignment (.ident _) e => e.Arith
  | .assignment _ _ => False
  | .assertion e _ => e.Arith
  | .ret e => e.Arith

theorem stmts_arith : ∀ {ss : List SStmt} {V : SVars} {ts : List (TStmt (ZMod p))}, ReadsSS D V ss ts → (∀ x t, V.types x = some t → Scalar t) → (∀ s ∈ ss, s.Arith) →
    ∀ s ∈ ts, AgreeStmt s
  | _, _, _, .nil, _, _ => by simp
  | _, _, _, .definition (x := x) (t := t) (m := m) h h', hV, ha => by
    intro u hu
    have a := ha _ List.mem_cons_self
    obtain ⟨b1, b2⟩ := arith_agree hV a.2 h
    rcases List.mem_cons.1 hu with rfl | hu
    · exact ⟨fun t _ hal => scalar_alike b1 hal, trivial, b2⟩
    · refine stmts_arith h' ?_ (fun s hs => ha s (List.mem_cons_of_mem _ hs)) u hu
      intro y w hy
      simp only [SVars.types, SVars.insert] at hy
      split at hy
      · cases hy; exact a.1
      · exact hV y w hy
  | _, _, _, .assignment (a := a0) h h' h'', hV, ha => by
    intro u hu
    have a := ha _ List.mem_cons_self
    rcases List.mem_cons.1 hu with rfl | hu
    · cases h with
      | ident hx =>
        obtain ⟨b1, b2⟩ := arith_agree hV a h'
        exact ⟨fun t _ hal => scalar_alike b1 hal, trivial, b2⟩
      | select _ _ => exact a.elim
      | member _ => exact a.elim
      | element _ => exact a.elim
    · exact stmts_arith h'' hV (fun s hs => ha s (List.mem_cons_of_mem _ hs)) u hu
  | _, _, _, .assertion h h', hV, ha => by
    intro u hu
    have a := ha _ List.mem_cons_self
    rcases List.mem_cons.1 hu with rfl | hu
    · exact (arith_agree hV a h).2
    · exact stmts_arith h' hV (fun s hs => ha s (List.mem_cons_of_mem _ hs)) u hu
  | _, _, _, .ret h h', hV, ha => by
    intro u hu
    have a := ha _ List.mem_cons_self
    rcases List.mem_cons.1 hu with rfl | hu
    · exact (arith_agree hV a h).2
    · exact stmts_arith h' hV (fun s hs => ha s (List.mem_cons_of_mem _ hs)) u hu

theorem ofParams_scalar : ∀ (qs : List (TParam × Bool)) {V : SVars}, (∀ x t, V.types x = some t → Scalar t) → (∀ q ∈ qs, Scalar q.1.ty) →
    ∀ x t, (SVars.ofParams qs V).types x = some t → Scalar t
  | [], V, hV, _ => hV
  | (q, m) :: qs, V, hV, h => by
    simp only [SVars.ofParams]
    refine ofParams_scalar qs ?_ (fun q hq => h q (by simp [hq]))
    intro y w hy
    simp only [SVars.types, SVars.insert] at hy
    split at hy
    · cases hy; exact h (q, m) (by simp)
    · exact hV y w hy

/-- An arithmetic function which is accepted is well typed. -/
theorem C68_arithmetic_function (hD : D.Ok) {f : SFun} {tf : TFun (ZMod p)} (hp : ∀ q ∈ f.params, Scalar q.1.ty) (hr : Scalar f.ret) (hb : ∀ s ∈ f.body, s.Arith)
    (h : checkFun D f = .ok tf) : tf.Wt := by
  have ok : ∀ {t : CType}, Scalar t → TypeOk t := by
    rintro t (rfl | rfl | ⟨w, rfl⟩)
    · exact typeOk_field
    · exact typeOk_bool'
    · exact typeOk_uint w
  have hf : f.TypesOk := by
    refine ⟨fun q hq => ok (hp q hq), ok hr, fun s hs t ht => ?_⟩
    have := hb s hs
    cases s <;> simp only [SStmt.declares, List.mem_singleton, List.not_mem_nil] at ht
    subst ht
    exact ok this.1
  have hst : f.stmts = f.body := by
    unfold SFun.stmts
    split
    · rfl
    · rename_i hn
      exfalso
      unfold checkFun at h
      split at h
      · split at h
        · rename_i h1
          rw [List.any_eq_true] at hn
          have : 0 < (f.body.filter SStmt.isRet).length := by omega
          obtain ⟨s, hs⟩ := List.exists_mem_of_length_pos this
          exact hn ⟨s, List.mem_of_mem_filter hs, List.of_mem_filter hs⟩
        · split at h
          · rename_i h0
            rw [h0.2] at hr
            rcases hr with hr | hr | ⟨w, hr⟩ <;> cases hr
          · cases h
      · cases h
  obtain ⟨_, _, _, h4, _, h6⟩ := fun_spec hD hf h
  rw [hst] at h4
  exact h6 (stmts_arith h4 (ofParams_scalar f.params (by intro x t h; cases h) hp) hb)

/-! ### An accepted function -/

/-- No structs. -/
def noD : Decls := fun _ => none
theorem noD_ok : noD.Ok := fun _ _ h => by cases h

/-- `def main(field x, u8 y) -> field[2] { field mut z = (x + 1) * 2; z = 3 - z; assert(y > 4); field[2] a = [z, ...[1]]; return y << 1 == 6 ? a : [5; 2]; }` -/
def exF : SFun where
  params := [(⟨0, .field, true⟩, false), (⟨1, .uint .b8, true⟩, false)]
  ret := .array 2 .field
  body := [.definition 2 .field true (.bin .mul (.bin .add (.ident 0) (.int 1)) (.int 2)),
    .assignment (.ident 2) (.bin .sub (.int 3) (.ident 2)),
    .assertion (.rel .gt (.ident 1) (.int 4)) (.sourceAssertion ""),
    .definition 3 (.array 2 .field) false (.array [.expr (.ident 2), .spread (.array [.expr (.int 1)])]),
    .ret (.cond (.eq (.sh .shl (.ident 1) (.int 1)) (.int 6)) (.ident 3) (.repeat_ (.int 5) (.int 2)))]

/-- The same, typed. -/
def exT : TFun (ZMod 101) where
  params := [⟨0, .field, true⟩, ⟨1, .uint .b8, true⟩]
  ret := .array 2 .field
  body := [.definition (.ident 2 .field) (.fbin .mult (.fbin .add (.ident 0 .field) (.fval (1 : ℕ))) (.fval (2 : ℕ))),
    .definition (.ident 2 .field) (.fbin .sub (.fval (3 : ℕ)) (.ident 2 .field)),
    .assertion (.ucmp .lt (.uval .b8 4) (.ident 1 (.uint .b8))) (.sourceAssertion ""),
    .definition (.ident 3 (.array 2 .field)) (.array .field 2 [.expr (.ident 2 .field), .spread (.array .field 1 [.expr (.fval (1 : ℕ))])]),
    .ret (.cond (.array 2 .field) (.eq (.ubin .b8 .shl (.ident 1 (.uint .b8)) (.uval .b32 1)) (.uval .b8 6)) (.ident 3 (.array 2 .field))
      (.repeat_ .field 2 (.fval (5 : ℕ)) (.uval .b32 2)))]

theorem exF_check : checkFun (p := 101) noD exF = .ok exT := by rfl

theorem exF_ok : exF.TypesOk := by
  have h : TypeOk (.array 2 .field) := typeOk_array typeOk_field (by norm_num)
  refine ⟨?_, h, ?_⟩
  · intro q hq
    simp only [exF, List.mem_cons, List.not_mem_nil, or_false] at hq
    rcases hq with rfl | rfl
    · exact typeOk_field
    · exact typeOk_uint _
  · intro s hs t ht
    simp only [exF, List.mem_cons, List.not_mem_nil, or_false] at hs
    rcases hs with rfl | rfl | rfl | rfl | rfl <;> simp only [SStmt.declares, List.mem_singleton, List.not_mem_nil] at ht <;> subst ht
    · exact typeOk_field
    · exact h

/-- The function is a reading of the source, and well typed. -/
example : exT.Wt := by
  refine C68_well_typed_partial noD_ok exF_ok exF_check ?_
  intro s hs
  simp only [exT, List.mem_cons, List.not_mem_nil, or_false] at hs
  have hc : ∀ {n m : ℕ} {es : List (TSpread (ZMod 101))}, spreadCount .field es n → spreadCount .field es m → n = m := by
    intro n m es
    induction es generalizing n m with
    | nil => intro h h'; exact h.trans h'.symm
    | cons e es ih =>
      cases e with
      | expr e =>
        rintro ⟨k, rfl, h⟩ ⟨k', rfl, h'⟩
        rw [ih h h']
      | spread e =>
        rintro ⟨a, k, hk, rfl, h⟩ ⟨a', k', hk', rfl, h'⟩
        rw [hk] at hk'
        cases hk'
        rw [ih h h']
  rcases hs with rfl | rfl | rfl | rfl | rfl
  · simp [AgreeStmt, AgreeA, Agree, TAssignee.ty, TExpr.ty]
  · simp [AgreeStmt, AgreeA, Agree, TAssignee.ty, TExpr.ty]
  · simp [AgreeStmt, Agree]
  · refine ⟨fun t h _ => by cases h; rfl, trivial, ⟨⟨fun _ => rfl, trivial, fun n u h _ => by cases h; rfl, ⟨⟨fun _ => rfl, trivial, trivial⟩, ?_⟩, trivial⟩, ?_⟩⟩
    · intro n h
      have := hc h (m := 1) ⟨0, rfl, rfl⟩
      omega
    · intro n h
      have := hc h (m := 2) ⟨1, rfl, 1, 0, rfl, rfl, rfl⟩
      omega
  · refine ⟨?_, ⟨?_, ?_⟩, ?_⟩ <;> simp [TExpr.ty, Agree, TExpr.ty]

/-! ### What the checker accepts -/

/-- `u8 x = 6 && 3;` is accepted, and is a bitwise and. -/
theorem C68_and_of_integers : checkStmt (p := 101) noD .field (fun _ => none) (.definition 0 (.uint .b8) false (.logic .and (.int 6) (.int 3))) =
    .ok (SVars.insert (fun _ => none) 0 (.uint .b8) false, .definition (.ident 0 (.uint .b8)) (.ubin .b8 .and (.uval .b8 6) (.uval .b8 3))) := by rfl

/-- Variables. -/
def scopeOf (ts : List CType) : SVars := fun x => ts[x]?.map fun t => (t, false)

/-- `c ? a : b` with `a` of type `u8` and `b` of type `u16` is accepted as an `u8`. -/
theorem C68_conditional_widths : ∃ k : KExpr (ZMod 101), check noD (scopeOf [.bool, .uint .b8, .uint .b16]).types (.cond (.ident 0) (.ident 1) (.ident 2)) = .ok k ∧
    k.ty = .uint .b8 ∧ ∃ e, toT k = some e ∧ ¬ e.Wt := by
  refine ⟨.cond (.uint .b8) (.ident 0 .bool) (.ident 1 (.uint .b8)) (.ident 2 (.uint .b16)), rfl, rfl, _, rfl, ?_⟩
  simp [TExpr.Wt, TExpr.ty]

/-- `c ? a : b` with `a` of type `field[2]` and `b` of type `field[3]` is accepted as a `field[2]`. -/
theorem C68_conditional_sizes : ∃ k : KExpr (ZMod 101), check noD (scopeOf [.bool, .array 2 .field, .array 3 .field]).types (.cond (.ident 0) (.ident 1) (.ident 2)) = .ok k ∧
    k.ty = .array 2 .field ∧ ∃ e, toT k = some e ∧ ¬ e.Wt := by
  refine ⟨.cond (.array 2 .field) (.ident 0 .bool) (.ident 1 (.array 2 .field)) (.ident 2 (.array 3 .field)), rfl, rfl, _, rfl, ?_⟩
  simp [TExpr.Wt, TExpr.ty]

/-- `c ? a : b` with structs of different declarations, the members of which have other names, is accepted as the first. -/
theorem C68_conditional_structs : ∃ k : KExpr (ZMod 101),
    check noD (scopeOf [.bool, .struct [("x".toList, .field)], .struct [("y".toList, .field)]]).types (.cond (.ident 0) (.ident 1) (.ident 2)) = .ok k ∧
    k.ty = .struct [("x".toList, .field)] ∧ ∃ e, toT k = some e ∧ ¬ e.Wt := by
  refine ⟨.cond (.struct [("x".toList, .field)]) (.ident 0 .bool) (.ident 1 (.struct [("x".toList, .field)])) (.ident 2 (.struct [("y".toList, .field)])), rfl, rfl, _, rfl, ?_⟩
  simp [TExpr.Wt, TExpr.ty]

/-- `[[x, y], [z]]` is accepted as a `field[2][2]`. -/
theorem C68_ragged : ∃ k : KExpr (ZMod 101),
    check noD (scopeOf [.field]).types (.array [.expr (.array [.expr (.ident 0), .expr (.ident 0)]), .expr (.array [.expr (.ident 0)])]) = .ok k ∧
    k.ty = .array 2 (.array 2 .field) ∧ ∃ e, toT k = some e ∧ ¬ e.Wt := by
  refine ⟨.array (.array 2 .field) 2 [.expr (.array .field 2 [.expr (.ident 0 .field), .expr (.ident 0 .field)]), .expr (.array .field 1 [.expr (.ident 0 .field)])],
    rfl, rfl, _, rfl, ?_⟩
  simp [TExpr.Wt, WtS, TExpr.ty]

/-- The compiler panics on `[1, 2][0]`, `(1, x).0`, `300u8`, on the comparison of two structs with members of different types, and on `field a = (1, x).1`. -/
theorem C68_panics :
    check (p := 101) noD (fun _ => none) (.select (.array [.expr (.int 1), .expr (.int 2)]) (.int 0)) = .error .panic ∧
    check (p := 101) noD (scopeOf [.field]).types (.element (.tuple [.int 1, .ident 0]) 0) = .error .panic ∧
    check (p := 101) noD (fun _ => none) (.uintC .b8 300) = .error .panic ∧
    check (p := 101) noD (scopeOf [.struct [("x".toList, .field)], .struct [("x".toList, .bool)]]).types (.eq (.ident 0) (.ident 1)) = .error .panic ∧
    (checkStmt (p := 101) noD .field (scopeOf [.field]) (.definition 1 .field false (.element (.tuple [.int 1, .ident 0]) 1))).toOption.isNone ∧
    (check (p := 101) noD (scopeOf [.field]).types (.element (.tuple [.int 1, .ident 0]) 1)).toOption.isSome := by
  refine ⟨rfl, rfl, rfl, rfl, rfl, rfl⟩

/-- `(field, field)[2] a = [(1, x), (2, x)];` is rejected, and `[(x, x), (2, x)]` is not. -/
theorem C68_tuples_of_literals :
    (checkStmt (p := 101) noD .field (scopeOf [.field]) (.definition 1 (.array 2 (.tuple [.field, .field])) false
      (.array [.expr (.tuple [.int 1, .ident 0]), .expr (.tuple [.int 2, .ident 0])]))).toOption.isNone ∧
    (checkStmt (p := 101) noD .field (scopeOf [.field]) (.definition 1 (.array 2 (.tuple [.field, .field])) false
      (.array [.expr (.tuple [.ident 0, .ident 0]), .expr (.tuple [.int 2, .ident 0])]))).toOption.isSome := by
  refine ⟨rfl, rfl⟩

end Zok.Sem
