import Verif.Props.Compile

/-
Programs that meet the hypotheses of the theorems of `Props/Compile.lean`, and programs that show that the hypotheses
cannot be dropped. The field has 97 elements, integers have 2 bits.
-/

namespace Zok

/-- An annotated integer expression. -/
abbrev um (w : ℕ) (mx : ZMod 97) (r : ShouldReduce) (i : UInner (ZMod 97)) : UExpr (ZMod 97) := .mk w (some ⟨mx, r⟩) i

/-- The flattened program is satisfied by `ρ`, with these arguments and outputs. -/
def accepts (f : ZFun (ZMod 97) Unit) (ρ : Assignment (ZMod 97)) (clash : Bool) (ins outs : List (ZMod 97)) : Bool :=
  match fromProgram f with
  | none => false
  | some (args, ss, c) => (c == clash) && FlatStmt.satBL ρ ss && (args.map (fun a => ρ a.id) == ins) &&
      ((List.range f.returnCount).map (fun i => ρ (Variable.pub i)) == outs)

theorem accepts_spec {f : ZFun (ZMod 97) Unit} {ρ : Assignment (ZMod 97)} {cl : Bool} {ins outs : List (ZMod 97)}
    (h : accepts f ρ cl ins outs = true) : ∃ args ss, fromProgram f = some (args, ss, cl) ∧ SatF ρ ss ∧
      args.map (fun a => ρ a.id) = ins ∧ (List.range f.returnCount).map (fun i => ρ (Variable.pub i)) = outs := by
  unfold accepts at h
  split at h
  · cases h
  · rename_i args ss c hf
    simp only [Bool.and_eq_true, beq_iff_eq] at h
    obtain ⟨⟨⟨rfl, h1⟩, h2⟩, h3⟩ := h
    exact ⟨args, ss, hf, FlatStmt.satBL_sound ρ ss h1, h2, h3⟩

theorem clashes_false_iff {f : ZFun (ZMod 97) Unit} {args : List Parameter} {ss : List (FlatStmt (ZMod 97) Unit)}
    {c d : Bool} (h : fromProgram f = some (args, ss, c)) (h' : fromProgram f = some (args, ss, d)) : c = d := by
  rw [h] at h'; simpa using h'

/-- Inversion of the execution of a single return statement. -/
theorem returns_single {f : ZFun (ZMod 97) Unit} {es : List (ZExpr (ZMod 97))} (hb : f.body = [.ret es])
    {ins outs : List (ZMod 97)} (h : Returns (Oracle.any 97 Unit) f ins outs) :
    ∃ vs rs, decodeArgs f.params ins = some vs ∧ evalZs (initState f vs).env es = .ok rs ∧ rs.map ZVal.enc = outs := by
  obtain ⟨vs, σ, rs, h1, h2, h3, h4⟩ := h
  rw [hb] at h2
  cases h2 with
  | cons h5 h6 =>
    cases h6
    cases h5 with
    | ret h7 => cases h3; exact ⟨vs, _, h1, h7, h4⟩

/-- Inversion of a fault in a single return statement. -/
theorem faults_single {f : ZFun (ZMod 97) Unit} {es : List (ZExpr (ZMod 97))} (hb : f.body = [.ret es])
    {ins : List (ZMod 97)} {e : Fault} (h : Faults (Oracle.any 97 Unit) f ins e) :
    ∃ vs, decodeArgs f.params ins = some vs ∧ evalZs (initState f vs).env es = .error e := by
  obtain ⟨vs, h1, h2⟩ := h
  rw [hb] at h2
  refine ⟨vs, h1, ?_⟩
  cases h2 with
  | fault h5 => cases h5 with
    | retFault h => exact h
  | cons h5 h6 => cases h6

instance (t : ZType) : Decidable (t.Ok 97) := by
  cases t <;> unfold ZType.Ok <;> infer_instance

/-- Whether the circuit contains the condition `lin = quad`. -/
def hasCond (f : ZFun (ZMod 97) Unit) (args : List Variable) (lin quad : FlatExpr (ZMod 97)) : Bool :=
  match fromProgram f with
  | none => false
  | some (as, ss, _) => decide (as.map Parameter.id = args) && ss.any fun s => match s with
    | .condition l q _ => decide (l = lin) && decide (q = quad)
    | _ => false

theorem hasCond_spec {f : ZFun (ZMod 97) Unit} {vs : List Variable} {lin quad : FlatExpr (ZMod 97)}
    (h : hasCond f vs lin quad = true) {args ss c} (hf : fromProgram f = some (args, ss, c)) :
    args.map Parameter.id = vs ∧ ∀ ρ : Assignment (ZMod 97), SatF ρ ss → lin.val ρ = quad.val ρ := by
  unfold hasCond at h
  rw [hf] at h
  simp only [Bool.and_eq_true, decide_eq_true_eq, List.any_eq_true] at h
  obtain ⟨h1, s, hs, h2⟩ := h
  refine ⟨h1, fun ρ hρ => ?_⟩
  cases s with
  | condition l q e =>
    simp only [Bool.and_eq_true, decide_eq_true_eq] at h2
    obtain ⟨rfl, rfl⟩ := h2
    cases hρ _ hs with
    | condition h => exact h
  | _ => cases h2

/-! ### A program that meets the hypotheses -/

/-- ```
def main(private field x, public u2 a, private bool b) -> (u2, field) {
    field y = x * x;
    assert(y == 9 && b);
    return (a + a, a < 2 ? y : 1 / x);
}
``` -/
def exF : ZFun (ZMod 97) Unit where
  params := [⟨0, .field, true⟩, ⟨1, .uint 2, false⟩, ⟨2, .bool, true⟩]
  returnCount := 2
  body := [
    .definition 3 (.field (.mult (.ident 0) (.ident 0))),
    .assertion (.and (.fieldEq (.ident 3) (.value 9)) (.ident 2)) (.sourceAssertion "x * x == 9 && b"),
    .ret [.uint (um 2 6 .yes (.add (um 2 3 .no (.ident 1)) (um 2 3 .no (.ident 1)))),
      .field (.cond (.uintLt (um 2 3 .yes (.ident 1)) (um 2 2 .yes (.value 2))) (.ident 3)
        (.div (.value 1) (.ident 0)))]]

theorem exF_ok : OkFun exF := by
  refine ⟨by decide +kernel, [_, _], _, _, rfl, rfl, .cons (.definition ?_) (.cons (.assertion ?_ ?_) (.cons (.ret ?_) .nil))⟩
  · exact ⟨rfl, rfl⟩
  · exact ⟨⟨rfl, trivial⟩, rfl⟩
  · intro c hc
    cases hc with
    | self => exact fun h => h
    | left h => cases h with
      | self => exact fun h => h
    | right h => cases h with
      | self => exact fun h => h
  · intro e he
    simp only [List.mem_cons, List.not_mem_nil, or_false] at he
    have h1 : ∀ r, OkU (Ctx.set (Ctx.setAll (fun _ => none) [0, 1, 2] [.field, .uint 2 3, .bool]) 3 .field)
        (um 2 3 r (.ident 1)) := fun r =>
      ⟨⟨_, rfl, (by decide +kernel : (3 : ZMod 97).val < 2 ^ (Fld.requiredBits 97 - 1))⟩, by omega, by decide +kernel, 3,
        rfl, (by decide +kernel : 3 ≤ (3 : ZMod 97).val)⟩
    rcases he with rfl | rfl
    · refine ⟨⟨⟨_, rfl, by decide +kernel⟩, by omega, by decide +kernel, h1 _, h1 _, rfl, rfl, by decide +kernel⟩,
        _, rfl, rfl⟩
    · refine ⟨⟨⟨h1 _, ⟨⟨_, rfl, by decide +kernel⟩, by omega, by decide +kernel, by omega, by decide +kernel⟩, rfl,
        ⟨_, rfl, rfl⟩, ⟨_, rfl, rfl⟩⟩, rfl, trivial, rfl⟩, trivial⟩

/-- `exF` is compiled without clash, and its circuit is satisfied with arguments 3, 3, true and outputs 2 and 1/3. -/
theorem exF_accepts : ∃ ρ, accepts exF ρ false [3, 3, 1] [2, 65] = true :=
  ⟨tableAssignment [3, 3, 1, 1, 1, 9, 1, 1, 0, 0, 1, 0, 0, 0, 0, 0, 0, 0, 0, 0, 0, 0, 0, 1, 1, 1, 0, 0, 0, 1, 0, 1, 0, 1,
    0, 1, 0, 1, 0, 1, 1, 1, 0, 0, 0, 0, 0, 0, 6, 5, 1, 1, 0, 1, 3, 65, 9, 65, 0, 65, 65] [2, 65], by decide +kernel⟩

/-- The hypotheses of C23 and C25 are met. -/
example : OkFun exF ∧ ∃ ρ args ss, fromProgram exF = some (args, ss, false) ∧ SatF ρ ss ∧
    args.map (fun a => ρ a.id) = [3, 3, 1] := by
  obtain ⟨ρ, h⟩ := exF_accepts
  obtain ⟨args, ss, h1, h2, h3, _⟩ := accepts_spec h
  exact ⟨exF_ok, ρ, args, ss, h1, h2, h3⟩

/-- The hypotheses of C23 for the intermediate representation are met. -/
example : ∃ P, lowerProgram exF = some (P, false) := by
  have h : ((lowerProgram exF).map Prod.snd) = some false := by decide +kernel
  cases hl : lowerProgram exF with
  | none => rw [hl] at h; cases h
  | some t => obtain ⟨P, c⟩ := t; rw [hl] at h; cases h; exact ⟨P, rfl⟩

/-! ### A clash makes the circuit wrong -/

/-- ```
def main(private u2 x, private u2 y) -> (u2, bool) {
    return (x - y, x < y);
}
``` -/
def clashF : ZFun (ZMod 97) Unit where
  params := [⟨0, .uint 2, true⟩, ⟨1, .uint 2, true⟩]
  returnCount := 2
  body := [.ret [.uint (um 2 7 .yes (.sub (um 2 3 .no (.ident 0)) (um 2 3 .no (.ident 1)))),
    .bool (.uintLt (um 2 3 .yes (.ident 0)) (um 2 3 .yes (.ident 1)))]]

theorem clash_parts : ∀ r (x : ZId), x = 0 ∨ x = 1 →
    OkU (Ctx.setAll (fun _ => none) [0, 1] [.uint 2 3, .uint 2 3]) (um 2 3 r (.ident x)) := by
  intro r x hx
  refine ⟨⟨_, rfl, (by decide +kernel : (3 : ZMod 97).val < 2 ^ (Fld.requiredBits 97 - 1))⟩, by omega,
    by decide +kernel, 3, ?_, (by decide +kernel : 3 ≤ (3 : ZMod 97).val)⟩
  rcases hx with rfl | rfl <;> rfl

theorem clash_sub : OkU (Ctx.setAll (fun _ => none) [0, 1] [.uint 2 3, .uint 2 3])
    (um 2 7 .yes (.sub (um 2 3 .no (.ident 0)) (um 2 3 .no (.ident 1)))) :=
  ⟨⟨_, rfl, by decide +kernel⟩, by omega, by decide +kernel, clash_parts _ 0 (Or.inl rfl), clash_parts _ 1 (Or.inr rfl),
    rfl, rfl, by decide +kernel⟩

theorem clash_lt : OkB (Ctx.setAll (fun _ => none) [0, 1] [.uint 2 3, .uint 2 3])
    (.uintLt (um 2 3 .yes (.ident 0)) (um 2 3 .yes (.ident 1))) :=
  ⟨clash_parts _ 0 (Or.inl rfl), clash_parts _ 1 (Or.inr rfl), rfl, ⟨_, rfl, rfl⟩, ⟨_, rfl, rfl⟩⟩

theorem clashF_ok : OkFun clashF := by
  refine ⟨by decide +kernel, [], _, _, rfl, rfl, .cons (.ret ?_) .nil⟩
  intro e he
  simp only [List.mem_cons, List.not_mem_nil, or_false] at he
  rcases he with rfl | rfl
  · exact ⟨clash_sub, _, rfl, rfl⟩
  · exact ⟨clash_lt, trivial⟩

/-- **C23** fails for `return (x - y, x < y)`: the circuit accepts the claim `3 < 1`. The bits of `2^w + x - y` that the
subtraction leaves in the cache, without the highest one, are taken for all the bits by the comparison, whose result is
therefore always true. -/
theorem C23_cache_clash_unsound : OkFun clashF ∧ ∃ ρ args ss, fromProgram clashF = some (args, ss, true) ∧
    SatF ρ ss ∧ args.map (fun a => ρ a.id) = [3, 1] ∧
    (List.range clashF.returnCount).map (fun i => ρ (Variable.pub i)) = [2, 1] ∧
    ¬ Returns (Oracle.any 97 Unit) clashF [3, 1] [2, 1] ∧ ∀ e, ¬ Faults (Oracle.any 97 Unit) clashF [3, 1] e := by
  have ha : accepts clashF (tableAssignment [3, 1, 1, 1, 0, 1, 1, 1, 0] [2, 1]) true [3, 1] [2, 1] = true := by
    decide +kernel
  obtain ⟨args, ss, h1, h2, h3, h4⟩ := accepts_spec ha
  have hd : decodeArgs clashF.params [(3 : ZMod 97), 1] = some [.uint 2 (3 : ZMod 97).val, .uint 2 (1 : ZMod 97).val] := by
    decide +kernel
  have hv : evalZs (initState clashF [.uint 2 (3 : ZMod 97).val, .uint 2 (1 : ZMod 97).val]).env
      [.uint (um 2 7 .yes (.sub (um 2 3 .no (.ident 0)) (um 2 3 .no (.ident 1)))),
        .bool (.uintLt (um 2 3 .yes (.ident 0)) (um 2 3 .yes (.ident 1)))] = .ok [.uint 2 2, .bool false] := by
    decide +kernel
  refine ⟨clashF_ok, _, args, ss, h1, h2, h3, h4, ?_, ?_⟩
  · intro h
    obtain ⟨vs, rs, g1, g2, g3⟩ := returns_single rfl h
    rw [hd] at g1
    cases g1
    rw [hv] at g2
    cases g2
    revert g3
    decide +kernel
  · intro e h
    obtain ⟨vs, g1, g2⟩ := faults_single rfl h
    rw [hd] at g1
    cases g1
    rw [hv] at g2
    cases g2

/-- The same program with the results exchanged. -/
def clashG : ZFun (ZMod 97) Unit where
  params := [⟨0, .uint 2, true⟩, ⟨1, .uint 2, true⟩]
  returnCount := 2
  body := [.ret [.bool (.uintLt (um 2 3 .yes (.ident 0)) (um 2 3 .yes (.ident 1))),
    .uint (um 2 7 .yes (.sub (um 2 3 .no (.ident 0)) (um 2 3 .no (.ident 1))))]]

/-- **C24** fails for `return (x < y, x - y)`: the circuit cannot be satisfied with `x = 3`, `y = 1`, although the function
returns `(false, 2)`. The subtraction takes the three bits of `2^w + x - y` from the cache and constrains the highest
one to be zero. -/
theorem C24_cache_clash_incomplete : OkFun clashG ∧ Returns (Oracle.any 97 Unit) clashG [3, 1] [0, 2] ∧
    ∃ args ss, fromProgram clashG = some (args, ss, true) ∧
      ∀ ρ : Assignment (ZMod 97), args.map (fun a => ρ a.id) = [3, 1] → ¬ SatF ρ ss := by
  refine ⟨⟨by decide +kernel, [], _, _, rfl, rfl, .cons (.ret ?_) .nil⟩, ?_, ?_⟩
  · intro e he
    simp only [List.mem_cons, List.not_mem_nil, or_false] at he
    rcases he with rfl | rfl
    · exact ⟨clash_lt, trivial⟩
    · exact ⟨clash_sub, _, rfl, rfl⟩
  · refine ⟨[.uint 2 (3 : ZMod 97).val, .uint 2 (1 : ZMod 97).val], _, [.bool false, .uint 2 2], by decide +kernel,
      .cons (.ret (vs := [.bool false, .uint 2 2]) (by decide +kernel)) .nil, rfl, by decide +kernel⟩
  · have hc : (fromProgram clashG).map (fun t => t.2.2) = some true := by decide +kernel
    cases hf : fromProgram clashG with
    | none => rw [hf] at hc; cases hc
    | some t =>
      obtain ⟨args, ss, c⟩ := t
      rw [hf] at hc
      cases hc
      refine ⟨args, ss, rfl, fun ρ ha hs => ?_⟩
      have hb : ∀ i ∈ [6, 7, 8], hasCond clashG [Variable.new 0, Variable.new 3] (.ident (Variable.new i))
          (.mul (.ident (Variable.new i)) (.ident (Variable.new i))) = true := by decide +kernel
      have h1 : hasCond clashG [Variable.new 0, Variable.new 3]
          (.add (.value (2 ^ 2)) (.sub (.ident (Variable.new 0)) (.ident (Variable.new 3))))
          (flatFromBits [.ident (Variable.new 6), .ident (Variable.new 7), .ident (Variable.new 8)]) = true := by
        decide +kernel
      have h2 : hasCond clashG [Variable.new 0, Variable.new 3] (.value 0) (Flt.sumFold [.ident (Variable.new 6)]) = true := by
        decide +kernel
      have hargs := (hasCond_spec h1 hf).1
      have e1 := (hasCond_spec h1 hf).2 ρ hs
      have e2 := (hasCond_spec h2 hf).2 ρ hs
      have e6 := (hasCond_spec (hb 6 (by simp)) hf).2 ρ hs
      have e7 := (hasCond_spec (hb 7 (by simp)) hf).2 ρ hs
      have e8 := (hasCond_spec (hb 8 (by simp)) hf).2 ρ hs
      have ha' : (args.map Parameter.id).map ρ = [3, 1] := by simpa [Function.comp_def] using ha
      rw [hargs] at ha'
      simp only [List.map_cons, List.map_nil, List.cons.injEq, and_true] at ha'
      obtain ⟨hx, hy⟩ := ha'
      have hsum : (flatFromBits [.ident (Variable.new 6), .ident (Variable.new 7), .ident (Variable.new 8)] :
          FlatExpr (ZMod 97)).val ρ = ρ (Variable.new 8) + 2 * ρ (Variable.new 7) + 4 * ρ (Variable.new 6) := by
        unfold flatFromBits withPowers
        rw [val_flatSummands]
        simp only [List.reverse_cons, List.reverse_nil, List.nil_append, List.cons_append, List.zipIdx_cons,
          List.zipIdx_nil, List.map_cons, List.map_nil, List.sum_cons, List.sum_nil, FlatExpr.val]
        ring
      rw [hsum] at e1
      simp only [FlatExpr.val, hx, hy] at e1 e6 e7 e8
      have h6 : ρ (Variable.new 6) = 0 := by
        have := e2
        simp only [Flt.sumFold, List.foldl, FlatExpr.val, zero_add] at this
        exact this.symm
      rw [h6] at e1
      generalize ρ (Variable.new 7) = b at *
      generalize ρ (Variable.new 8) = c at *
      clear * - e1 e7 e8
      revert b c
      decide +kernel

/-! ### Expressions -/

/-- Three variables: a field element, a boolean and a 2-bit integer. -/
def exΓ : Ctx := fun x => if x = 0 then some .field else if x = 1 then some .bool else if x = 2 then some (.uint 2 3) else none

/-- Their values. -/
def exEnv : ZEnv 97 := fun x => if x = 0 then some (.field 3) else if x = 1 then some (.bool true) else
  if x = 2 then some (.uint 2 3) else none

/-- The circuit variables that represent them. -/
def exSt : FlState 97 Unit := { startState 97 Unit 3 with
  layout := fun x => if x = 0 then some (Variable.new 0) else if x = 1 then some (Variable.new 1) else
    if x = 2 then some (Variable.new 2) else none }

theorem exEnv_ok {l : List (ZMod 97)} : EnvOk exΓ exEnv exSt.layout (tableAssignment (3 :: 1 :: 3 :: l)) := by
  intro x k h
  unfold exΓ at h
  split at h
  · subst_vars; cases h; exact ⟨_, rfl, rfl⟩
  · split at h
    · subst_vars; cases h; exact ⟨_, rfl, true, rfl, rfl⟩
    · split at h
      · subst_vars; cases h
        refine ⟨_, rfl, 3, rfl, by decide, ?_, ?_⟩
        · exact (by decide +kernel : (3 : ZMod 97).val % 2 ^ 2 = 3)
        · exact (by decide +kernel : (3 : ZMod 97).val ≤ 3)
      · cases h

/-- `ρ` meets the hypotheses of C19–C21 for the action `m`. -/
def MeetsAt {α : Type} (m : FlatM 97 Unit α) (ρ : Assignment (ZMod 97)) (k : α → Prop) : Prop :=
  ∃ a st', m exSt = some (a, st') ∧ CacheOk ρ exSt ∧ SatF ρ st'.out ∧ st'.clash = false ∧ k a

theorem meetsAt {α : Type} {m : FlatM 97 Unit α} {ρ : Assignment (ZMod 97)} {k : α → Prop} [DecidablePred k]
    (h : (match m exSt with
      | none => false
      | some (a, st) => !st.clash && FlatStmt.satBL ρ st.out && decide (k a)) = true) : MeetsAt m ρ k := by
  split at h
  · cases h
  · rename_i a st hm
    simp only [Bool.and_eq_true, Bool.not_eq_true', decide_eq_true_eq] at h
    exact ⟨a, st, hm, (fun f c h => by cases h), FlatStmt.satBL_sound ρ _ h.1.2, h.1.1, h.2⟩

/-- C19: `!(x < x * x) || b`. -/
example : ∃ (e : BExpr (ZMod 97)) (ρ : Assignment (ZMod 97)), OkB exΓ e ∧ EnvOk exΓ exEnv exSt.layout ρ ∧
    MeetsAt (Flt.flattenB e) ρ (fun a => a.val ρ = 1) :=
  ⟨.or (.not (.fieldLt (.ident 0) (.mult (.ident 0) (.ident 0)))) (.ident 1),
    tableAssignment [3, 1, 3, 0, 0, 0, 1, 1, 0, 1, 0, 0, 1, 9, 0, 1, 1, 0, 1, 0, 1],
    ⟨⟨rfl, rfl, rfl⟩, rfl⟩, exEnv_ok, meetsAt (by decide +kernel)⟩

/-- C20: `x ** 3 / (x - 5)`. -/
example : ∃ (e : FExpr (ZMod 97)) (ρ : Assignment (ZMod 97)), OkF exΓ e ∧ EnvOk exΓ exEnv exSt.layout ρ ∧
    MeetsAt (Flt.flattenF e) ρ (fun a => a.val ρ = 35) :=
  ⟨.div (.pow (.ident 0) (um 2 3 .no (.value 3))) (.sub (.ident 0) (.value 5)),
    tableAssignment [3, 1, 3, 9, 3, 27, 27, 95, 35],
    ⟨⟨rfl, _, _, _, rfl, by norm_num⟩, rfl, trivial⟩, exEnv_ok, meetsAt (by decide +kernel)⟩

/-- C21: `(a + a) ^ a`. -/
example : ∃ (e : UExpr (ZMod 97)) (ρ : Assignment (ZMod 97)), OkU exΓ e ∧ e.Reduced ∧ EnvOk exΓ exEnv exSt.layout ρ ∧
    MeetsAt (Flt.flattenU e) ρ (fun u => u.field.map (FlatExpr.val ρ) = some 1) := by
  have h1 : ∀ r, OkU exΓ (um 2 3 r (.ident 2)) := fun r =>
    ⟨⟨_, rfl, (by decide +kernel : (3 : ZMod 97).val < 2 ^ (Fld.requiredBits 97 - 1))⟩, by omega, by decide +kernel, 3,
      rfl, (by decide +kernel : 3 ≤ (3 : ZMod 97).val)⟩
  refine ⟨um 2 3 .yes (.xor (um 2 6 .yes (.add (um 2 3 .no (.ident 2)) (um 2 3 .no (.ident 2)))) (um 2 3 .yes (.ident 2))),
    tableAssignment [3, 1, 3, 1, 1, 0, 1, 1, 0, 1], ⟨⟨_, rfl, by decide +kernel⟩, by omega, by decide +kernel,
      ⟨⟨_, rfl, by decide +kernel⟩, by omega, by decide +kernel, h1 _, h1 _, rfl, rfl, by decide +kernel⟩, h1 _, rfl, rfl,
      ⟨_, rfl, rfl⟩, ⟨_, rfl, rfl⟩, by decide +kernel⟩, ⟨_, rfl, rfl⟩, exEnv_ok, meetsAt (by decide +kernel)⟩

/-! ### Other hypotheses that are needed -/

/-- `return 0 / x`: without the check that `zokrates_analysis/src/panic_extractor.rs` adds, the circuit accepts any result
when `x` is zero. -/
def divF : ZFun (ZMod 97) Unit where
  params := [⟨0, .field, true⟩]
  returnCount := 1
  body := [.ret [.field (.div (.value 0) (.ident 0))]]

/-- The exception for division by zero in **C20** and **C23** is needed. -/
theorem C20_division_by_zero_unchecked : ∀ o : ZMod 97, ∃ ρ args ss, fromProgram divF = some (args, ss, false) ∧
    SatF ρ ss ∧ args.map (fun a => ρ a.id) = [0] ∧ ρ (Variable.pub 0) = o := by
  intro o
  have h : ∀ o : ZMod 97, accepts divF (tableAssignment [0, 0, 0, o, o] [o]) false [0] [o] = true := by decide +kernel
  obtain ⟨args, ss, h1, h2, h3, h4⟩ := accepts_spec (h o)
  exact ⟨_, args, ss, h1, h2, h3, rfl⟩

/-- `assert(2 < x ** 0)`. -/
def powF : ZFun (ZMod 97) Unit where
  params := [⟨0, .field, true⟩]
  returnCount := 0
  body := [.assertion (.fieldLt (.value 2) (.pow (.ident 0) (um 2 3 .no (.value 0)))) (.sourceAssertion "2 < x ** 0"),
    .ret []]

/-- The condition that assertions do not compare constants, in **C23**, is needed: `assert(2 < x ** 0)` is accepted
although `2 < 1` is false, because the constant 2 is truncated to the bit length of the other constant. -/
theorem C23_constant_assertion_unsound : ∃ ρ args ss, fromProgram powF = some (args, ss, false) ∧ SatF ρ ss ∧
    args.map (fun a => ρ a.id) = [3] ∧ ¬ ∃ outs, Returns (Oracle.any 97 Unit) powF [3] outs := by
  have h : accepts powF (tableAssignment [3, 0, 1, 0] []) false [3] [] = true := by decide +kernel
  obtain ⟨args, ss, h1, h2, h3, h4⟩ := accepts_spec h
  refine ⟨_, args, ss, h1, h2, h3, ?_⟩
  rintro ⟨outs, vs, σ, rs, g1, g2, g3, g4⟩
  have hd : decodeArgs powF.params [(3 : ZMod 97)] = some [.field 3] := by decide +kernel
  rw [hd] at g1
  cases g1
  have hv : evalB (initState powF [.field 3]).env
      (.fieldLt (.value 2) (.pow (.ident 0) (um 2 3 .no (.value 0)))) = .ok false := by decide +kernel
  cases g2 with
  | cons g5 g6 =>
    cases g5 with
    | assertOk g7 => rw [hv] at g7; cases g7

end Zok
