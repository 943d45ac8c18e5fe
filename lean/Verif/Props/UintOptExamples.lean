import Verif.Props.UintOpt
import Verif.Props.CompileExamples
import Verif.Spec.Curves

/-
Programs that meet the hypotheses of the theorems of `Props/UintOpt.lean`, and programs on which the range analysis is wrong.
-/

namespace Zok
open Uo

/-- Hints are left alone. -/
def keepHint (p : ℕ) : Unit → Ids p → Option (Unit × Ids p) := fun z ids => some (z, ids)

theorem keepHint_ok (p : ℕ) : ∀ z ids, ∃ z', keepHint p z ids = some (z', ids) := fun z _ => ⟨z, rfl⟩

/-- The circuit of the annotated function is satisfied by `ρ`, with these arguments and outputs. -/
def acceptsUo {p : ℕ} [Fact p.Prime] (hf : Unit → Ids p → Option (Unit × Ids p)) (f : ZFun (ZMod p) Unit) (ρ : Assignment (ZMod p))
    (ins outs : List (ZMod p)) : Bool :=
  match uintOptimize hf f with
  | none => false
  | some g => match fromProgram g with
    | none => false
    | some (args, ss, c) => !c && FlatStmt.satBL ρ ss && (args.map (fun a => ρ a.id) == ins) &&
      ((List.range g.returnCount).map (fun i => ρ (Variable.pub i)) == outs)

theorem acceptsUo_spec {p : ℕ} [Fact p.Prime] {hf : Unit → Ids p → Option (Unit × Ids p)} {f : ZFun (ZMod p) Unit}
    {ρ : Assignment (ZMod p)} {ins outs : List (ZMod p)} (h : acceptsUo hf f ρ ins outs = true) :
    ∃ g args ss, uintOptimize hf f = some g ∧ fromProgram g = some (args, ss, false) ∧ SatF ρ ss ∧
      args.map (fun a => ρ a.id) = ins ∧ (List.range g.returnCount).map (fun i => ρ (Variable.pub i)) = outs := by
  unfold acceptsUo at h
  split at h
  · cases h
  · rename_i g hg
    split at h
    · cases h
    · rename_i args ss c hf'
      simp only [Bool.and_eq_true, beq_iff_eq, Bool.not_eq_true'] at h
      obtain ⟨⟨⟨rfl, h1⟩, h2⟩, h3⟩ := h
      exact ⟨g, args, ss, hg, hf', FlatStmt.satBL_sound ρ ss h1, h2, h3⟩

/-- An expression before the analysis. -/
abbrev un {p : ℕ} (w : ℕ) (i : UInner (ZMod p)) : UExpr (ZMod p) := .mk w none i

/-! ### A plain program -/

/-- ```
def main(private u32 x) -> (u32, bool) {
    u32 y = x ^ (x >> 3);
    u32 z = (y << 7) | (y >> 25);
    return (z + x - y, z + 5 < x);
}
``` -/
def rotF : ZFun (ZMod Bn128) Unit where
  params := [⟨0, .uint 32, true⟩]
  returnCount := 2
  body := [
    .definition 1 (.uint (un 32 (.xor (un 32 (.ident 0)) (un 32 (.rightShift (un 32 (.ident 0)) (un 32 (.value 3))))))),
    .definition 2 (.uint (un 32 (.or (un 32 (.leftShift (un 32 (.ident 1)) (un 32 (.value 7))))
      (un 32 (.rightShift (un 32 (.ident 1)) (un 32 (.value 25))))))),
    .ret [.uint (un 32 (.sub (un 32 (.add (un 32 (.ident 2)) (un 32 (.ident 0)))) (un 32 (.ident 1)))),
      .bool (.uintLt (un 32 (.add (un 32 (.ident 2)) (un 32 (.value 5)))) (un 32 (.ident 0)))]]

theorem width32 : WidthOk Bn128 32 := ⟨by decide, by decide +kernel⟩
theorem width64 : WidthOk Bn128 64 := ⟨by decide, by decide +kernel⟩

theorem wt_ident {p : ℕ} {Γ : TCtx} {w : ℕ} {x : ZId} (hw : WidthOk p w) (h : Γ x = some (.uint w)) :
    WtU (p := p) Γ (un w (.ident x)) := ⟨rfl, hw, h⟩

theorem wt_value {p : ℕ} {Γ : TCtx} {w n : ℕ} (hw : WidthOk p w) (h : n < 2 ^ w) :
    WtU (p := p) Γ (un w (.value n)) := ⟨rfl, hw, h⟩

theorem lit32 {n : ℕ} (h : n < 2 ^ 32) : IsLiteral32 (p := Bn128) (un 32 (.value n)) := ⟨⟨n, rfl, h⟩, width32⟩

theorem rotF_wt : WtFun rotF := by
  refine ⟨?_, [_, _], _, _, rfl, rfl, .cons (.definition ?_) (.cons (.definition ?_) (.cons (.ret ?_) .nil))⟩
  · intro q hq
    simp only [rotF, List.mem_cons, List.not_mem_nil, or_false] at hq
    subst hq
    exact width32
  · exact ⟨rfl, width32, wt_ident width32 rfl, ⟨rfl, width32, wt_ident width32 rfl, rfl, lit32 (by decide)⟩, rfl, rfl⟩
  · exact ⟨rfl, width32, ⟨rfl, width32, wt_ident width32 rfl, rfl, lit32 (by decide)⟩,
      ⟨rfl, width32, wt_ident width32 rfl, rfl, lit32 (by decide)⟩, rfl, rfl⟩
  · intro e he
    simp only [List.mem_cons, List.not_mem_nil, or_false] at he
    rcases he with rfl | rfl
    · exact ⟨rfl, width32, ⟨rfl, width32, wt_ident width32 rfl, wt_ident width32 rfl, rfl, rfl⟩, wt_ident width32 rfl,
        rfl, rfl⟩
    · exact ⟨⟨rfl, width32, wt_ident width32 rfl, wt_value width32 (by decide), rfl, rfl⟩, wt_ident width32 rfl, rfl⟩

theorem rotF_plain : plainFun rotF = true := by decide +kernel

/-- The hypotheses of **C22** are met, up to the compiled program. -/
example : WtFun rotF ∧ plainFun rotF = true ∧
    ∃ g, uintOptimize (keepHint Bn128) rotF = some g ∧ OkFun g ∧ ∃ P, lowerProgram g = some (P, false) := by
  have h : ((uintOptimize (keepHint Bn128) rotF).bind fun g => (lowerProgram g).map Prod.snd) = some false := by
    decide +kernel
  cases hg : uintOptimize (keepHint Bn128) rotF with
  | none => rw [hg] at h; cases h
  | some g =>
    rw [hg] at h
    simp only [Option.bind_some, Option.map_eq_some_iff] at h
    obtain ⟨⟨P, c⟩, h1, rfl⟩ := h
    exact ⟨rotF_wt, rotF_plain, g, rfl, C22_plain_annotations (keepHint_ok _) rotF_wt rotF_plain hg, P, h1⟩

/-- The hypotheses of `C22_bound_partial` are met by `a * a - a`. -/
example : ∃ (Γ : TCtx) (ids : Ids 97) (e e₁ e' : UExpr (ZMod 97)) (ρ : Assignment (ZMod 97)), IdsOk Γ ids exΓ ∧ WtU Γ e ∧
    uoU ids e = some e₁ ∧ forceIf false e₁ = some e' ∧ RegU e' ∧ EnvOk exΓ exEnv exSt.layout ρ ∧
    MeetsAt (Flt.flattenU e') ρ (fun u => u.field.map (FlatExpr.val ρ) = some 10) := by
  have hw : WidthOk 97 2 := ⟨by decide, by decide +kernel⟩
  refine ⟨fun x => if x = 0 then some .field else if x = 1 then some .bool else if x = 2 then some (.uint 2) else none,
    fun x w => if x = 2 ∧ w = 2 then some ⟨3, .no⟩ else none,
    un 2 (.sub (un 2 (.mult (un 2 (.ident 2)) (un 2 (.ident 2)))) (un 2 (.ident 2))),
    um 2 13 .unknown (.sub (um 2 9 .no (.mult (um 2 3 .no (.ident 2)) (um 2 3 .no (.ident 2)))) (um 2 3 .no (.ident 2))),
    um 2 13 .no (.sub (um 2 9 .no (.mult (um 2 3 .no (.ident 2)) (um 2 3 .no (.ident 2)))) (um 2 3 .no (.ident 2))),
    tableAssignment [3, 1, 3, 9], ?_, ?_, ?_, rfl, ?_, exEnv_ok, meetsAt (by decide +kernel)⟩
  · intro x
    by_cases h0 : x = 0
    · subst h0; rfl
    · by_cases h1 : x = 1
      · subst h1; rfl
      · by_cases h2 : x = 2
        · subst h2
          exact ⟨3, rfl, by decide +kernel, rfl⟩
        · simp [exΓ, h0, h1, h2]
  · exact ⟨rfl, hw, ⟨rfl, hw, wt_ident hw rfl, wt_ident hw rfl, rfl, rfl⟩, wt_ident hw rfl, rfl, rfl⟩
  · rfl
  · simp only [RegU, RegUI, NodeRegular, and_self, and_true]
    decide +kernel

/-- Execution of a definition followed by a return statement. -/
theorem defRet_exec {p : ℕ} [Fact p.Prime] {O : Oracle p Unit} {σ : ZState p} {x : ZId} {e : ZExpr (ZMod p)} {es : List (ZExpr (ZMod p))}
    {v : ZVal p} {rs : List (ZVal p)} (h1 : evalZ σ.env e = .ok v) (h2 : evalZs (σ.set x v).env es = .ok rs)
    (r : Except Fault (ZState p)) :
    ExecL O σ [.definition x e, .ret es] r ↔ r = .ok { σ.set x v with outs := some rs } := by
  constructor
  · intro h
    cases h with
    | fault h => cases h with
      | definitionFault h => rw [h1] at h; cases h
    | cons h g => cases h with
      | definition h =>
        rw [h1] at h
        cases h
        cases g with
        | fault g => cases g with
          | retFault g => rw [h2] at g; cases g
        | cons g k => cases g with
          | ret g =>
            rw [h2] at g
            cases g
            cases k
            rfl
  · rintro rfl
    exact .cons (.definition h1) (.cons (.ret h2) .nil)

/-- Functions that consist of a definition and a return statement. -/
theorem defRet_spec {p : ℕ} [Fact p.Prime] {O : Oracle p Unit} {f : ZFun (ZMod p) Unit} {x : ZId} {e : ZExpr (ZMod p)}
    {es : List (ZExpr (ZMod p))} (hb : f.body = [.definition x e, .ret es]) {ins : List (ZMod p)} {vs rs : List (ZVal p)}
    {v : ZVal p} (hd : decodeArgs f.params ins = some vs) (h1 : evalZ (initState f vs).env e = .ok v)
    (h2 : evalZs ((initState f vs).set x v).env es = .ok rs) :
    (∀ outs, Returns O f ins outs ↔ outs = rs.map ZVal.enc) ∧ ∀ e, ¬ Faults O f ins e := by
  constructor
  · intro outs
    constructor
    · rintro ⟨vs', σ, rs', g1, g2, g3, rfl⟩
      rw [hd] at g1
      cases g1
      rw [hb, defRet_exec h1 h2] at g2
      cases g2
      cases g3
      rfl
    · rintro rfl
      exact ⟨vs, _, rs, hd, by rw [hb, defRet_exec h1 h2], rfl, rfl⟩
  · rintro e' ⟨vs', g1, g2⟩
    rw [hd] at g1
    cases g1
    rw [hb, defRet_exec h1 h2] at g2
    cases g2

/-! ### Right shifts -/

/-- ```
def main(private u64 a, private u64 b) -> u64 {
    u64 v = (a + b + 2) >> 1;
    return ((((v * 3) * 2**63 + v * 225870023859437901) * 2**63 + v * 7007907620824899956) * 2**63 +
      v * 5793828766613692706) * 2**63 + v * 4891460686036598786;
}
```
The integer multiplied by `v` is the modulus of the field plus one. -/
def wrapF : ZFun (ZMod Bn128) Unit where
  params := [⟨0, .uint 64, true⟩, ⟨1, .uint 64, true⟩]
  returnCount := 1
  body := [
    .definition 2 (.uint (un 64 (.rightShift
      (un 64 (.add (un 64 (.add (un 64 (.ident 0)) (un 64 (.ident 1)))) (un 64 (.value 2)))) (un 32 (.value 1))))),
    .ret [.uint (plus (mulC (plus (mulC (plus (mulC (plus (mulC (mulC v 3) (2 ^ 63)) (mulC v 225870023859437901)) (2 ^ 63))
      (mulC v 7007907620824899956)) (2 ^ 63)) (mulC v 5793828766613692706)) (2 ^ 63)) (mulC v 4891460686036598786))]]
where
  v : UExpr (ZMod Bn128) := un 64 (.ident 2)
  mulC (e : UExpr (ZMod Bn128)) (n : ℕ) : UExpr (ZMod Bn128) := un 64 (.mult e (un 64 (.value n)))
  plus (a b : UExpr (ZMod Bn128)) : UExpr (ZMod Bn128) := un 64 (.add a b)

/-- The types of the variables of `wrapF`. -/
abbrev wrapΓ : TCtx := TCtx.set (TCtx.setAll (fun _ => none) [0, 1] [.uint 64, .uint 64]) 2 (.uint 64)

theorem wrapF_wt : WtFun wrapF := by
  refine ⟨?_, [_], _, _, rfl, rfl, .cons (.definition ?_) (.cons (.ret ?_) .nil)⟩
  · intro q hq
    simp only [wrapF, List.mem_cons, List.not_mem_nil, or_false] at hq
    rcases hq with rfl | rfl <;> exact width64
  · exact ⟨rfl, width64, ⟨rfl, width64, ⟨rfl, width64, wt_ident width64 rfl, wt_ident width64 rfl, rfl, rfl⟩,
      wt_value width64 (by decide), rfl, rfl⟩, rfl, lit32 (by decide)⟩
  · intro e he
    simp only [List.mem_cons, List.not_mem_nil, or_false] at he
    subst he
    have hv : WtU (p := Bn128) wrapΓ wrapF.v := wt_ident width64 rfl
    have hm : ∀ {e n}, WtU (p := Bn128) wrapΓ e → e.width = 64 → n < 2 ^ 64 →
        WtU (p := Bn128) wrapΓ (wrapF.mulC e n) := fun h1 h2 h3 => ⟨rfl, width64, h1, wt_value width64 h3, h2, rfl⟩
    have ha : ∀ {a b}, WtU (p := Bn128) wrapΓ a → a.width = 64 → WtU wrapΓ b → b.width = 64 →
        WtU (p := Bn128) wrapΓ (wrapF.plus a b) := fun h1 h2 h3 h4 => ⟨rfl, width64, h1, h3, h2, h4⟩
    show WtU _ _
    refine ha (hm (ha (hm (ha (hm (ha (hm (hm hv rfl ?_) rfl ?_) rfl (hm hv rfl ?_) rfl) rfl ?_) rfl (hm hv rfl ?_) rfl) rfl ?_) rfl
      (hm hv rfl ?_) rfl) rfl ?_) rfl (hm hv rfl ?_) rfl <;> norm_num

/-- The assignment a prover uses, with both arguments 0 and output 1. -/
def wrapρ : Assignment (ZMod Bn128) := tableAssignment (List.replicate 194 0 ++ [1, 0, 1, 3, 27670116110564327424,
  225870023859437901, 257295058452732708160440322320079257600, 7007907620824899956,
  2373128047353849879777532639946492099404054647541489205248, 5793828766613692706,
  21888242871839275222246405745257275088548364400416034343693312725889771896832, 4891460686036598786] ++
  List.replicate 63 0 ++ [1]) [1]

/-- **C22** fails for right shifts: the maximum of `(a + b + 2) >> 1` is taken to be 0, because the maximum `2^65` of the
operand is truncated to 64 bits before it is shifted. Products with large constants are then not reduced, and the circuit
computes modulo the order of the field instead of modulo `2^64`: with `a = b = 0` the program returns
4891460686036598786, its circuit accepts 1. -/
theorem C22_right_shift_unsound : WtFun wrapF ∧ ∃ g ρ args ss, uintOptimize (keepHint Bn128) wrapF = some g ∧
    fromProgram g = some (args, ss, false) ∧ SatF ρ ss ∧ args.map (fun a => ρ a.id) = [0, 0] ∧
    ρ (Variable.pub 0) = 1 ∧ Returns (Oracle.any Bn128 Unit) wrapF [0, 0] [4891460686036598786] ∧
    ¬ Returns (Oracle.any Bn128 Unit) wrapF [0, 0] [1] ∧ ∀ e, ¬ Faults (Oracle.any Bn128 Unit) wrapF [0, 0] e := by
  have ha : acceptsUo (keepHint Bn128) wrapF wrapρ [0, 0] [1] = true := by decide +kernel
  obtain ⟨g, args, ss, h1, h2, h3, h4, h5⟩ := acceptsUo_spec ha
  have hd : decodeArgs wrapF.params [(0 : ZMod Bn128), 0] = some [.uint 64 0, .uint 64 0] := by decide +kernel
  have hv : evalZ (initState wrapF [.uint 64 0, .uint 64 0]).env (.uint (un 64 (.rightShift (un 64 (.add (un 64 (.add
      (un 64 (.ident 0)) (un 64 (.ident 1)))) (un 64 (.value 2)))) (un 32 (.value 1))))) = .ok (.uint 64 1) := by
    decide +kernel
  have hr : evalZs ((initState wrapF [.uint 64 0, .uint 64 0]).set 2 (.uint 64 1)).env [.uint (wrapF.plus (wrapF.mulC
      (wrapF.plus (wrapF.mulC (wrapF.plus (wrapF.mulC (wrapF.plus (wrapF.mulC (wrapF.mulC wrapF.v 3) (2 ^ 63)) (wrapF.mulC
      wrapF.v 225870023859437901)) (2 ^ 63)) (wrapF.mulC wrapF.v 7007907620824899956)) (2 ^ 63)) (wrapF.mulC wrapF.v
      5793828766613692706)) (2 ^ 63)) (wrapF.mulC wrapF.v 4891460686036598786))] =
      .ok [.uint 64 4891460686036598786] := by decide +kernel
  obtain ⟨r1, r2⟩ := defRet_spec (O := Oracle.any Bn128 Unit) rfl hd hv hr
  refine ⟨wrapF_wt, g, wrapρ, args, ss, h1, h2, h3, h4, ?_, ?_, ?_, r2⟩
  · decide +kernel
  · rw [r1]; decide +kernel
  · rw [r1]; decide +kernel

/-! ### Subtractions -/

/-- Whether the circuit of the annotated function contains the condition `lin = quad`. -/
def hasCondUo (hf : Unit → Ids 97 → Option (Unit × Ids 97)) (f : ZFun (ZMod 97) Unit) (args : List Variable)
    (lin quad : FlatExpr (ZMod 97)) : Bool :=
  match uintOptimize hf f with
  | none => false
  | some g => hasCond g args lin quad

theorem hasCondUo_spec {hf : Unit → Ids 97 → Option (Unit × Ids 97)} {f g : ZFun (ZMod 97) Unit} {vs : List Variable}
    {lin quad : FlatExpr (ZMod 97)} (h : hasCondUo hf f vs lin quad = true) (hg : uintOptimize hf f = some g) {args ss c}
    (hf' : fromProgram g = some (args, ss, c)) :
    args.map Parameter.id = vs ∧ ∀ ρ : Assignment (ZMod 97), SatF ρ ss → lin.val ρ = quad.val ρ := by
  unfold hasCondUo at h
  rw [hg] at h
  exact hasCond_spec h hf'

/-- Inversion of a bit constraint. -/
theorem bit_cases : ∀ b : ZMod 97, b = b * b → ∃ c : Bool, b = if c then 1 else 0 := by decide +kernel

/-- ```
def main(private u2 x, private u2 y) -> u2 {
    u2 z = x * x * x;
    return y - (z + z);
}
``` -/
def subF : ZFun (ZMod 97) Unit where
  params := [⟨0, .uint 2, true⟩, ⟨1, .uint 2, true⟩]
  returnCount := 1
  body := [.definition 2 (.uint (un 2 (.mult (un 2 (.mult (un 2 (.ident 0)) (un 2 (.ident 0)))) (un 2 (.ident 0))))),
   .ret [.uint (un 2 (.sub (un 2 (.ident 1)) (un 2 (.add (un 2 (.ident 2)) (un 2 (.ident 2))))))]]

theorem width2 : WidthOk 97 2 := ⟨by decide, by decide +kernel⟩

theorem subF_wt : WtFun subF := by
  refine ⟨?_, [_], _, _, rfl, rfl, .cons (.definition ?_) (.cons (.ret ?_) .nil)⟩
  · intro q hq
    simp only [subF, List.mem_cons, List.not_mem_nil, or_false] at hq
    rcases hq with rfl | rfl <;> exact width2
  · exact ⟨rfl, width2, ⟨rfl, width2, wt_ident width2 rfl, wt_ident width2 rfl, rfl, rfl⟩, wt_ident width2 rfl, rfl, rfl⟩
  · intro e he
    simp only [List.mem_cons, List.not_mem_nil, or_false] at he
    subst he
    exact ⟨rfl, width2, wt_ident width2 rfl, ⟨rfl, width2, wt_ident width2 rfl, wt_ident width2 rfl, rfl, rfl⟩, rfl, rfl⟩

/-- **C22** fails for subtractions: the range of `z + z` has one bit less than the field, so that it is reduced before it is
subtracted, and the maximum of the result is computed for the offset `2^w`; but the flattener still adds the offset
`2^6` of the unreduced operand. The circuit cannot be satisfied, whatever the arguments; the program never fails. -/
theorem C22_sub_offset_incomplete : WtFun subF ∧ Returns (Oracle.any 97 Unit) subF [1, 3] [1] ∧
    ∃ g args ss, uintOptimize (keepHint 97) subF = some g ∧ fromProgram g = some (args, ss, false) ∧
      ∀ ρ : Assignment (ZMod 97), ¬ SatF ρ ss := by
  have hd : decodeArgs subF.params [(1 : ZMod 97), 3] = some [.uint 2 1, .uint 2 3] := by decide +kernel
  have hv : evalZ (initState subF [.uint 2 1, .uint 2 3]).env (.uint (un 2 (.mult (un 2 (.mult (un 2 (.ident 0))
    (un 2 (.ident 0)))) (un 2 (.ident 0))))) = .ok (.uint 2 1) := by decide +kernel
  have hr : evalZs ((initState subF [.uint 2 1, .uint 2 3]).set 2 (.uint 2 1)).env
    [.uint (un 2 (.sub (un 2 (.ident 1)) (un 2 (.add (un 2 (.ident 2)) (un 2 (.ident 2))))))] = .ok [.uint 2 1] := by
    decide +kernel
  refine ⟨subF_wt, ((defRet_spec rfl hd hv hr).1 [1]).2 (by decide +kernel), ?_⟩
  have hc : ((uintOptimize (keepHint 97) subF).bind fun g => (fromProgram g).map fun t => t.2.2) = some false := by
    decide +kernel
  cases hg : uintOptimize (keepHint 97) subF with
  | none => rw [hg] at hc; cases hc
  | some g =>
    rw [hg, Option.bind_some] at hc
    cases hf : fromProgram g with
    | none => rw [hf] at hc; cases hc
    | some t =>
      obtain ⟨args, ss, c⟩ := t
      rw [hf] at hc
      cases hc
      refine ⟨g, args, ss, rfl, hf, fun ρ hs => ?_⟩
      have hb : ∀ i ∈ [4, 5, 12, 13, 14, 15, 16], hasCondUo (keepHint 97) subF [Variable.new 0, Variable.new 3]
          (.ident (Variable.new i)) (.mul (.ident (Variable.new i)) (.ident (Variable.new i))) = true := by decide +kernel
      have h1 : hasCondUo (keepHint 97) subF [Variable.new 0, Variable.new 3] (.ident (Variable.new 3))
          (.add (.mul (.value 1) (.ident (Variable.new 5))) (.mul (.value 2) (.ident (Variable.new 4)))) = true := by
        decide +kernel
      have h2 : hasCondUo (keepHint 97) subF [Variable.new 0, Variable.new 3]
          (.add (.value 64) (.sub (.ident (Variable.new 3)) (.add (.add (.value 0)
            (.mul (.value 2) (.ident (Variable.new 12)))) (.mul (.value 1) (.ident (Variable.new 13))))))
          (.add (.mul (.value 1) (.ident (Variable.new 16))) (.add (.mul (.value 2) (.ident (Variable.new 15)))
            (.mul (.value 4) (.ident (Variable.new 14))))) = true := by
        decide +kernel
      have e1 := (hasCondUo_spec h1 hg hf).2 ρ hs
      have e2 := (hasCondUo_spec h2 hg hf).2 ρ hs
      have e : ∀ i ∈ [4, 5, 12, 13, 14, 15, 16], ∃ c : Bool, ρ (Variable.new i) = if c then 1 else 0 := fun i hi =>
        bit_cases _ ((hasCondUo_spec (hb i hi) hg hf).2 ρ hs)
      obtain ⟨c4, k4⟩ := e 4 (by simp)
      obtain ⟨c5, k5⟩ := e 5 (by simp)
      obtain ⟨c12, k12⟩ := e 12 (by simp)
      obtain ⟨c13, k13⟩ := e 13 (by simp)
      obtain ⟨c14, k14⟩ := e 14 (by simp)
      obtain ⟨c15, k15⟩ := e 15 (by simp)
      obtain ⟨c16, k16⟩ := e 16 (by simp)
      simp only [FlatExpr.val, k4, k5] at e1
      simp only [FlatExpr.val, k12, k13, k14, k15, k16, e1] at e2
      clear * - e2
      revert c4 c5 c12 c13 c14 c15 c16
      decide +kernel

/-! ### Hints -/

/-- ```
def main(private u2 a, private u2 b) -> u2 {
    u2 x = a + b;
    field mut y = 0;
    asm { y <-- x as field; }
    return x;
}
``` -/
def hintF : ZFun (ZMod 97) Unit where
  params := [⟨0, .uint 2, true⟩, ⟨1, .uint 2, true⟩]
  returnCount := 1
  body := [.definition 2 (.uint (un 2 (.add (un 2 (.ident 0)) (un 2 (.ident 1))))), .assembly [.assignment [3] () [2]],
   .ret [.uint (un 2 (.ident 2))]]

/-- The function of the hint has the parameter `x` of type `u2`; the analysis registers it
(`uint_optimizer.rs:571-584`) in the table of the program. -/
def captureHint : Unit → Ids 97 → Option (Unit × Ids 97) := fun z ids => some (z, registerParams ids [⟨2, .uint 2, false⟩])

/-- **C22** fails for integers that a hint captures: the analysis takes the parameter of the hint function for the variable
of the same name, whose maximum, 6, is replaced by 3. The circuit cannot be satisfied with `a = b = 3`. -/
theorem C22_hint_capture_incomplete : Returns (Oracle.any 97 Unit) hintF [3, 3] [2] ∧
    ∃ g args ss, uintOptimize captureHint hintF = some g ∧ fromProgram g = some (args, ss, false) ∧
      ∀ ρ : Assignment (ZMod 97), args.map (fun a => ρ a.id) = [3, 3] → ¬ SatF ρ ss := by
  refine ⟨⟨[.uint 2 3, .uint 2 3], _, [.uint 2 2], by decide +kernel,
    .cons (.definition (v := .uint 2 2) (by decide +kernel)) (.cons (.assembly (.cons (.assignment (ins := [.uint 2 2])
      (outs := [0]) (by decide +kernel) trivial rfl) .nil)) (.cons (.ret (vs := [.uint 2 2]) (by decide +kernel)) .nil)), rfl,
    by decide +kernel⟩, ?_⟩
  have hc : ((uintOptimize captureHint hintF).bind fun g => (fromProgram g).map fun t => t.2.2) = some false := by
    decide +kernel
  cases hg : uintOptimize captureHint hintF with
  | none => rw [hg] at hc; cases hc
  | some g =>
    rw [hg, Option.bind_some] at hc
    cases hf : fromProgram g with
    | none => rw [hf] at hc; cases hc
    | some t =>
      obtain ⟨args, ss, c⟩ := t
      rw [hf] at hc
      cases hc
      refine ⟨g, args, ss, rfl, hf, fun ρ ha hs => ?_⟩
      have hb : ∀ i ∈ [8, 9], hasCondUo captureHint hintF [Variable.new 0, Variable.new 3]
          (.ident (Variable.new i)) (.mul (.ident (Variable.new i)) (.ident (Variable.new i))) = true := by decide +kernel
      have h1 : hasCondUo captureHint hintF [Variable.new 0, Variable.new 3] (.ident (Variable.new 6))
          (.add (.mul (.value 1) (.ident (Variable.new 9))) (.mul (.value 2) (.ident (Variable.new 8)))) = true := by
        decide +kernel
      have hdef : FlatStmt.definition (Variable.new 6) (.add (.ident (Variable.new 0)) (.ident (Variable.new 3))) ∈ ss := by
        have : (((uintOptimize captureHint hintF).bind fromProgram).elim false fun t => t.2.1.any fun s => match s with
            | .definition x e => decide (x = Variable.new 6) &&
                decide (e = .add (.ident (Variable.new 0)) (.ident (Variable.new 3)))
            | _ => false) = true := by decide +kernel
        rw [hg, Option.bind_some, hf] at this
        simp only [Option.elim, List.any_eq_true] at this
        obtain ⟨s, hs, hm⟩ := this
        split at hm
        · simp only [Bool.and_eq_true, decide_eq_true_eq] at hm
          obtain ⟨rfl, rfl⟩ := hm
          exact hs
        · cases hm
      have ha' : (args.map Parameter.id).map ρ = [3, 3] := by simpa [Function.comp_def] using ha
      rw [(hasCondUo_spec h1 hg hf).1] at ha'
      simp only [List.map_cons, List.map_nil, List.cons.injEq, and_true] at ha'
      have e1 := (hasCondUo_spec h1 hg hf).2 ρ hs
      have e2 : ρ (Variable.new 6) = ρ (Variable.new 0) + ρ (Variable.new 3) := by
        cases hs _ hdef with
        | definition h => exact h
      have e : ∀ i ∈ [8, 9], ∃ c : Bool, ρ (Variable.new i) = if c then 1 else 0 := fun i hi =>
        bit_cases _ ((hasCondUo_spec (hb i hi) hg hf).2 ρ hs)
      obtain ⟨c8, k8⟩ := e 8 (by simp)
      obtain ⟨c9, k9⟩ := e 9 (by simp)
      simp only [FlatExpr.val, k8, k9, e2, ha'.1, ha'.2] at e1
      clear * - e1
      revert c8 c9
      decide +kernel

end Zok
