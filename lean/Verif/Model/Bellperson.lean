import Verif.Model.Export

/-
The circuit of the backend bellperson: `zokrates_bellperson/src/lib.rs`. Unlike in the other backends, all outputs are allocated
before the constraints. `none` is a panic.
-/

namespace Zok.Export

variable {F Z : Type _}

/-- `symbols.entry(*k).or_insert_with(..)`, `lib.rs:52-67`: an output without a symbol is `unreachable!()`. -/
def symbolB (s : Synth F) (v : Variable) : Option (Wire × Synth F) := match SMap.get s.symbols v with
  | some w => some (w, s)
  | none =>
    if v.isOutput then none else
      let r := allocAux s v
      some (r.1, { r.2 with symbols := SMap.insert r.2.symbols v r.1 })

/-- `bellperson_combination`, `lib.rs:38-71`. -/
def combinationB : LinComb F → Synth F → Option (List (F × Wire) × Synth F)
  | [], s => some ([], s)
  | (k, v) :: l, s => match symbolB s k with
    | none => none
    | some (w, s) => match combinationB l s with
      | none => none
      | some (ts, s) => some ((v, w) :: ts, s)

/-- One statement of `synthesize_input_to_output`, `lib.rs:140-151`. -/
def synthStmtB (s : Synth F) : Stmt F Z → Option (Synth F)
  | .constraint c => match combinationB c.quad.left s with
    | none => none
    | some (a, s) => match combinationB c.quad.right s with
      | none => none
      | some (b, s) => match combinationB c.lin s with
        | none => none
        | some (l, s) => some { s with constraints := s.constraints ++ [(a, b, l)] }
  | _ => some s

/-- `synthesize_input_to_output`, `lib.rs:133-155`. -/
def synthStmtsB (s : Synth F) : List (Stmt F Z) → Option (Synth F)
  | [] => some s
  | st :: ss => match synthStmtB s st with
    | none => none
    | some s => synthStmtsB s ss

/-- The allocation of an output, `lib.rs:112-126`. -/
def synthReturn (s : Synth F) (v : Variable) : Synth F :=
  let r := allocInput s v
  { r.2 with symbols := SMap.insert r.2.symbols v r.1 }

/-- `Computation::synthesize`, `lib.rs:76-129`; the allocation of the arguments (`lib.rs:86-110`) is that of the other
backends. -/
def synthesizeB (p : Prog F Z) (w : SMap F) : Option (Synth F) :=
  let s : Synth F := ⟨SMap.insert [] Variable.one .one, w, [], [], []⟩
  synthStmtsB (p.returns.foldl synthReturn (p.arguments.foldl synthArg s)) p.statements

end Zok.Export
