import Verif.Lemmas.Interp
import Verif.Spec.Honest
import Verif.Spec.TestField

/-
C01-C03: the interpreter (`zokrates_interpreter/src/lib.rs`).
-/

namespace Zok
variable {p : ℕ} [Fact p.Prime] {Z : Type _} (sem : SolverSem (ZMod p) Z)

/-- **C01**. A witness returned by the interpreter (in either mode) gives `~one` the value 1, every argument its input,
and satisfies every constraint of the program — for every program whose directives assign fresh variables. -/
theorem C01_witness_satisfies (oor : Bool) (inputs : List (ZMod p)) (ss : List (Stmt (ZMod p) Z))
    (args : List Parameter) (solvers : List (Solver Z)) (w : Witness (ZMod p))
    (hargs : ArgsDistinct args) (hfresh : DirectivesFresh (initialVars args) ss)
    (h : execute sem oor inputs ss args solvers = .ok w) :
    SMap.get w Variable.one = some 1 ∧
    args.map (fun a => SMap.get w a.id) = inputs.map some ∧
    SatAll (assignmentOf w) ss := by
  unfold execute at h
  split at h
  · simp at h
  · rename_i hlen
    have hlen : args.length = inputs.length := Decidable.byContradiction hlen
    obtain ⟨_, _, hf⟩ := execStmts_ok sem oor solvers h (initWitness_sorted args inputs)
      (initWitness_keys args inputs hlen)
    obtain ⟨hkeep, hsat⟩ := hf hfresh
    refine ⟨?_, ?_, hsat⟩
    · have := initWitness_one args inputs hlen hargs
      rw [hkeep _ (by rw [this]; rfl), this]
    · have hF := initWitness_args args inputs hlen hargs
      clear h hf hsat hfresh hargs
      have : List.Forall₂ (fun (a : Parameter) v => SMap.get w a.id = some v) args inputs := by
        refine hF.imp ?_
        intro a v hav
        rw [hkeep _ (by rw [hav]; rfl), hav]
      clear hF hkeep
      revert this
      generalize inputs = is
      intro this
      clear * - this
      induction this with
      | nil => rfl
      | cons h1 _ ih => simp [h1, ih]

/-- **C02**. If the interpreter reports anything but a panic or a wrong input count, then no assignment that extends the
inputs and follows the solvers satisfies the constraints: rejections are genuine. -/
theorem C02_rejection_is_genuine (inputs : List (ZMod p)) (ss : List (Stmt (ZMod p) Z))
    (args : List Parameter) (solvers : List (Solver Z)) (e : ExecError)
    (h : execute sem false inputs ss args solvers = .error e) (hp : e ≠ .panic)
    (hc : args.length = inputs.length) :
    ¬ ∃ ρ, HonestAssignment sem solvers args inputs ss ρ ∧ SatAll ρ ss := by
  rintro ⟨ρ, hρ, hsat⟩
  unfold execute at h
  rw [if_neg (by simpa using hc)] at h
  refine hp ((execStmts_honest sem solvers (initWitness_agree args inputs ρ hρ.one hρ.args) ?_ hsat).2 e h)
  intro s hs
  cases s with
  | directive d => exact hρ.directives d hs
  | _ => trivial

/-- **C02** (converse). On a program whose statements only read variables bound earlier, the interpreter succeeds
whenever an honest satisfying assignment exists, and the witness it returns is the restriction of that assignment. -/
theorem C02_no_spurious_failure (inputs : List (ZMod p)) (ss : List (Stmt (ZMod p) Z))
    (args : List Parameter) (solvers : List (Solver Z)) (hscope : WellScoped (initialVars args) ss)
    (ρ : Assignment (ZMod p)) (hρ : HonestAssignment sem solvers args inputs ss ρ) (hsat : SatAll ρ ss) :
    ∃ w, execute sem false inputs ss args solvers = .ok w ∧ ∀ x v, SMap.get w x = some v → v = ρ x := by
  have hlen : args.length = inputs.length := by rw [← hρ.args]; simp
  have hh : ∀ s ∈ ss, HonestStmt sem solvers ρ s := by
    intro s hs
    cases s with
    | directive d => exact hρ.directives d hs
    | _ => trivial
  have ha := initWitness_agree args inputs ρ hρ.one hρ.args
  obtain ⟨w, hw⟩ := execStmts_complete sem solvers (initWitness_sorted args inputs)
    (initWitness_keys args inputs hlen) hscope ha hh hsat
  refine ⟨w, ?_, (execStmts_honest sem solvers ha hh hsat).1 w hw⟩
  unfold execute
  rw [if_neg (by simpa using hlen), hw]

/-- Solvers never report a wrong input count. -/
theorem executeSolver_ne_wrongInputCount (s : Solver Z) (xs : List (ZMod p)) (solvers : List (Solver Z)) (a b : Nat) :
    executeSolver sem s xs solvers ≠ .error (.wrongInputCount a b) := by
  unfold executeSolver
  dsimp only
  split
  · simp
  · split
    · simp
    · split
      · rename_i e he
        unfold solverBody at he
        split at he
        · split at he
          · simp at he
          · simp only [Except.error.injEq] at he; subst he; simp
        all_goals first
          | (simp at he; done)
          | (simp only [Except.error.injEq] at he; subst he; simp; done)
          | (dsimp only at he
             split at he
             · simp at he
             · simp only [Except.error.injEq] at he; subst he; simp)
      · split <;> simp

/-- **C03**. `WrongInputCount` is reported exactly when the number of inputs differs from the number of arguments, and
then carries both counts. -/
theorem C03_wrong_input_count (oor : Bool) (inputs : List (ZMod p)) (ss : List (Stmt (ZMod p) Z))
    (args : List Parameter) (solvers : List (Solver Z)) (a b : Nat) :
    execute sem oor inputs ss args solvers = .error (.wrongInputCount a b) ↔
      args.length ≠ inputs.length ∧ a = args.length ∧ b = inputs.length := by
  unfold execute
  split
  · rename_i h
    simp only [Except.error.injEq, ExecError.wrongInputCount.injEq]
    exact ⟨fun ⟨x, y⟩ => ⟨h, x.symm, y.symm⟩, fun ⟨_, x, y⟩ => ⟨x.symm, y.symm⟩⟩
  · rename_i h
    constructor
    · intro he
      exfalso
      have hstep : ∀ w s, execStmt sem oor solvers w s ≠ .error (.wrongInputCount a b) := by
        intro w s
        cases s with
        | block _ => simp [execStmt]
        | constraint c =>
          simp only [execStmt]
          split
          · split <;> simp
          · split
            · split <;> simp
            · simp
        | directive d =>
          simp only [execStmt]
          split
          · simp
          · split
            · rename_i e hx
              intro hc
              simp only [Except.error.injEq] at hc
              subst hc
              unfold runDirective at hx
              split at hx
              · split at hx
                · simp at hx
                · exact executeSolver_ne_wrongInputCount sem _ _ _ _ _ hx
              · exact executeSolver_ne_wrongInputCount sem _ _ _ _ _ hx
            · split <;> simp
        | log l => simp only [execStmt]; split <;> simp
      generalize initWitness args inputs = w at he
      induction ss generalizing w with
      | nil => simp [execStmts] at he
      | cons s ss ih =>
        simp only [execStmts] at he
        split at he
        · rename_i e hx
          simp only [Except.error.injEq] at he
          subst he
          exact hstep _ _ hx
        · exact ih _ he
    · rintro ⟨h', _⟩; exact absurd h' h

/-- **C03**. A successful execution binds exactly `~one`, the arguments and the variables the statements mention. -/
theorem C03_witness_domain (oor : Bool) (inputs : List (ZMod p)) (ss : List (Stmt (ZMod p) Z))
    (args : List Parameter) (solvers : List (Solver Z)) (w : Witness (ZMod p))
    (h : execute sem oor inputs ss args solvers = .ok w) (x : Variable) :
    x ∈ SMap.keys w ↔ x = Variable.one ∨ x ∈ args.map Parameter.id ∨ ∃ s ∈ ss, x ∈ s.vars := by
  unfold execute at h
  split at h
  · simp at h
  · rename_i hlen
    have hlen : args.length = inputs.length := Decidable.byContradiction hlen
    obtain ⟨_, hk, _⟩ := execStmts_ok sem oor solvers h (initWitness_sorted args inputs)
      (initWitness_keys args inputs hlen)
    rw [← SMap.get_isSome_iff, hk, initialVars, List.mem_cons, or_assoc]

/-! ### Non-vacuity and limits -/

end Zok

namespace Zok.InterpExample

def sem : SolverSem (ZMod 7) Unit := ⟨fun _ => (0, 0), fun _ _ => .error "no", fun _ _ => []⟩
def x : Variable := Variable.new 0
def y : Variable := Variable.new 1
def z : Variable := Variable.new 2
def out : Variable := Variable.pub 0
/-- `(y, z) = ConditionEq(x); y == x * z; ~out_0 = x * x` -/
def prog : List (Stmt (ZMod 7) Unit) :=
  [.directive ⟨[QuadComb.ofLin (LinComb.ofVar x)], [y, z], .conditionEq⟩,
   .constraint ⟨⟨LinComb.ofVar x, LinComb.ofVar z⟩, LinComb.ofVar y, none⟩,
   .constraint ⟨⟨LinComb.ofVar x, LinComb.ofVar x⟩, LinComb.ofVar out, none⟩]

/-- The hypotheses of C01 are met by a program with a directive, a check and a definition. -/
example : ArgsDistinct [⟨x, true⟩] ∧ DirectivesFresh (initialVars [⟨x, true⟩]) prog ∧
    ∃ w, execute sem false [3] prog [⟨x, true⟩] [] = .ok w ∧ SMap.get w out = some 2 := by
  refine ⟨by unfold ArgsDistinct; decide, ?_, [(-1, 2), (0, 1), (1, 3), (2, 1), (3, 5)], by decide +kernel, by decide⟩
  simp only [DirectivesFresh, prog, and_true]
  decide

/-- The hypotheses of C02 are met: the constraint `x * x = x` fails on 3. -/
example : execute sem false [3] [.constraint ⟨⟨LinComb.ofVar x, LinComb.ofVar x⟩, LinComb.ofVar x, some .equal⟩]
    [⟨x, true⟩] [] = .error (.unsatisfied (some .equal)) := by rfl

/-- The hypotheses of the converse of C02 are met by `prog`. -/
example : ∃ ρ, WellScoped (initialVars [⟨x, true⟩]) prog ∧ HonestAssignment sem [] [⟨x, true⟩] [3] prog ρ ∧
    SatAll ρ prog := by
  refine ⟨fun v => if v = 0 then 1 else if v = x then 3 else if v = y then 1 else if v = z then 5 else 2, ?_, ?_, ?_⟩
  · simp only [WellScoped, prog, and_true]
    exact ⟨by decide, ⟨by decide, Or.inl ⟨y, rfl⟩⟩, by decide, Or.inl ⟨out, rfl⟩⟩
  · refine ⟨by decide, by decide, ?_⟩
    intro d hd
    simp only [prog, List.mem_cons, Stmt.directive.injEq, reduceCtorEq, List.not_mem_nil, or_false] at hd
    subst hd
    decide +kernel
  · intro s hs
    simp only [prog, List.mem_cons, List.not_mem_nil, or_false] at hs
    rcases hs with rfl | rfl | rfl
    · exact Stmt.Sat.directive _
    · exact Stmt.Sat.constraint (by unfold Constraint.Sat; decide +kernel)
    · exact Stmt.Sat.constraint (by unfold Constraint.Sat; decide +kernel)

example : execute sem false [1, 2] prog [⟨x, true⟩] [] = .error (.wrongInputCount 1 2) := by rfl

/-- The freshness hypothesis of C01 is needed: the code lets a directive overwrite a variable a constraint has already
checked (`lib.rs:104-106` inserts unconditionally), and then the returned witness violates that constraint. -/
theorem C01_needs_fresh_directives : ∃ w, execute sem false [3]
      [.constraint ⟨QuadComb.ofLin (LinComb.ofVar x), LinComb.ofVar y, none⟩,
       .directive ⟨[QuadComb.ofLin (LinComb.ofVar x), QuadComb.ofLin (LinComb.ofVar x)], [y], .xor⟩]
      [⟨x, true⟩] [] = .ok w ∧
    ¬ Constraint.Sat (assignmentOf w) ⟨QuadComb.ofLin (LinComb.ofVar x), LinComb.ofVar y, none⟩ := by
  refine ⟨[(0, 1), (1, 3), (2, 2)], by rfl, ?_⟩
  unfold Constraint.Sat
  decide +kernel

end Zok.InterpExample
