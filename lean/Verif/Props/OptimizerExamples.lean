import Verif.Props.Optimizer
import Verif.Spec.TestField
import Verif.Lemmas.StmtDecEq

/-
Non-vacuity of the hypotheses of C08–C13 and proved counterexamples that show why they are needed.
-/

namespace Zok.OptimizerExample

/-- The only user-defined solver is the identity `a <-- x`. -/
def sem : SolverSem (ZMod 97) Unit := ⟨fun _ => (1, 1), fun _ xs => .ok xs, fun _ _ => []⟩

def x : Variable := Variable.new 0
def a : Variable := Variable.new 1
def b : Variable := Variable.new 2
def y : Variable := Variable.new 3
def z : Variable := Variable.new 4
def out : Variable := Variable.pub 0

def v (u : Variable) : QuadComb (ZMod 97) := QuadComb.ofLin (LinComb.ofVar u)

def eqn (q : QuadComb (ZMod 97)) (l : LinComb (ZMod 97)) : Stmt (ZMod 97) Unit := .constraint ⟨q, l, none⟩

/-- `a = x + 3; (y, z) = ConditionEq(a); y == a * z; b = y + x; ~out_0 = b * a; b * a == ~out_0` -/
def prog : Prog (ZMod 97) Unit :=
  ⟨[⟨x, true⟩], 1,
    [eqn (QuadComb.ofLin [(x, 1), (0, 3)]) [(a, 1)],
     .directive ⟨[v a], [y, z], .conditionEq⟩,
     eqn ⟨[(a, 1)], [(z, 1)]⟩ [(y, 1)],
     eqn (QuadComb.ofLin [(y, 1), (x, 1)]) [(b, 1)],
     eqn ⟨[(b, 1)], [(a, 1)]⟩ [(out, 1)],
     eqn ⟨[(b, 1)], [(a, 1)]⟩ [(out, 1)]], []⟩

/-- What the optimiser returns: the two definitions are substituted, the repeated constraint is gone. -/
def optimised : List (Stmt (ZMod 97) Unit) :=
  [.directive ⟨[QuadComb.ofLin [(0, 3), (x, 1)]], [y, z], .conditionEq⟩,
   eqn ⟨[(0, 3), (x, 1)], [(z, 1)]⟩ [(y, 1)],
   eqn ⟨[(x, 1), (y, 1)], [(0, 3), (x, 1)]⟩ [(out, 1)]]

/-- A hash function that numbers the three leading statements of `optimised`. -/
def hash : Stmt (ZMod 97) Unit → ℕ
  | .constraint c => 1 + c.lin.length + c.quad.left.length * 10 + (c.quad.left.map (fun t => t.1.toNat)).sum * 100
  | _ => 0

theorem prog_single : SingleAssignment prog := by
  refine ⟨by unfold ArgsDistinct; decide, ?_, ?_, by decide⟩
  · simp only [WellScoped, prog, eqn, and_true]
    exact ⟨⟨by decide, .inl ⟨a, rfl⟩⟩, by decide, ⟨by decide, .inl ⟨y, rfl⟩⟩, ⟨by decide, .inl ⟨b, rfl⟩⟩,
      ⟨by decide, .inl ⟨out, rfl⟩⟩, ⟨by decide, .inl ⟨out, rfl⟩⟩⟩
  · simp only [DirectivesFresh, prog, eqn, and_true, true_and]
    decide

theorem prog_optimised : optimize sem hash prog = some { prog with statements := optimised } := by
  have h : (optimize sem hash prog).map Prog.statements = some optimised := by decide +kernel
  cases he : optimize sem hash prog with
  | none => rw [he] at h; cases h
  | some P' =>
    rw [he] at h
    obtain ⟨_, _, _, rfl⟩ := optimize_some sem he
    simp only [Option.map_some, Option.some.injEq] at h
    rw [h]

/-- The run of the redefinition optimiser on `prog`. -/
def redefRun : List (Stmt (ZMod 97) Unit) :=
  [.directive ⟨[QuadComb.ofLin [(0, 3), (x, 1)]], [y, z], .conditionEq⟩,
   eqn ⟨[(0, 3), (x, 1)], [(z, 1)]⟩ [(y, 1)],
   eqn ⟨[(x, 1), (y, 1)], [(0, 3), (x, 1)]⟩ [(out, 1)],
   eqn ⟨[(x, 1), (y, 1)], [(0, 3), (x, 1)]⟩ [(out, 1)]]

theorem prog_redef :
    (redefStmts sem false (redefInit prog.arguments prog.returnCount) prog.statements).map Prod.snd = some redefRun := by
  decide +kernel

/-- All hypotheses of C08, C11 and C13 hold for `prog`: it is in single-assignment form, the optimiser succeeds on it, the
hash separates its statements, directive outputs match and it runs. -/
theorem prog_hash : HashSeparatesRun sem hash prog := by
  intro st' o h
  have h2 := prog_redef
  rw [h] at h2
  simp only [Option.map_some, Option.some.injEq] at h2
  subst h2
  have : ∀ s ∈ Stmt.cleanL (dirStmts (Z := Unit) ⟨[], []⟩ (canonStmts (tautStmts redefRun))).2,
      ∀ t ∈ Stmt.cleanL (dirStmts (Z := Unit) ⟨[], []⟩ (canonStmts (tautStmts redefRun))).2,
        hash s = hash t → s.dropError = t.dropError := by decide +kernel
  exact this

example : SingleAssignment prog ∧ optimize sem hash prog = some { prog with statements := optimised } ∧
    HashSeparatesRun sem hash prog ∧ ExecutesTo sem prog [5] [48] := by
  refine ⟨prog_single, prog_optimised, prog_hash, ?_⟩
  refine ⟨[(-1, 48), (0, 1), (1, 5), (2, 8), (3, 6), (4, 1), (5, 85)], by decide +kernel, by decide +kernel⟩

/-- The theorem applies: the optimised program computes the same output. -/
example : ExecutesTo sem { prog with statements := optimised } [5] [48] := by
  refine ⟨[(-1, 48), (0, 1), (1, 5), (4, 1), (5, 85)], by decide +kernel, by decide +kernel⟩

theorem sat_eqn {ρ : Assignment (ZMod 97)} {q : QuadComb (ZMod 97)} {l : LinComb (ZMod 97)} :
    (eqn q l).Sat ρ ↔ q.val ρ = l.val ρ := Stmt.sat_constraint

/-- `asm { a <-- x; b <-- a; b === a; a === x; }` and then `return b`: the program copies `x` to its output. -/
def asmProg : Prog (ZMod 97) Unit :=
  ⟨[⟨x, true⟩], 1,
    [.block [.directive ⟨[v x], [a], .zir ()⟩, .directive ⟨[v a], [b], .zir ()⟩,
       eqn (v a) [(b, 1)], eqn (v x) [(a, 1)]],
     eqn (v b) [(out, 1)]], []⟩

theorem asmProg_optimised : (optimize sem hash asmProg).map Prog.statements = some [eqn (v a) [(out, 1)]] := by
  decide +kernel

/-- **C42** fails on the code as it is. Inside a block the redefinition optimiser replaces `b` by `a` and then `a` by `x`,
but does not apply the second replacement to the first: after the block, `b` becomes `a`, whose defining statements have been
removed. The optimised circuit accepts any output. -/
theorem C42_block_loses_constraint : ∃ P', optimize sem hash asmProg = some P' ∧
    Realises P' [1] [2] ∧ ¬ Realises asmProg [1] [2] := by
  have h := asmProg_optimised
  cases he : optimize sem hash asmProg with
  | none => rw [he] at h; cases h
  | some P' =>
    rw [he] at h
    obtain ⟨_, _, _, rfl⟩ := optimize_some sem he
    simp only [Option.map_some, Option.some.injEq] at h
    refine ⟨_, rfl, ?_, ?_⟩
    · rw [h]
      refine ⟨fun u => if u = 0 then 1 else if u = x then 1 else 2, by decide, by decide, by decide, ?_⟩
      intro s hs
      rw [List.mem_singleton] at hs
      subst hs
      rw [sat_eqn]
      decide +kernel
    · rintro ⟨ρ, h1, h2, h3, h4⟩
      have hb := h4 _ (List.mem_cons_self ..)
      have ho := h4 (eqn (v b) [(out, 1)]) (by simp [asmProg])
      have hb' := Stmt.sat_block.1 hb
      have e1 := hb' (eqn (v a) [(b, 1)]) (by simp)
      have e2 := hb' (eqn (v x) [(a, 1)]) (by simp)
      rw [sat_eqn] at e1 e2 ho
      simp only [asmProg, List.map_cons, List.map_nil, List.cons.injEq, and_true, Prog.returns, List.range_one] at h2 h3
      simp only [v, QuadComb.ofLin, QuadComb.val, LinComb.ofVar, LinComb.val, LinComb.one, LinComb.summand, List.map_cons,
        List.map_nil, List.sum_cons, List.sum_nil, add_zero, one_mul, h1] at e1 e2 ho
      have : (1 : ZMod 97) = 2 := by rw [← h2, ← h3, e2, e1]; exact ho
      exact absurd this (by decide)

/-- … and the interpreter panics on the optimised program although the original one runs. -/
theorem C42_block_breaks_execution : ExecutesTo sem { asmProg with statements := Stmt.cleanL asmProg.statements } [1] [1] ∧
    (optimize sem hash asmProg).map (fun P' => execute sem false [1] P'.statements P'.arguments P'.solvers) =
      some (.error .panic) := by
  refine ⟨⟨[(-1, 1), (0, 1), (1, 1), (2, 1), (3, 1)], by decide +kernel, by decide +kernel⟩, by decide +kernel⟩

/-- `asm { a <-- x; a === a + 1; }` cannot be satisfied, but its optimised version can: there is no check that the variable
being replaced does not occur in its replacement. -/
def occursProg : Prog (ZMod 97) Unit :=
  ⟨[⟨x, true⟩], 0, [.block [.directive ⟨[v x], [a], .zir ()⟩, eqn (QuadComb.ofLin [(a, 1), (0, 1)]) [(a, 1)]]], []⟩

theorem C42_no_occurs_check : ∃ P', optimize sem hash occursProg = some P' ∧
    Realises P' [1] [] ∧ ∀ ins outs, ¬ Realises occursProg ins outs := by
  have h : (optimize sem hash occursProg).map Prog.statements = some [] := by decide +kernel
  cases he : optimize sem hash occursProg with
  | none => rw [he] at h; cases h
  | some P' =>
    rw [he] at h
    obtain ⟨_, _, _, rfl⟩ := optimize_some sem he
    simp only [Option.map_some, Option.some.injEq] at h
    refine ⟨_, rfl, ⟨fun _ => 1, rfl, rfl, rfl, by rw [h]; simp [SatAll]⟩, ?_⟩
    rintro ins outs ⟨ρ, h1, -, -, h4⟩
    have hb := Stmt.sat_block.1 (h4 _ (List.mem_cons_self ..))
    have e := hb (eqn (QuadComb.ofLin [(a, 1), (0, 1)]) [(a, 1)]) (by simp)
    rw [sat_eqn] at e
    simp only [QuadComb.ofLin, QuadComb.val, LinComb.val, LinComb.one, LinComb.summand, List.map_cons, List.map_nil,
      List.sum_cons, List.sum_nil, add_zero, one_mul, h1] at e
    have h0 : ρ 0 = 1 := h1
    rw [h0] at e
    exact one_ne_zero (add_left_cancel (e.trans (add_zero _).symm))

/-- Why completeness speaks about honest assignments: a hint whose inputs are constant is evaluated at compile time, so the
other values a prover could have chosen for it are no longer possible. -/
def hintProg : Prog (ZMod 97) Unit :=
  ⟨[], 1, [.directive ⟨[QuadComb.ofLin [(0, 0)]], [y, z], .conditionEq⟩, eqn (v z) [(out, 1)]], []⟩

theorem C13_hint_fixed : SingleAssignment hintProg ∧ Realises hintProg [] [5] ∧
    ∃ P', optimize sem hash hintProg = some P' ∧ ¬ Realises P' [] [5] := by
  refine ⟨⟨by unfold ArgsDistinct; decide, ?_, ?_, by decide⟩, ?_, ?_⟩
  · simp only [WellScoped, hintProg, eqn, and_true]
    exact ⟨by decide, by decide, .inl ⟨out, rfl⟩⟩
  · simp only [DirectivesFresh, hintProg, eqn, and_true]
    decide
  · refine ⟨fun u => if u = 0 then 1 else 5, by decide, by decide, by decide, ?_⟩
    intro s hs
    simp only [hintProg, List.mem_cons, List.not_mem_nil, or_false] at hs
    rcases hs with rfl | rfl
    · exact Stmt.Sat.directive _
    · rw [sat_eqn]; decide +kernel
  · have h : (optimize sem hash hintProg).map Prog.statements =
        some [eqn (QuadComb.ofLin [(0, 1)]) [(out, 1)]] := by decide +kernel
    cases he : optimize sem hash hintProg with
    | none => rw [he] at h; cases h
    | some P' =>
      rw [he] at h
      obtain ⟨_, _, _, rfl⟩ := optimize_some sem he
      simp only [Option.map_some, Option.some.injEq] at h
      refine ⟨_, rfl, ?_⟩
      rw [h]
      rintro ⟨ρ, h1, h2, h3, h4⟩
      have e := h4 _ (List.mem_cons_self ..)
      rw [sat_eqn] at e
      simp only [hintProg, List.map_cons, List.map_nil, List.cons.injEq, and_true, Prog.returns, List.range_one] at h3
      simp only [QuadComb.ofLin, QuadComb.val, LinComb.val, LinComb.one, LinComb.summand, List.map_cons, List.map_nil,
        List.sum_cons, List.sum_nil, add_zero, one_mul, h1] at e
      have h0 : ρ 0 = 1 := h1
      rw [h0] at e
      have : (1 : ZMod 97) = 5 := by rw [← h3]; exact e
      exact absurd this (by decide)

/-- **C12** needs a hash that does not collide: with a colliding hash a constraint is lost. -/
theorem C12_collision_drops_constraint : ∃ (hash : Stmt (ZMod 97) Unit → ℕ) (ss : List (Stmt (ZMod 97) Unit))
    (ρ : Assignment (ZMod 97)), ρ Variable.one = 1 ∧ SatAll ρ (dupStmts hash [] ss).2 ∧ ¬ SatAll ρ ss := by
  refine ⟨fun _ => 0, [eqn (v x) [(x, 1)], eqn (v x) [(a, 1)]], fun u => if u = a then 2 else 1, by decide, ?_, ?_⟩
  · intro s hs
    simp only [dupStmts, dupStmt, dupLeaf, eqn, List.not_mem_nil, if_false, List.mem_singleton, if_true, List.append_nil] at hs
    subst hs
    exact sat_eqn.2 (by decide +kernel)
  · intro h
    have := sat_eqn.1 (h (eqn (v x) [(a, 1)]) (by simp))
    revert this
    decide +kernel

end Zok.OptimizerExample
