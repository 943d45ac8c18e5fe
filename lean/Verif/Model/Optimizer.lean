import Verif.Model.Interp
import Verif.Model.Flat

/-
The optimiser: `zokrates_core/src/optimizer/*.rs`. Each pass is a function from statement streams to statement streams;
`none` is a panic. `HashMap`/`HashSet` are association lists/lists; the code never iterates over them.
Spans are dropped (re-attaching spans, `ir/folder.rs:113-122`, does nothing here).
-/

namespace Zok
variable {F : Type _} [Field F] [DecidableEq F] {Z : Type _}

/-! ### `Canonicalizer`, `canonicalizer.rs` -/

/-- `Canonicalizer::fold_linear_combination` under the default folds of `ir/folder.rs` for leaves. -/
def canonLeaf : Stmt F Z → Stmt F Z
  | .block ss => .block ss
  | .constraint c => .constraint ⟨c.quad.reduce, c.lin.reduce, c.error⟩
  | .directive d => .directive ⟨d.inputs.map QuadComb.reduce, d.outputs, d.solver⟩
  | .log l => .log (l.map (fun e => e.map LinComb.reduce))

mutual
/-- `Canonicalizer` on a statement: `ir/folder.rs:fold_statement_cases`. -/
def canonStmt : Stmt F Z → Stmt F Z
  | .block ss => .block (canonStmts ss)
  | s => canonLeaf s
/-- `Canonicalizer` on a stream. -/
def canonStmts : List (Stmt F Z) → List (Stmt F Z)
  | [] => []
  | s :: ss => canonStmt s :: canonStmts ss
end

/-! ### `TautologyOptimizer`, `tautology.rs` -/

/-- `TautologyOptimizer::fold_constraint_statement`, `tautology.rs:17-30`; other leaves are unchanged by the default
folds. -/
def tautLeaf : Stmt F Z → List (Stmt F Z)
  | .constraint c => match c.quad.tryLinear with
    | some l => if l = c.lin then [] else [.constraint ⟨QuadComb.ofLin l, c.lin, c.error⟩]
    | none => [.constraint c]
  | s => [s]

mutual
/-- `TautologyOptimizer` on a statement. -/
def tautStmt : Stmt F Z → List (Stmt F Z)
  | .block ss => [.block (tautStmts ss)]
  | s => tautLeaf s
/-- `TautologyOptimizer` on a stream. -/
def tautStmts : List (Stmt F Z) → List (Stmt F Z)
  | [] => []
  | s :: ss => tautStmt s ++ tautStmts ss
end

/-! ### `DirectiveOptimizer`, `directive.rs` -/

/-- `struct DirectiveOptimizer`, `directive.rs:19-24`. -/
structure DirState (F Z : Type _) where
  calls : List ((Solver Z × List (QuadComb F)) × List Variable)
  subst : SMap Variable

/-- `fold_variable`, `directive.rs:27-29`. -/
def renVar (τ : SMap Variable) (v : Variable) : Variable := (SMap.get τ v).getD v

/-- Default `fold_linear_combination`, `ir/folder.rs:141-152`. -/
def renLin (τ : SMap Variable) (l : LinComb F) : LinComb F := l.map (fun t => (renVar τ t.1, t.2))

/-- Default `fold_quadratic_combination`, `ir/folder.rs:154-163`. -/
def renQuad (τ : SMap Variable) (q : QuadComb F) : QuadComb F := ⟨renLin τ q.left, renLin τ q.right⟩

/-- `substitution.extend(outputs.zip(previous))`, `directive.rs:56-57`. -/
def extendSubst (τ : SMap Variable) (xs ys : List Variable) : SMap Variable :=
  (xs.zip ys).foldl (fun τ xy => SMap.insert τ xy.1 xy.2) τ

/-- `HashMap::get` on `calls`. -/
def lookupCall [DecidableEq Z] (calls : List ((Solver Z × List (QuadComb F)) × List Variable))
    (k : Solver Z × List (QuadComb F)) : Option (List Variable) :=
  (calls.find? (fun e => e.1 = k)).map Prod.snd

/-- Leaves: `fold_directive_statement`, `directive.rs:31-62`, and the default folds. -/
def dirLeaf [DecidableEq Z] (st : DirState F Z) : Stmt F Z → DirState F Z × List (Stmt F Z)
  | .block ss => (st, [.block ss])
  | .constraint c => (st, [.constraint ⟨renQuad st.subst c.quad, renLin st.subst c.lin, c.error⟩])
  | .log l => (st, [.log (l.map (fun e => e.map (renLin st.subst)))])
  | .directive d =>
    let inputs := d.inputs.map (renQuad st.subst)
    let outputs := d.outputs.map (renVar st.subst)
    match lookupCall st.calls (d.solver, inputs) with
    | none => ({ st with calls := ((d.solver, inputs), outputs) :: st.calls }, [.directive ⟨inputs, outputs, d.solver⟩])
    | some prev => ({ st with subst := extendSubst st.subst outputs prev }, [])

mutual
/-- `DirectiveOptimizer` on a statement. -/
def dirStmt [DecidableEq Z] (st : DirState F Z) : Stmt F Z → DirState F Z × List (Stmt F Z)
  | .block ss => ((dirStmts st ss).1, [.block (dirStmts st ss).2])
  | s => dirLeaf st s
/-- `DirectiveOptimizer` on a stream. -/
def dirStmts [DecidableEq Z] (st : DirState F Z) : List (Stmt F Z) → DirState F Z × List (Stmt F Z)
  | [] => (st, [])
  | s :: ss => ((dirStmts (dirStmt st s).1 ss).1, (dirStmt st s).2 ++ (dirStmts (dirStmt st s).1 ss).2)
end

/-! ### `DuplicateOptimizer`, `duplicate.rs` -/

/-- Leaves: `fold_statement`, `duplicate.rs:50-60`. The hash function is a parameter. -/
def dupLeaf (hash : Stmt F Z → ℕ) (seen : List ℕ) (s : Stmt F Z) : List ℕ × List (Stmt F Z) :=
  (hash s :: seen, if hash s ∈ seen then [] else [s])

mutual
/-- `DuplicateOptimizer::fold_statement`, `duplicate.rs:42-62`: blocks are inlined. -/
def dupStmt (hash : Stmt F Z → ℕ) (seen : List ℕ) : Stmt F Z → List ℕ × List (Stmt F Z)
  | .block ss => dupStmts hash seen ss
  | s => dupLeaf hash seen s
/-- `DuplicateOptimizer` on a stream. -/
def dupStmts (hash : Stmt F Z → ℕ) (seen : List ℕ) : List (Stmt F Z) → List ℕ × List (Stmt F Z)
  | [] => (seen, [])
  | s :: ss => ((dupStmts hash (dupStmt hash seen s).1 ss).1,
      (dupStmt hash seen s).2 ++ (dupStmts hash (dupStmt hash seen s).1 ss).2)
end

/-! ### `RedefinitionOptimizer`, `redefinition.rs` -/

/-- `struct RedefinitionOptimizer`, `redefinition.rs:48-54`. -/
structure RedefState (F : Type _) where
  subst : SMap (LinComb F)
  ignore : List Variable

/-- `RedefinitionOptimizer::init`, `redefinition.rs:57-68`. -/
def redefInit (args : List Parameter) (returnCount : ℕ) : RedefState F :=
  ⟨[], Variable.one :: args.map Parameter.id ++ (List.range returnCount).map Variable.pub⟩

/-- One summand of `fold_linear_combination`, `redefinition.rs:242-247`. -/
def substTerm (σ : SMap (LinComb F)) (t : Variable × F) : LinComb F :=
  match SMap.get σ t.1 with
  | some l => LinComb.smul l t.2
  | none => LinComb.summand t.2 t.1

/-- `fold_linear_combination`, `redefinition.rs:230-253`. -/
def substLin (σ : SMap (LinComb F)) (l : LinComb F) : LinComb F :=
  if l.any (fun t => (SMap.get σ t.1).isSome) then
    l.foldl (fun acc t => LinComb.add acc (substTerm σ t)) LinComb.zero
  else l

/-- Default `fold_quadratic_combination` with the linear fold above. -/
def substQuad (σ : SMap (LinComb F)) (q : QuadComb F) : QuadComb F := ⟨substLin σ q.left, substLin σ q.right⟩

/-- The classification of a directive input, `redefinition.rs:141-155`: a constant or a (reduced) combination. -/
def classifyInput (q : QuadComb F) : F ⊕ QuadComb F :=
  match q.reduce.tryLinear with
  | some l => match l.tryConstant with
    | some k => .inl k
    | none => .inr (QuadComb.ofLin l)
  | none => .inr q.reduce

/-- `i.map(|v| LinComb::summand(v, one).into()).unwrap_or_else(|q| q)`, `redefinition.rs:175-181`. -/
def rebuildInput : F ⊕ QuadComb F → QuadComb F
  | .inl k => QuadComb.ofLin (LinComb.summand k Variable.one)
  | .inr q => q

/-- `inputs.iter().all(is_ok)` and unwrapping, `redefinition.rs:157-160`. -/
def allConst (is : List (F ⊕ QuadComb F)) : Option (List F) :=
  is.mapM (fun i => match i with | .inl k => some k | .inr _ => none)

/-- Inserting the solver's results, `redefinition.rs:166-169`. -/
def insertConsts (σ : SMap (LinComb F)) (outputs : List Variable) (values : List F) : SMap (LinComb F) :=
  (outputs.zip values).foldl (fun σ ov => SMap.insert σ ov.1 (LinComb.intoCanonical (LinComb.ofConst ov.2))) σ

/-- The constraint case of `fold_statement_cases`, `redefinition.rs:75-126`. -/
def redefConstraint (st : RedefState F) (c : Constraint F) : Option (RedefState F × List (Stmt F Z)) :=
  let quad := substQuad st.subst c.quad
  let lin := substLin st.subst c.lin
  match lin with
  | [] => some (st, [.constraint ⟨quad, lin, c.error⟩])
  | (first, _) :: _ =>
    if first ∈ st.ignore ∨ (SMap.get st.subst first).isSome then some (st, [.constraint ⟨quad, lin, c.error⟩])
    else match LinComb.trySummand lin with
      | some (v, k) => match quad.tryLinear with
        | some l => match LinComb.div l k with
          | some l => some ({ st with subst := SMap.insert st.subst v (LinComb.intoCanonical l) }, [])
          | none => none
        | none => some ({ st with ignore := v :: st.ignore }, [.constraint ⟨quad, LinComb.summand k v, c.error⟩])
      | none => some (st, [.constraint ⟨quad, lin, c.error⟩])

variable {p : ℕ} [Fact p.Prime]

/-- The directive case of `fold_statement_cases`, `redefinition.rs:127-189`. -/
def redefDirective (sem : SolverSem (ZMod p) Z) (aggressive : Bool) (st : RedefState (ZMod p)) (d : Directive (ZMod p) Z) :
    Option (RedefState (ZMod p) × List (Stmt (ZMod p) Z)) :=
  let inputs := d.inputs.map (fun q => classifyInput (substQuad st.subst q))
  match allConst inputs with
  | some ks => match executeSolver sem d.solver ks [] with
    | .ok outs =>
      if outs.length = d.outputs.length then some ({ st with subst := insertConsts st.subst d.outputs outs }, [])
      else none
    | .error _ => none
  | none => some (if aggressive then st else { st with ignore := d.outputs ++ st.ignore },
      [.directive ⟨inputs.map rebuildInput, d.outputs, d.solver⟩])

/-- The cases of `RedefinitionOptimizer::fold_statement_cases` on statements that are not blocks,
`redefinition.rs:70-192`. -/
def redefLeaf (sem : SolverSem (ZMod p) Z) (aggressive : Bool) (st : RedefState (ZMod p)) :
    Stmt (ZMod p) Z → Option (RedefState (ZMod p) × List (Stmt (ZMod p) Z))
  | .block ss => some (st, [.block ss])
  | .constraint c => redefConstraint st c
  | .directive d => redefDirective sem aggressive st d
  | .log l => some (st, [.log (l.map (fun e => e.map (substLin st.subst)))])

/-- The clean-up filter of a block, `redefinition.rs:213-221`; `none` is the out-of-bounds access to the first output of
a directive without outputs. -/
def redefCleanup {F : Type _} (σ : SMap (LinComb F)) : List (Stmt F Z) → Option (List (Stmt F Z))
  | [] => some []
  | .directive d :: ss =>
    match d.outputs with
    | [] => none
    | [o] => if (SMap.get σ o).isSome then redefCleanup σ ss else (redefCleanup σ ss).map (.directive d :: ·)
    | _ :: _ :: _ => (redefCleanup σ ss).map (.directive d :: ·)
  | s :: ss => (redefCleanup σ ss).map (s :: ·)

mutual
/-- `RedefinitionOptimizer` on a statement. `inner = false`: the trait method, `redefinition.rs:196-228` (a block is
processed aggressively, then cleaned up). `inner = true`: a statement inside a block, i.e. the inherent method called with
`aggressive = true`; a block nested in a block then goes through the default fold, `redefinition.rs:190`, which
processes its statements with the trait method and does not clean up. -/
def redefStmt (sem : SolverSem (ZMod p) Z) (inner : Bool) (st : RedefState (ZMod p)) :
    Stmt (ZMod p) Z → Option (RedefState (ZMod p) × List (Stmt (ZMod p) Z))
  | .block ss => match redefStmts sem (!inner) st ss with
    | none => none
    | some (st', out) =>
      if inner then some (st', [.block out])
      else match redefCleanup st'.subst out with
        | none => none
        | some out => some (st', [.block out])
  | s => redefLeaf sem inner st s
/-- `RedefinitionOptimizer` on a stream. -/
def redefStmts (sem : SolverSem (ZMod p) Z) (inner : Bool) (st : RedefState (ZMod p)) :
    List (Stmt (ZMod p) Z) → Option (RedefState (ZMod p) × List (Stmt (ZMod p) Z))
  | [] => some (st, [])
  | s :: ss => match redefStmt sem inner st s with
    | none => none
    | some (st1, o1) => match redefStmts sem inner st1 ss with
      | none => none
      | some (st2, o2) => some (st2, o1 ++ o2)
end

/-- `optimize`, `optimizer/mod.rs:22-63`: the passes in order. (The code fuses them per statement; every pass only depends
on the statements before it, so the streams are the same.) -/
def optimize [DecidableEq Z] (sem : SolverSem (ZMod p) Z) (hash : Stmt (ZMod p) Z → ℕ) (P : Prog (ZMod p) Z) :
    Option (Prog (ZMod p) Z) :=
  match redefStmts sem false (redefInit P.arguments P.returnCount) P.statements with
  | none => none
  | some (_, ss) =>
    let ss := tautStmts ss
    let ss := canonStmts ss
    let ss := (dirStmts ⟨[], []⟩ ss).2
    let ss := (dupStmts hash [] ss).2
    some { P with statements := ss }

end Zok
