import Verif.Model.Propagator

/-
`AssemblyTransformer`, `zokrates_analysis/src/assembly_transformer.rs`: a fold over ZIR (`zokrates_ast/src/zir/result_folder.rs`)
which brings the constraints of assembly blocks into the form `linear === quadratic`. Uses `LinQuadComb`,
`zokrates_ast/src/zir/lqc.rs`.
-/

namespace Zok
open Prop'
variable {p : ℕ} {Z : Type}

/-- `FieldElementExpression::is_linear`, `zir/mod.rs:737-749`. -/
def FExpr.isLinear {F : Type} : FExpr F → Bool
  | .value _ | .ident _ => true
  | .add l r | .sub l r => l.isLinear && r.isLinear
  | .mult (.value _) _ | .mult _ (.value _) => true
  | _ => false

/-- `struct LinQuadComb`, `lqc.rs:7-15`. -/
structure Lqc (p : ℕ) where
  constant : ZMod p
  linear : List (ZMod p × ZId)
  quadratic : List (ZMod p × ZId × ZId)

namespace Lqc

/-- `Add for LinQuadComb`, `lqc.rs:17-35`. -/
def add (a b : Lqc p) : Lqc p := ⟨a.constant + b.constant, a.linear ++ b.linear, a.quadratic ++ b.quadratic⟩

/-- `Sub for LinQuadComb`, `lqc.rs:37-61`. -/
def sub (a b : Lqc p) : Lqc p :=
  ⟨a.constant - b.constant, a.linear ++ b.linear.map (fun t => (0 - t.1, t.2)),
    a.quadratic ++ b.quadratic.map (fun t => (0 - t.1, t.2))⟩

/-- `try_mul`, `lqc.rs:64-103`. -/
def tryMul (a b : Lqc p) : Option (Lqc p) :=
  if !(a.quadratic.isEmpty || b.quadratic.isEmpty) then none
  else some ⟨a.constant * b.constant,
    a.linear.map (fun t => (t.1 * b.constant, t.2)) ++ b.linear.map (fun t => (t.1 * a.constant, t.2)),
    a.quadratic.map (fun t => (t.1 * b.constant, t.2)) ++ b.quadratic.map (fun t => (t.1 * a.constant, t.2)) ++
      a.linear.flatMap fun s => b.linear.map fun t => (s.1 * t.1, s.2, t.2)⟩

/-- `TryFrom<FieldElementExpression>`, `lqc.rs:106-137`. -/
def tryFrom : FExpr (ZMod p) → Option (Lqc p)
  | .value n => some ⟨n, [], []⟩
  | .ident x => some ⟨0, [(1, x)], []⟩
  | .add l r => do
    let a ← tryFrom l
    let b ← tryFrom r
    some (a.add b)
  | .sub l r => do
    let a ← tryFrom l
    let b ← tryFrom r
    some (a.sub b)
  | .mult l r => do
    let a ← tryFrom l
    let b ← tryFrom r
    a.tryMul b
  | _ => none

end Lqc

namespace Atr

/-- The sum of the linear terms, `assembly_transformer.rs:64-76`. -/
def linearSum (ts : List (ZMod p × ZId)) : FExpr (ZMod p) :=
  ts.foldl (fun acc t => .add acc (.mult (.value t.1) (.ident t.2))) (.value 0)

/-- The closure given to `scan`, `assembly_transformer.rs:86-104`: the new state, which is also what is yielded, or `none` when
the iteration stops. -/
def scanStep (state : Option (List ZId)) (t : ZMod p × ZId × ZId) : Option (List ZId) :=
  match state with
  | some [] => none
  | some factors => some (factors.filter fun x => x = t.2.1 || x = t.2.2)
  | none => some [t.2.1, t.2.2]

/-- `scan(None, ..).last()`: the last list that is yielded; `state` is the state, and `last` the last one yielded. -/
def scanLast : List (ZMod p × ZId × ZId) → Option (List ZId) → Option (List ZId)
  | [], state => state
  | t :: ts, state => match scanStep state t with
    | none => state
    | some fs => scanLast ts (some fs)

/-- `common_factor`, `assembly_transformer.rs:83-106`: `pop` takes the last element. -/
def commonFactor (ts : List (ZMod p × ZId × ZId)) : Option ZId :=
  (scanLast ts none).bind List.getLast?

/-- The other factor of a term, `assembly_transformer.rs:115-123`; `none` is the `unreachable!` panic. -/
def otherFactor (factor : ZId) (t : ZMod p × ZId × ZId) : Option ZId :=
  if factor = t.2.1 then some t.2.2
  else if factor = t.2.2 then some t.2.1
  else none

/-- The cofactor of the common factor, `assembly_transformer.rs:110-130`. -/
def cofactor (factor : ZId) : List (ZMod p × ZId × ZId) → FExpr (ZMod p) → Option (FExpr (ZMod p))
  | [], acc => some acc
  | t :: ts, acc => do
    let x ← otherFactor factor t
    cofactor factor ts (.add acc (.mult (.value (0 - t.1)) (.ident x)))

/-- The errors: `Error("Non-quadratic constraints are not allowed")`, or an error of the propagator; `panic` is `unreachable!`. -/
inductive AtrError where
  | nonQuadratic
  | propagation (e : PropError)
  | panic
deriving DecidableEq

/-- The quadratic side, `assembly_transformer.rs:81-152`. -/
def quadSide (qs : List (ZMod p × ZId × ZId)) : Except AtrError (FExpr (ZMod p)) :=
  if 1 < qs.length then
    match commonFactor qs with
    | some x => match cofactor x qs (.value 0) with
      | some e => .ok (.mult e (.ident x))
      | none => .error .panic
    | none => .error .nonQuadratic
  else match qs.getLast? with
    | some (c, x, y) => .ok (.mult (.mult (.value (0 - c)) (.ident x)) (.ident y))
    | none => .ok (.value 0)

/-- The form of a constraint, `assembly_transformer.rs:41-56`: whether it has the right form, and its sides in the right order. The
alternatives of the second pattern are tried one after the other. -/
def arrange (l r : FExpr (ZMod p)) : Bool × FExpr (ZMod p) × FExpr (ZMod p) :=
  match l, r with
  | .ident x, .ident y => (true, .ident x, .ident y)
  | .mult a b, r =>
    if r.isLinear then (a.isLinear && b.isLinear, r, .mult a b)
    else match r with
      | .mult c d =>
        if (FExpr.mult a b).isLinear then (c.isLinear && d.isLinear, .mult a b, .mult c d) else (false, .mult a b, .mult c d)
      | r => (false, .mult a b, r)
  | l, .mult c d => if l.isLinear then (c.isLinear && d.isLinear, l, .mult c d) else (false, l, .mult c d)
  | l, r => (false, l, r)

/-- `map_err(|e| Error(e.to_string()))` -/
def propErr {α : Type} : Except PropError α → Except AtrError α
  | .ok a => .ok a
  | .error e => .error (.propagation e)

variable [Fact p.Prime]

/-- `fold_assembly_constraint`, `assembly_transformer.rs:34-166`. Folding the two sides does not change them
(`result_folder.rs`). -/
def constraint (l r : FExpr (ZMod p)) : Except AtrError (FExpr (ZMod p) × FExpr (ZMod p)) :=
  match arrange l r with
  | (true, l, r) => .ok (l, r)
  | (false, l, r) =>
    match Lqc.tryFrom (.sub l r) with
    | none => .error .nonQuadratic
    | some q => do
      let lin := FExpr.add (.value q.constant) (linearSum q.linear)
      let quad ← quadSide q.quadratic
      let l' ← propErr (propF (fun _ => none) lin)
      let r' ← propErr (propF (fun _ => none) quad)
      .ok (l', r')

/-- `fold_assembly_statement`, `result_folder.rs:295-338`. The functions of hints contain no assembly blocks and are not
changed. -/
def asm : ZAsm (ZMod p) Z → Except AtrError (ZAsm (ZMod p) Z)
  | .assignment xs f args => .ok (.assignment xs f args)
  | .constraint l r info => do
    let (l, r) ← constraint l r
    .ok (.constraint l r info)

/-- `fold_assembly_block`, `result_folder.rs:447-462`. -/
def asms : List (ZAsm (ZMod p) Z) → Except AtrError (List (ZAsm (ZMod p) Z))
  | [] => .ok []
  | s :: ss => do
    let s ← asm s
    let ss ← asms ss
    .ok (s :: ss)

mutual
/-- `fold_statement`, `result_folder.rs:340-462`: only assembly blocks are changed. -/
def stmt : ZStmt (ZMod p) Z → Except AtrError (ZStmt (ZMod p) Z)
  | .ifElse c t e => do
    let t ← stmts t
    let e ← stmts e
    .ok (.ifElse c t e)
  | .assembly ss => do
    let ss ← asms ss
    .ok (.assembly ss)
  | .ret es => .ok (.ret es)
  | .definition x e => .ok (.definition x e)
  | .assertion e err => .ok (.assertion e err)
  | .multiDef xs embed g args => .ok (.multiDef xs embed g args)
  | .log es => .ok (.log es)
/-- `fold_statement` on each statement. -/
def stmts : List (ZStmt (ZMod p) Z) → Except AtrError (List (ZStmt (ZMod p) Z))
  | [] => .ok []
  | s :: ss => do
    let s ← stmt s
    let ss ← stmts ss
    .ok (s :: ss)
end

end Atr

/-- `AssemblyTransformer::transform`, `assembly_transformer.rs:25-29`. -/
def transformAssembly [Fact p.Prime] (f : ZFun (ZMod p) Z) : Except Atr.AtrError (ZFun (ZMod p) Z) := do
  let ss ← Atr.stmts f.body
  .ok { f with body := ss }

end Zok
