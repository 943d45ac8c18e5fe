import Verif.Model.TypedPropagator
import Mathlib.Data.Nat.Pairing

/-
`zokrates_analysis/src/reducer/{mod,inline,shallow_ssa}.rs`: the reducer. It turns the main function into one without loops and without calls of other functions than
the embedded ones, in static single assignment form: loops are unrolled, calls are inlined, and constants are propagated on the way, so that loop bounds and generic
arguments become literals.

Simplifications. The types of expressions are concrete, and the bounds of slices and the counts of repetitions literals, in every instance of a function: how the
sizes in types are computed (by the same propagation) is not modelled, and neither is the inference of generic parameters from the types of arguments (`specialize`): the
program gives the instance of a function for each list of explicit generic arguments, types of arguments and type of the result. Calls are the right side of a definition,
and their arguments contain no calls. Constants (`constants_writer.rs`) have been replaced by their values, and there are no assembly statements and blocks.
Recursion, which is unbounded in the code, is limited by a number of steps here: running out of it is an error.
-/

namespace Zok.Typed
open Abi
variable {F : Type} {p : ℕ}

/-! ### Programs -/

/-- `TypedStatement` in front of the reducer, `typed/mod.rs`. -/
inductive SStmt (F : Type) where
  /-- a definition, an assertion, a log or a return statement, without calls -/
  | simple (s : TStmt F)
  /-- a definition whose right side is the call of the function `key` with explicit generic arguments, whose result has type `t` -/
  | call (a : TAssignee F) (t : CType) (key : ℕ) (generics args : List (TExpr F))
  /-- `ForStatement` -/
  | for_ (x : TId) (lo hi : TExpr F) (body : List (SStmt F))

/-- The instance of a function for a call, `InlineValue`, `inline.rs:72-79`: the values of its generic parameters (`assignment`), the names of its arguments, its
statements and the value it returns. -/
structure Inst (F : Type) where
  generics : List (TId × ℕ)
  params : List TId
  body : List (SStmt F)
  ret : TExpr F

/-- `TypedFunctionSymbol`: a function of the program, or an embedded one (`Flat`). -/
inductive Callee (F : Type) where
  | here (i : Inst F)
  | flat (f : Embed) (generics : List ℕ)

/-- The functions of a program: the callee for a name, the values of the explicit generic arguments, the types of the arguments, and the type of the result. -/
abbrev Program (F : Type) := ℕ → List ℕ → List CType → CType → Option (Callee F)

/-- The main function. -/
structure SFun (F : Type) where
  params : List TParam
  body : List (SStmt F)
  ret : CType

/-- `Error`, `mod.rs:59-68`. -/
inductive RErr where
  | propagation (e : PErr)
  | nonConstant
  | incompatible
  | loopTooLarge
  /-- panic -/
  | malformed
  /-- not in the code: the number of steps is exhausted -/
  | steps
deriving DecidableEq

/-- `Error::from`, `mod.rs:87-91`. -/
def liftP {α : Type} : Except PErr α → Except RErr α
  | .ok a => .ok a
  | .error e => .error (.propagation e)

/-! ### Identifiers -/

/-- `Identifier`, `typed/identifier.rs`: the version `v` of the name `n` in the call frame `fr`. The names are `CoreIdentifier::Call` (0) and those of the source: an
identifier of the source (frame 0, version 0) is identified with its name, and has the number `x + 1` here. -/
def nid (fr n v : ℕ) : TId := Nat.pair fr (Nat.pair n v)
/-- The call frame of an identifier. -/
def frameOf (x : TId) : ℕ := (Nat.unpair x).1
/-- The name of an identifier. -/
def nameOf (x : TId) : ℕ := (Nat.unpair (Nat.unpair x).2).1

/-- `Versions`, `shallow_ssa.rs:36-38`, of the current call frame. -/
abbrev Vers := ℕ → Option ℕ

/-- The current version of a name, `shallow_ssa.rs:168-178`: 0 if it is not declared. -/
def Vers.cur (V : Vers) (n : ℕ) : ℕ := (V n).getD 0
/-- `issue_next_identifier`, `shallow_ssa.rs:58-69`. -/
def Vers.issue (V : Vers) (n : ℕ) : Vers := fun m => if m = n then some (match V n with | some v => v + 1 | none => 0) else V m

mutual
/-- Replace the identifiers of an expression. -/
def TExpr.ren (r : TId → TId) : TExpr F → TExpr F
  | .fval n => .fval n
  | .bval b => .bval b
  | .uval w n => .uval w n
  | .ident x t => .ident (r x) t
  | .fbin op a b => .fbin op (a.ren r) (b.ren r)
  | .fubin op a b => .fubin op (a.ren r) (b.ren r)
  | .fneg e => .fneg (e.ren r)
  | .fpos e => .fpos (e.ren r)
  | .ubin w op a b => .ubin w op (a.ren r) (b.ren r)
  | .unot w e => .unot w (e.ren r)
  | .uneg w e => .uneg w (e.ren r)
  | .upos w e => .upos w (e.ren r)
  | .bbin op a b => .bbin op (a.ren r) (b.ren r)
  | .bnot e => .bnot (e.ren r)
  | .fcmp op a b => .fcmp op (a.ren r) (b.ren r)
  | .ucmp op a b => .ucmp op (a.ren r) (b.ren r)
  | .eq a b => .eq (a.ren r) (b.ren r)
  | .cond t c a b => .cond t (c.ren r) (a.ren r) (b.ren r)
  | .select t a i => .select t (a.ren r) (i.ren r)
  | .member t s m => .member t (s.ren r) m
  | .element t e i => .element t (e.ren r) i
  | .array t n es => .array t n (renS r es)
  | .slice t n a lo hi => .slice t n (a.ren r) (lo.ren r) (hi.ren r)
  | .repeat_ t n e c => .repeat_ t n (e.ren r) (c.ren r)
  | .struct ms es => .struct ms (renL r es)
  | .tuple ts es => .tuple ts (renL r es)
  | .removed t => .removed t
/-- For a list of expressions. -/
def renL (r : TId → TId) : List (TExpr F) → List (TExpr F)
  | [] => []
  | e :: es => e.ren r :: renL r es
/-- For the elements of an array. -/
def renS (r : TId → TId) : List (TSpread F) → List (TSpread F)
  | [] => []
  | .expr e :: es => .expr (e.ren r) :: renS r es
  | .spread e :: es => .spread (e.ren r) :: renS r es
end

/-- `fold_name`, `shallow_ssa.rs:166-180`, of an identifier of the source. -/
def ssaName (V : Vers) (fr : ℕ) (x : TId) : TId := nid fr (x + 1) (V.cur (x + 1))
/-- `fold_name` of an identifier which has been replaced before: the frame becomes the current one and the version the latest one, again. -/
def ssaAgain (V : Vers) (fr : ℕ) (x : TId) : TId := nid fr (nameOf x) (V.cur (nameOf x))

/-- `fold_assignee_no_ssa_increase`, `shallow_ssa.rs:99-119`. -/
def TAssignee.ren (r : TId → TId) : TAssignee F → TAssignee F
  | .ident x t => .ident (r x) t
  | .select a i => .select (a.ren r) (i.ren r)
  | .member a m => .member (a.ren r) m
  | .element a i => .element (a.ren r) i

/-- `fold_assignee`, `shallow_ssa.rs:148-158`: a new version for assignments to whole variables. -/
def ssaAssignee (V : Vers) (fr : ℕ) : TAssignee F → Vers × TAssignee F
  | .ident x t => (V.issue (x + 1), .ident (nid fr (x + 1) ((V.issue (x + 1)).cur (x + 1))) t)
  | a => (V, a.ren (ssaName V fr))

/-- `fold_statement` of `ShallowTransformer`: the right side of a definition comes first, `folder.rs:716-724`. -/
def ssaStmt (V : Vers) (fr : ℕ) : TStmt F → Vers × TStmt F
  | .ret e => (V, .ret (e.ren (ssaName V fr)))
  | .definition a e => ((ssaAssignee V fr a).1, .definition (ssaAssignee V fr a).2 (e.ren (ssaName V fr)))
  | .embed a f g args => ((ssaAssignee V fr a).1, .embed (ssaAssignee V fr a).2 f g (renL (ssaName V fr) args))
  | .assertion e err => (V, .assertion (e.ren (ssaName V fr)) err)
  | .log es => (V, .log (renL (ssaName V fr) es))

/-! ### Slices -/

/-- Bounds of slices which are literals, `mod.rs:390-398`. -/
def bothLit (lo hi : TExpr F) : Bool := lo.litU.isSome && hi.litU.isSome

mutual
/-- The fold of an expression without calls by the reducer: only slices change, `mod.rs:370-400`. `rec` is what happens to their parts. -/
def sliceT (rec : TExpr F → Except RErr (TExpr F)) : TExpr F → Except RErr (TExpr F)
  | .fval n => .ok (.fval n)
  | .bval b => .ok (.bval b)
  | .uval w n => .ok (.uval w n)
  | .ident x t => .ok (.ident x t)
  | .fbin op l r => do
    let l' ← sliceT rec l
    let r' ← sliceT rec r
    .ok (.fbin op l' r')
  | .fubin op l r => do
    let l' ← sliceT rec l
    let r' ← sliceT rec r
    .ok (.fubin op l' r')
  | .fneg e => do
    let e' ← sliceT rec e
    .ok (.fneg e')
  | .fpos e => do
    let e' ← sliceT rec e
    .ok (.fpos e')
  | .ubin w op l r => do
    let l' ← sliceT rec l
    let r' ← sliceT rec r
    .ok (.ubin w op l' r')
  | .unot w e => do
    let e' ← sliceT rec e
    .ok (.unot w e')
  | .uneg w e => do
    let e' ← sliceT rec e
    .ok (.uneg w e')
  | .upos w e => do
    let e' ← sliceT rec e
    .ok (.upos w e')
  | .bbin op l r => do
    let l' ← sliceT rec l
    let r' ← sliceT rec r
    .ok (.bbin op l' r')
  | .bnot e => do
    let e' ← sliceT rec e
    .ok (.bnot e')
  | .fcmp op l r => do
    let l' ← sliceT rec l
    let r' ← sliceT rec r
    .ok (.fcmp op l' r')
  | .ucmp op l r => do
    let l' ← sliceT rec l
    let r' ← sliceT rec r
    .ok (.ucmp op l' r')
  | .eq l r => do
    let l' ← sliceT rec l
    let r' ← sliceT rec r
    .ok (.eq l' r')
  | .cond t c a b => do
    let c' ← sliceT rec c
    let a' ← sliceT rec a
    let b' ← sliceT rec b
    .ok (.cond t c' a' b')
  | .select t a i => do
    let a' ← sliceT rec a
    let i' ← sliceT rec i
    .ok (.select t a' i')
  | .member t s m => do
    let s' ← sliceT rec s
    .ok (.member t s' m)
  | .element t e i => do
    let e' ← sliceT rec e
    .ok (.element t e' i)
  | .array t n es => do
    let es' ← sliceS rec es
    .ok (.array t n es')
  | .slice t n a lo hi => do
    let a' ← rec a
    let lo' ← rec lo
    let hi' ← rec hi
    if bothLit lo' hi' then .ok (.slice t n a' lo' hi') else .error .nonConstant
  | .repeat_ t n e c => do
    let e' ← sliceT rec e
    let c' ← sliceT rec c
    .ok (.repeat_ t n e' c')
  | .struct ms es => do
    let es' ← sliceL rec es
    .ok (.struct ms es')
  | .tuple ts es => do
    let es' ← sliceL rec es
    .ok (.tuple ts es')
  | .removed t => .ok (.removed t)
/-- For a list of expressions. -/
def sliceL (rec : TExpr F → Except RErr (TExpr F)) : List (TExpr F) → Except RErr (List (TExpr F))
  | [] => .ok []
  | e :: es => do
    let e' ← sliceT rec e
    let es' ← sliceL rec es
    .ok (e' :: es')
/-- For the elements of an array. -/
def sliceS (rec : TExpr F → Except RErr (TExpr F)) : List (TSpread F) → Except RErr (List (TSpread F))
  | [] => .ok []
  | .expr e :: es => do
    let e' ← sliceT rec e
    let es' ← sliceS rec es
    .ok (.expr e' :: es')
  | .spread e :: es => do
    let e' ← sliceT rec e
    let es' ← sliceS rec es
    .ok (.spread e' :: es')
end

/-- The fold of a part of a slice, `mod.rs:374-388`: static single assignment form (again), propagation, the reducer, and propagation. -/
def partF (V : Vers) (fr : ℕ) (C : Consts (ZMod p)) : ℕ → TExpr (ZMod p) → Except RErr (TExpr (ZMod p))
  | 0, _ => .error .steps
  | k + 1, e => do
    let e1 ← liftP (propT C (e.ren (ssaAgain V fr)))
    let e2 ← sliceT (partF V fr C k) e1
    liftP (propT C e2)

/-- For the indices of an assignee, `result_folder.rs:960-976`. -/
def sliceA (rec : TExpr F → Except RErr (TExpr F)) : TAssignee F → Except RErr (TAssignee F)
  | .ident x t => .ok (.ident x t)
  | .select a i => do
    let a' ← sliceA rec a
    let i' ← sliceT rec i
    .ok (.select a' i')
  | .member a m => do
    let a' ← sliceA rec a
    .ok (.member a' m)
  | .element a i => do
    let a' ← sliceA rec a
    .ok (.element a' i)

/-- `fold_statement(self, s)`, `result_folder.rs:809-876`, of a statement without calls. -/
def sliceStmt (rec : TExpr F → Except RErr (TExpr F)) : TStmt F → Except RErr (TStmt F)
  | .ret e => do
    let e' ← sliceT rec e
    .ok (.ret e')
  | .definition a e => do
    let e' ← sliceT rec e
    let a' ← sliceA rec a
    .ok (.definition a' e')
  | .embed a f g args => do
    let args' ← sliceL rec args
    let a' ← sliceA rec a
    .ok (.embed a' f g args')
  | .assertion e err => do
    let e' ← sliceT rec e
    .ok (.assertion e' err)
  | .log es => do
    let es' ← sliceL rec es
    .ok (.log es')

/-- For all statements. -/
def sliceStmts (rec : TExpr F → Except RErr (TExpr F)) : List (TStmt F) → Except RErr (List (TStmt F))
  | [] => .ok []
  | s :: ss => do
    let s' ← sliceStmt rec s
    let ss' ← sliceStmts rec ss
    .ok (s' :: ss')

/-! ### Statements -/

/-- The propagation of a list of statements, which also gives the constants behind it. -/
def propMany (C : Consts (ZMod p)) : List (TStmt (ZMod p)) → Except RErr (Consts (ZMod p) × List (TStmt (ZMod p)))
  | [] => .ok (C, [])
  | s :: ss => do
    let r ← liftP (propStmt C s)
    let rs ← propMany r.1 ss
    .ok (rs.1, r.2 ++ rs.2)

/-- The state of the reducer: the versions of the names of the current frame, the constants, and the latest frame (`mod.rs:93-99`, `shallow_ssa.rs:50-55`). -/
structure RState (F : Type) where
  vers : Vers
  consts : Consts F
  latest : ℕ

/-- `clear_call_frame`, `propagation.rs:70-72`. -/
def Consts.clear (C : Consts F) (fr : ℕ) : Consts F := fun x => if frameOf x = fr then none else C x

/-- A statement without calls, `mod.rs:338-363`: static single assignment form, propagation, slices, and propagation again. -/
def reduceSimple (k fr : ℕ) (st : RState (ZMod p)) (s : TStmt (ZMod p)) : Except RErr (RState (ZMod p) × List (TStmt (ZMod p))) := do
  let r ← liftP (propStmt st.consts (ssaStmt st.vers fr s).2)
  let ss ← sliceStmts (partF (ssaStmt st.vers fr s).1 fr r.1 k) r.2
  let q ← propMany r.1 ss
  .ok ({ st with vers := (ssaStmt st.vers fr s).1, consts := q.1 }, q.2)

/-- An expression which is in static single assignment form already, `mod.rs:144-171`, `:212-216`: propagation, slices, and propagation. -/
def reduceExpr (V : Vers) (fr : ℕ) (C : Consts (ZMod p)) (k : ℕ) (e : TExpr (ZMod p)) : Except RErr (TExpr (ZMod p)) := do
  let e1 ← liftP (propT C e)
  let e2 ← sliceT (partF V fr C k) e1
  liftP (propT C e2)

/-- For a list of expressions. -/
def reduceExprs (V : Vers) (fr : ℕ) (C : Consts (ZMod p)) (k : ℕ) : List (TExpr (ZMod p)) → Except RErr (List (TExpr (ZMod p)))
  | [] => .ok []
  | e :: es => do
    let e' ← reduceExpr V fr C k e
    let es' ← reduceExprs V fr C k es
    .ok (e' :: es')

/-- The values of literals, `inline.rs:94-106`. -/
def litsU : List (TExpr F) → Except RErr (List ℕ)
  | [] => .ok []
  | e :: es => match e.litU with
    | some n => do
      let ns ← litsU es
      .ok (n :: ns)
    | none => .error .nonConstant

/-- The definitions of the arguments of a function in the new call frame, `mod.rs:181-189`: `inline.rs:154-159` for their types. -/
def bindings (fr : ℕ) : Vers → List TId → List (TExpr F) → Except RErr (Vers × List (TStmt F))
  | V, [], [] => .ok (V, [])
  | V, x :: xs, e :: es => do
    let r ← bindings fr (V.issue (x + 1)) xs es
    .ok (r.1, .definition (.ident (nid fr (x + 1) ((V.issue (x + 1)).cur (x + 1))) e.ty) e :: r.2)
  | _, _, _ => .error .malformed

/-- The definition of a `u32`. -/
def uDef (x : TId) (n : ℕ) : SStmt F := .simple (.definition (.ident x (.uint .b32)) (.uval .b32 n))

/-- The iterations of a loop, `mod.rs:322-333`. -/
def unroll (x : TId) (body : List (SStmt F)) : ℕ → ℕ → List (SStmt F)
  | _, 0 => []
  | i, n + 1 => uDef x i :: body ++ unroll x body (i + 1) n

/-- `MAX_FOR_LOOP_SIZE`, `mod.rs:54`. -/
def maxLoop : ℕ := 2 ^ 20

/-- The statements of a list, one after the other. -/
def reduceMany (step : RState F → SStmt F → Except RErr (RState F × List (TStmt F))) : RState F → List (SStmt F) → Except RErr (RState F × List (TStmt F))
  | st, [] => .ok (st, [])
  | st, s :: ss => do
    let r ← step st s
    let rs ← reduceMany step r.1 ss
    .ok (rs.1, r.2 ++ rs.2)

/-- What a call becomes: the constants and the latest frame behind it, the statements (`statement_buffer`), and the value. -/
structure Inlined (F : Type) where
  consts : Consts F
  latest : ℕ
  stmts : List (TStmt F)
  value : TExpr F

/-- `fold_function_call_expression`, `mod.rs:134-267`, behind the fold of the generic arguments and the arguments. -/
def inlineCall (P : Program (ZMod p)) (run : ℕ → RState (ZMod p) → List (SStmt (ZMod p)) → Except RErr (RState (ZMod p) × List (TStmt (ZMod p)))) (k : ℕ)
    (C : Consts (ZMod p)) (latest : ℕ) (t : CType) (key : ℕ) (gens : List ℕ) (args : List (TExpr (ZMod p))) : Except RErr (Inlined (ZMod p)) :=
  match P key gens (args.map TExpr.ty) t with
  | none => .error .incompatible
  | some (.here i) => do
    let b ← bindings (latest + 1) (fun _ => none) i.params args
    let c ← propMany C b.2
    let r ← run (latest + 1) ⟨b.1, c.1, latest + 1⟩ (i.generics.map (fun g => uDef g.1 g.2) ++ i.body)
    let v ← reduceExpr r.1.vers (latest + 1) r.1.consts k (i.ret.ren (ssaName r.1.vers (latest + 1)))
    .ok ⟨r.1.consts.clear r.1.latest, r.1.latest, c.2 ++ r.2, v⟩
  | some (.flat f g) => do
    let c ← liftP (propStmt C (.embed (.ident (nid (latest + 1) 0 0) t) f g args))
    let v ← liftP (propT c.1 (.ident (nid (latest + 1) 0 0) t))
    .ok ⟨c.1.clear (latest + 1), latest + 1, c.2, v⟩

/-- `fold_statement`, `mod.rs:295-368`. In a loop whose upper bound is below the lower one, the subtraction in the code underflows: a panic or a number that is too large. For a call, the first propagation folds the assignee and the arguments and invalidates the constant of the assigned variable, as
for any right side which is not a constant; its definition, if any, is in front of the call. -/
def reduceS (P : Program (ZMod p)) : ℕ → ℕ → RState (ZMod p) → SStmt (ZMod p) → Except RErr (RState (ZMod p) × List (TStmt (ZMod p)))
  | 0, _, _, _ => .error .steps
  | k + 1, fr, st, .simple s => reduceSimple k fr st s
  | k + 1, fr, st, .for_ x lo hi body => do
    let lo' ← reduceExpr st.vers fr st.consts k (lo.ren (ssaName st.vers fr))
    let hi' ← reduceExpr st.vers fr st.consts k (hi.ren (ssaName st.vers fr))
    match lo'.litU, hi'.litU with
    | some l, some h => if h < l ∨ maxLoop < h - l then .error .loopTooLarge else reduceMany (reduceS P k fr) st (unroll x body l (h - l))
    | _, _ => .error .nonConstant
  | k + 1, fr, st, .call a t key gens args => do
    let gens1 ← liftP (propL st.consts (renL (ssaName st.vers fr) gens))
    let args1 ← liftP (propL st.consts (renL (ssaName st.vers fr) args))
    let a1 ← liftP (propA st.consts (ssaAssignee st.vers fr a).2)
    if a1.ty ≠ some t then .error (.propagation .type) else
    let r ← liftP (invalidate st.consts a1 (.definition a1 (.removed t)))
    let pre ← sliceStmts (partF (ssaAssignee st.vers fr a).1 fr r.1 k) r.2.dropLast
    let gens2 ← reduceExprs (ssaAssignee st.vers fr a).1 fr r.1 k gens1
    let args2 ← reduceExprs (ssaAssignee st.vers fr a).1 fr r.1 k args1
    let gs ← litsU gens2
    let c ← inlineCall P (fun fr' st' ss => reduceMany (reduceS P k fr') st' ss) k r.1 st.latest t key gs args2
    let a2 ← sliceA (partF (ssaAssignee st.vers fr a).1 fr c.consts k) a1
    let q ← propMany c.consts (pre ++ [.definition a2 c.value])
    .ok (⟨(ssaAssignee st.vers fr a).1, q.1, c.latest⟩, c.stmts ++ q.2)

/-- The parameters of the main function, `mod.rs:127-132`, `shallow_ssa.rs:135-146`. -/
def ssaParams : Vers → List TParam → Vers × List TParam
  | V, [] => (V, [])
  | V, q :: qs => ((ssaParams (V.issue (q.id + 1)) qs).1,
      { q with id := nid 0 (q.id + 1) ((V.issue (q.id + 1)).cur (q.id + 1)) } :: (ssaParams (V.issue (q.id + 1)) qs).2)

/-- `reduce_program`, `mod.rs:403-450`: the main function has no generic parameters. -/
def reduce (P : Program (ZMod p)) (k : ℕ) (f : SFun (ZMod p)) : Except RErr (TFun (ZMod p)) := do
  let r ← reduceMany (reduceS P k 0) ⟨(ssaParams (fun _ => none) f.params).1, fun _ => none, 0⟩ f.body
  .ok ⟨(ssaParams (fun _ => none) f.params).2, r.2, f.ret⟩

end Zok.Typed
