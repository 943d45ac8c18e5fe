import Verif.Model.FlattenerStmt

/-
`DeadCodeEliminator`, `zokrates_analysis/src/dead_code.rs`: a fold over ZIR (`zokrates_ast/src/zir/folder.rs`), from the last
statement to the first, which removes definitions of variables that are not used later.
-/

namespace Zok
variable {F Z : Type}

namespace Dce

mutual
/-- The identifiers `fold_name` is called on when a field expression is folded, `folder.rs:412-502`. Expressions are rebuilt
unchanged. -/
def idsF : FExpr F → List ZId
  | .value _ => []
  | .ident x => [x]
  | .select es i => idsFs es ++ idsU i
  | .add l r | .sub l r | .mult l r | .div l r | .and l r | .or l r | .xor l r => idsF l ++ idsF r
  | .pow b e | .leftShift b e | .rightShift b e => idsF b ++ idsU e
  | .cond c t e => idsB c ++ idsF t ++ idsF e
/-- The identifiers of the elements of an array, `folder.rs:710-724`. -/
def idsFs : List (FExpr F) → List ZId
  | [] => []
  | e :: es => idsF e ++ idsFs es
/-- The identifiers of a boolean expression, `folder.rs:504-575`. -/
def idsB : BExpr F → List ZId
  | .value _ => []
  | .ident x => [x]
  | .select es i => idsBs es ++ idsU i
  | .fieldLt l r | .fieldLe l r | .fieldEq l r => idsF l ++ idsF r
  | .uintLt l r | .uintLe l r | .uintEq l r => idsU l ++ idsU r
  | .boolEq l r | .or l r | .and l r => idsB l ++ idsB r
  | .not e => idsB e
  | .cond c t e => idsB c ++ idsB t ++ idsB e
/-- The identifiers of the elements of an array. -/
def idsBs : List (BExpr F) → List ZId
  | [] => []
  | e :: es => idsB e ++ idsBs es
/-- The identifiers of an integer expression, `folder.rs:577-594`. -/
def idsU : UExpr F → List ZId
  | .mk _ _ i => idsUI i
/-- The identifiers of the elements of an array. -/
def idsUs : List (UExpr F) → List ZId
  | [] => []
  | e :: es => idsU e ++ idsUs es
/-- The identifiers of an integer expression, `folder.rs:596-662`. -/
def idsUI : UInner F → List ZId
  | .value _ => []
  | .ident x => [x]
  | .select es i => idsUs es ++ idsU i
  | .add l r | .sub l r | .mult l r | .div l r | .rem l r | .xor l r | .and l r | .or l r => idsU l ++ idsU r
  | .leftShift l r | .rightShift l r => idsU l ++ idsU r
  | .not e => idsU e
  | .cond c t e => idsB c ++ idsU t ++ idsU e
end

/-- The identifiers of an expression, `folder.rs:181-187`. -/
def idsZ : ZExpr F → List ZId
  | .field e => idsF e
  | .bool e => idsB e
  | .uint e => idsU e

/-- The identifiers of a list of expressions. -/
def idsZs : List (ZExpr F) → List ZId
  | [] => []
  | e :: es => idsZ e ++ idsZs es

/-- `used: HashSet<Identifier>`, `dead_code.rs:7`. -/
abbrev Used := ZId → Bool

/-- `HashSet::insert`, `dead_code.rs:83`. -/
def Used.insert (u : Used) (x : ZId) : Used := fun y => decide (y = x) || u y

/-- `fold_name` on each identifier, `dead_code.rs:82-85`. -/
def Used.names (u : Used) (xs : List ZId) : Used := xs.foldl Used.insert u

/-- `HashSet::remove`, `dead_code.rs:59`, `:73`: the set without the element, and whether it was there. -/
def Used.remove (u : Used) (x : ZId) : Bool × Used := (u x, fun y => !decide (y = x) && u y)

/-- `iter().any(|a| used.remove(a))`, `dead_code.rs:59`: stops at the first identifier in the set. -/
def Used.removeAny (u : Used) : List ZId → Bool × Used
  | [] => (false, u)
  | x :: xs =>
    let (b, u) := u.remove x
    if b then (true, u) else u.removeAny xs

section
variable (hd : Z → Used → Z × Used)

/-- `fold_assembly_statement`, `folder.rs:254-291`. The function of a hint is folded by `hd`: its statements are folded with the
same set (`dead_code.rs:17-27`; the arguments are not). -/
def dceAsm : ZAsm F Z → Used → ZAsm F Z × Used
  | .assignment xs f args, u =>
    let (f, u) := hd f (u.names xs)
    (.assignment xs f args, u)
  | .constraint l r info, u => (.constraint l r info, (u.names (idsF l)).names (idsF r))

/-- `fold_assembly_block`, `folder.rs:400-410`: in order. -/
def dceAsms : List (ZAsm F Z) → Used → List (ZAsm F Z) × Used
  | [], u => ([], u)
  | s :: ss, u =>
    let (s, u) := dceAsm hd s u
    let (ss, u) := dceAsms ss u
    (s :: ss, u)

mutual
/-- `fold_statement`, `dead_code.rs:29-80` and `folder.rs:324-410`. -/
def dceStmt : ZStmt F Z → Used → List (ZStmt F Z) × Used
  | .ret es, u => ([.ret es], u.names (idsZs es))
  | .definition x e, u =>
    let (b, u) := u.remove x
    if b then ([.definition x e], (u.names (idsZ e)).names [x]) else ([], u)
  | .ifElse c t e, u =>
    let u := u.names (idsB c)
    let (t, u) := dceStmts t u
    let (e, u) := dceStmts e u
    ([.ifElse c t e], u)
  | .assertion e err, u => ([.assertion e err], u.names (idsB e))
  | .multiDef xs embed g args, u =>
    let (b, u) := u.removeAny xs
    if b then ([.multiDef xs embed g args], (u.names (idsZs args)).names xs) else ([], u)
  | .log es, u => ([.log es], u.names (idsZs es.flatten))
  | .assembly ss, u =>
    let (ss, u) := dceAsms hd ss u
    ([.assembly ss], u)
/-- `rev().flat_map(fold_statement)` and `reverse`, `dead_code.rs:19-25`, `:35-49`. -/
def dceStmts : List (ZStmt F Z) → Used → List (ZStmt F Z) × Used
  | [], u => ([], u)
  | s :: ss, u =>
    let (ss, u) := dceStmts ss u
    let (s, u) := dceStmt s u
    (s ++ ss, u)
end
end

end Dce

/-- `DeadCodeEliminator::eliminate`, `dead_code.rs:11-13`, `:17-27`. -/
def eliminateDeadCode (hd : Z → Dce.Used → Z × Dce.Used) (f : ZFun F Z) : ZFun F Z :=
  { f with body := (Dce.dceStmts hd f.body fun _ => false).1 }

end Zok
