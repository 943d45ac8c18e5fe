import Verif.Model.Typed

/-
`zokrates_analysis/src/flatten_complex_types.rs`: typed expressions, whose values can be arrays, structs and tuples, are turned into ZIR, whose values are
field elements, booleans and unsigned integers. `none` is a panic (`unreachable!`, `unwrap` of `None`, a failed `assert_eq!`, a slice out of range).
Blocks (which add statements to `statements_buffer`) and assembly statements are not modelled, so that buffer is not needed for expressions.
-/

namespace Zok.Typed
open Abi

/-- `SourceIdentifier`, `zokrates_ast/src/zir/identifier.rs`: the name of a component of a variable. -/
inductive SId where
  | basic (x : TId)
  | select (a : SId) (i : ℕ)
  | member (s : SId) (m : Str)
  | element (t : SId) (i : ℕ)
deriving DecidableEq

/-- `flat_map` of a function that can panic. -/
def concatO {α : Type _} : List (Option (List α)) → Option (List α)
  | [] => some []
  | none :: _ => none
  | some l :: ls => (concatO ls).map fun l' => l ++ l'

mutual
/-- `flatten_identifier_rec`, `flatten_complex_types.rs:20-63`. -/
def flatIds : CType → SId → Option (List (SId × ZType))
  | .int, _ => none
  | .field, id => some [(id, .field)]
  | .bool, id => some [(id, .bool)]
  | .uint w, id => some [(id, .uint w.bits)]
  | .array n t, id => concatO ((List.range n).map fun i => flatIds t (.select id i))
  | .struct ms, id => flatIdsM ms id
  | .tuple ts, id => flatIdsT ts id 0
/-- `members.iter().flat_map(..)`, `:47-55`. -/
def flatIdsM : List (Str × CType) → SId → Option (List (SId × ZType))
  | [], _ => some []
  | (m, t) :: ms, id => match flatIds t (.member id m), flatIdsM ms id with
    | some as, some bs => some (as ++ bs)
    | _, _ => none
/-- `elements.iter().enumerate().flat_map(..)`, `:56-62`; `i` is the number of elements before. -/
def flatIdsT : List CType → SId → ℕ → Option (List (SId × ZType))
  | [], _, _ => some []
  | t :: ts, id, i => match flatIds t (.element id i), flatIdsT ts id (i + 1) with
    | some as, some bs => some (as ++ bs)
    | _, _ => none
end

variable {F : Type}

/-- The expression for a variable of ZIR, `flatten_identifier_to_expression_rec`, `flatten_complex_types.rs:65-108`, which has the same structure as
`flatten_identifier_rec`. -/
def identExpr (nm : SId → ZId) : SId × ZType → ZExpr F
  | (id, .field) => .field (.ident (nm id))
  | (id, .bool) => .bool (.ident (nm id))
  | (id, .uint w) => .uint (.mk w none (.ident (nm id)))

/-- `.pop().unwrap().try_into().unwrap()` to a field expression. -/
def popF (l : List (ZExpr F)) : Option (FExpr F) := match l.getLast? with
  | some (.field e) => some e
  | _ => none
/-- `.pop().unwrap().try_into().unwrap()` to a boolean expression. -/
def popB (l : List (ZExpr F)) : Option (BExpr F) := match l.getLast? with
  | some (.bool e) => some e
  | _ => none
/-- `.pop().unwrap().try_into().unwrap()` to an unsigned integer expression. -/
def popU (l : List (ZExpr F)) : Option (UExpr F) := match l.getLast? with
  | some (.uint e) => some e
  | _ => none

/-- An element as a field expression: the `match` arms with `unreachable!()`. -/
def asF : ZExpr F → Option (FExpr F)
  | .field e => some e
  | _ => none
/-- An element as a boolean expression. -/
def asB : ZExpr F → Option (BExpr F)
  | .bool e => some e
  | _ => none
/-- An element as an unsigned integer expression. -/
def asU : ZExpr F → Option (UExpr F)
  | .uint e => some e
  | _ => none

/-- `Conditional::conditional` for two expressions of the same type, `flatten_complex_types.rs:1024-1045`, `zir/mod.rs:1230-1273`. -/
def condZ (c : BExpr F) : ZExpr F → ZExpr F → Option (ZExpr F)
  | .field a, .field b => some (.field (.cond c a b))
  | .bool a, .bool b => some (.bool (.cond c a b))
  | .uint a, .uint b => some (.uint (.mk a.width none (.cond c a b)))
  | _, _ => none

/-- The map over the two zipped branches, `flatten_complex_types.rs:1024-1045`; the lengths are asserted to be equal, `:1009`. -/
def condZs (c : BExpr F) : List (ZExpr F) → List (ZExpr F) → Option (List (ZExpr F))
  | [], [] => some []
  | a :: as, b :: bs => match condZ c a b, condZs c as bs with
    | some e, some es => some (e :: es)
    | _, _ => none
  | _, _ => none

/-- The selects for one component of the elements of an array, `flatten_complex_types.rs:957-993`. -/
def selectCol (i : UExpr F) : List (ZExpr F) → Option (ZExpr F)
  | [] => none
  | .bool e :: es => ((ZExpr.bool e :: es).mapM asB).map fun bs => .bool (.select bs i)
  | .field e :: es => ((ZExpr.field e :: es).mapM asF).map fun fs => .field (.select fs i)
  | .uint e :: es => ((ZExpr.uint e :: es).mapM asU).map fun us => .uint (.mk e.width none (.select us i))

/-- The transposition of the chunks of an array, `flatten_complex_types.rs:946-956`. -/
def columns (size : ℕ) (chunks : List (List (ZExpr F))) : List (List (ZExpr F)) :=
  chunks.foldl (fun acc e => List.zipWith (fun a x => a ++ [x]) acc e) (List.replicate size [])

/-- `fold_select_expression` on the flattened array and index, `flatten_complex_types.rs:924-996`: a constant index gives a slice, and otherwise each
component of the elements is selected; `chunks(0)` panics. -/
def selectZs (size : ℕ) (arr : List (ZExpr F)) (i : UExpr F) : Option (List (ZExpr F)) :=
  match i.inner with
  | .value v => Abi.slice arr (v * size) ((v + 1) * size)
  | _ => if size = 0 then none else (columns size (chunks size arr.length arr)).mapM (selectCol i)

/-- The leaves of a conjunction, `flatten_complex_types.rs:1203-1214`. -/
def eqZ : ZExpr F → ZExpr F → Option (BExpr F)
  | .bool a, .bool b => some (.boolEq a b)
  | .field a, .field b => some (.fieldEq a b)
  | .uint a, .uint b => some (.uintEq a b)
  | _, _ => none

/-- `conjunction_tree`, `flatten_complex_types.rs:1194-1226`; the lengths are asserted to be equal. `fuel` bounds the depth; the length suffices. -/
def conjTree : ℕ → List (ZExpr F) → List (ZExpr F) → Option (BExpr F)
  | _, [], [] => some (.value true)
  | _, [a], [b] => eqZ a b
  | 0, _, _ => none
  | fuel + 1, v, w =>
    if v.length = w.length then
      match conjTree fuel (v.take (v.length / 2)) (w.take (v.length / 2)), conjTree fuel (v.drop (v.length / 2)) (w.drop (v.length / 2)) with
      | some a, some b => some (.and a b)
      | _, _ => none
    else none

/-- The operators on field elements, `flatten_complex_types.rs:1099-1120`. -/
def FOp.zir : FOp → FExpr F → FExpr F → FExpr F
  | .add => .add
  | .sub => .sub
  | .mult => .mult
  | .div => .div
  | .and => .and
  | .or => .or
  | .xor => .xor

/-- `Pow`, `LeftShift`, `RightShift`, `flatten_complex_types.rs:1111-1126`. -/
def FUOp.zir : FUOp → FExpr F → UExpr F → FExpr F
  | .pow => .pow
  | .shl => .leftShift
  | .shr => .rightShift

/-- The operators on unsigned integers, `flatten_complex_types.rs:1351-1414`. -/
def UOp.zir : UOp → UExpr F → UExpr F → UInner F
  | .add => .add
  | .sub => .sub
  | .mult => .mult
  | .div => .div
  | .rem => .rem
  | .xor => .xor
  | .and => .and
  | .or => .or
  | .shl => .leftShift
  | .shr => .rightShift

/-- The types of the members in front of the named one, and its type: `take_while` and `find`, `flatten_complex_types.rs:865-884` (also `fold`, `:241-251`). -/
def memberSplit (m : Str) : List (Str × CType) → Option (List CType × CType)
  | [] => none
  | (k, t) :: ms => if k = m then some ([], t) else (memberSplit m ms).map fun (pre, t') => (t :: pre, t')

/-- The slice for a member or an element: `s[offset..offset + size]`, where `offset` is the sum of the primitive counts of the types in front. -/
def component {α : Type _} (pre : List CType) (t : CType) (l : List α) : Option (List α) :=
  match primCountL pre, primCount t with
  | some o, some c => Abi.slice l o (o + c)
  | _, _ => none

variable [Zero F]

mutual
/-- `fold_expression`, `flatten_complex_types.rs:303-325`, and the functions for the types of expressions; see the cases. -/
def flat (nm : SId → ZId) : TExpr F → Option (List (ZExpr F))
  -- `fold_field_expression`, `:1078-1189`; `fold_boolean_expression`, `:1247-1328`; `fold_uint_expression`, `:1330-1468`
  | .fval n => some [.field (.value n)]
  | .bval b => some [.bool (.value b)]
  | .uval w n => some [.uint (.mk w.bits none (.value n))]
  -- `fold_identifier_expression`, `:1070-1076`
  | .ident x t => (flatIds t (.basic x)).map fun l => l.map (identExpr nm)
  | .fbin op l r => match (flat nm l).bind popF, (flat nm r).bind popF with
    | some a, some b => some [.field (op.zir a b)]
    | _, _ => none
  | .fubin op l r => match (flat nm l).bind popF, (flat nm r).bind popU with
    | some a, some b => some [.field (op.zir a b)]
    | _, _ => none
  | .fneg e => match (flat nm e).bind popF with
    | some a => some [.field (.sub (.value 0) a)]
    | none => none
  | .fpos e => match (flat nm e).bind popF with
    | some a => some [.field a]
    | none => none
  | .ubin w op l r => match (flat nm l).bind popU, (flat nm r).bind popU with
    | some a, some b => some [.uint (.mk w.bits none (op.zir a b))]
    | _, _ => none
  | .unot w e => match (flat nm e).bind popU with
    | some a => some [.uint (.mk w.bits none (.not a))]
    | none => none
  | .uneg w e => match (flat nm e).bind popU with
    | some a => some [.uint (.mk w.bits none (.sub (.mk w.bits none (.value 0)) a))]
    | none => none
  | .upos w e => match (flat nm e).bind popU with
    | some a => some [.uint (.mk w.bits none a.inner)]
    | none => none
  | .bbin op l r => match (flat nm l).bind popB, (flat nm r).bind popB with
    | some a, some b => some [.bool (match op with | .and => .and a b | .or => .or a b)]
    | _, _ => none
  | .bnot e => match (flat nm e).bind popB with
    | some a => some [.bool (.not a)]
    | none => none
  | .fcmp op l r => match (flat nm l).bind popF, (flat nm r).bind popF with
    | some a, some b => some [.bool (match op with | .lt => .fieldLt a b | .le => .fieldLe a b)]
    | _, _ => none
  | .ucmp op l r => match (flat nm l).bind popU, (flat nm r).bind popU with
    | some a, some b => some [.bool (match op with | .lt => .uintLt a b | .le => .uintLe a b)]
    | _, _ => none
  -- `fold_eq_expression`, `:1228-1245`
  | .eq l r => match flat nm l, flat nm r with
    | some as, some bs => if as.length = bs.length then (conjTree as.length as bs).map fun e => [.bool e] else none
    | _, _ => none
  -- `fold_conditional_expression`, `:998-1046`
  | .cond _ c a b => match (flat nm c).bind popB, flat nm a, flat nm b with
    | some c, some as, some bs => condZs c as bs
    | _, _, _ => none
  | .select _ a i => match a.ty with
    | .array _ t => match primCount t, flat nm a, (flat nm i).bind popU with
      | some c, some arr, some i => selectZs c arr i
      | _, _, _ => none
    | _ => none
  -- `fold_member_expression`, `:854-889`
  | .member _ s m => match s.ty with
    | .struct ms => match memberSplit m ms, flat nm s with
      | some (pre, t), some l => component pre t l
      | _, _ => none
    | _ => none
  -- `fold_element_expression`, `:891-922`
  | .element _ e i => match e.ty with
    | .tuple ts => match ts[i]?, flat nm e with
      | some t, some l => component (ts.take i) t l
      | _, _ => none
    | _ => none
  -- `fold_array_expression_inner`, `:716-789`
  | .array t n es => match flatS nm es, primCount t with
    | some l, some c => if l.length = n * c then some l else none
    | _, _ => none
  | .slice t n a lo hi => match flat nm a, (flat nm lo).bind popU, (flat nm hi).bind popU, primCount t with
    | some l, some (.mk _ _ (.value lo)), some (.mk _ _ (.value hi)), some c =>
      if n = hi - lo ∧ lo * c ≤ hi * c then Abi.slice l (lo * c) (hi * c) else none
    | _, _, _, _ => none
  | .repeat_ _ _ e count => match flat nm e, (flat nm count).bind popU with
    | some l, some (.mk _ _ (.value k)) => some (List.replicate k l).flatten
    | _, _ => none
  -- `fold_struct_expression_inner`, `:791-820`, `fold_tuple_expression_inner`, `:822-852`
  | .struct _ es => flatL nm es
  | .tuple _ es => flatL nm es
  | .removed _ => none
/-- `flat_map(|e| f.fold_expression(e))`. -/
def flatL (nm : SId → ZId) : List (TExpr F) → Option (List (ZExpr F))
  | [] => some []
  | e :: es => match flat nm e, flatL nm es with
    | some as, some bs => some (as ++ bs)
    | _, _ => none
/-- `flat_map(|e| f.fold_expression_or_spread(e))`, `:287-301`. -/
def flatS (nm : SId → ZId) : List (TSpread F) → Option (List (ZExpr F))
  | [] => some []
  | .expr e :: es => match flat nm e, flatS nm es with
    | some as, some bs => some (as ++ bs)
    | _, _ => none
  | .spread e :: es => match flat nm e, flatS nm es with
    | some as, some bs => some (as ++ bs)
    | _, _ => none
end

/-- `fold_assignee`, `flatten_complex_types.rs:217-277`. -/
def flatA : TAssignee F → Option (List (SId × ZType))
  | .ident x t => flatIds t (.basic x)
  | .select a i => match a.ty with
    | some (.array _ t) => match primCount t, flatA a, i with
      | some c, some l, .uval _ k => Abi.slice l (k * c) ((k + 1) * c)
      | _, _, _ => none
    | _ => none
  | .member a m => match a.ty with
    | some (.struct ms) => match memberSplit m ms, flatA a with
      | some (pre, t), some l => component pre t l
      | _, _ => none
    | _ => none
  | .element a i => match a.ty with
    | some (.tuple ts) => match ts[i]?, flatA a with
      | some t, some l => component (ts.take i) t l
      | _, _ => none
    | _ => none

variable {Z : Type}

/-- The flattened arguments of a log statement, one list for each argument, `flatten_complex_types.rs:689-705`. -/
def flatLog (nm : SId → ZId) : List (TExpr F) → Option (List (List (ZExpr F)))
  | [] => some []
  | e :: es => match flat nm e, flatLog nm es with
    | some a, some l => some (a :: l)
    | _, _ => none

/-- `fold_statement`, `flatten_complex_types.rs:620-710`. -/
def flatStmt (nm : SId → ZId) : TStmt F → Option (List (ZStmt F Z))
  | .ret e => (flat nm e).map fun l => [.ret l]
  | .definition a e => match flatA a, flat nm e with
    | some as, some es => if as.length = es.length then some (List.zipWith (fun a e => .definition (nm a.1) e) as es) else none
    | _, _ => none
  | .embed a embed g args => match flatA a, flatL nm args with
    | some as, some es => some [.multiDef (as.map fun a => nm a.1) embed g es]
    | _, _ => none
  | .assertion e err => match (flat nm e).bind popB with
    | some b => some [.assertion b err]
    | none => none
  | .log es => (flatLog nm es).map fun l => [.log l]

/-- The statements of a function, `flatten_complex_types.rs:1474-1478`. -/
def flatStmts (nm : SId → ZId) : List (TStmt F) → Option (List (ZStmt F Z))
  | [] => some []
  | s :: ss => match flatStmt nm s, flatStmts nm ss with
    | some as, some bs => some (as ++ bs)
    | _, _ => none

/-- `fold_declaration_parameter`, `flatten_complex_types.rs:187-200`, for all parameters. -/
def flatParams (nm : SId → ZId) : List TParam → Option (List ZParam)
  | [] => some []
  | q :: qs => match flatIds q.ty (.basic q.id), flatParams nm qs with
    | some as, some bs => some (as.map (fun a => ⟨nm a.1, a.2, q.priv⟩) ++ bs)
    | _, _ => none

/-- `fold_function`, `flatten_complex_types.rs:1470-1498`. -/
def flatFun (nm : SId → ZId) (f : TFun F) : Option (ZFun F Z) :=
  match flatParams nm f.params, flatStmts nm f.body, primCount f.ret with
  | some ps, some ss, some c => some ⟨ps, ss, c⟩
  | _, _, _ => none

end Zok.Typed
