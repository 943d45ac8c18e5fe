import Verif.Model.FlattenerStmt

/-
The range analysis of unsigned integers: `zokrates_analysis/src/uint_optimizer.rs`. It annotates each unsigned integer
expression with an upper bound of the field element representing it and with whether the flattener must reduce it to
its bitwidth. `none` is a panic.
-/

namespace Zok.Uo
variable {p : ℕ} {Z : Type}

/-- `ids: HashMap<ZirAssignee, UMetadata>`, `uint_optimizer.rs:10`. An assignee is a typed identifier; only unsigned
integers are registered, so the key is the identifier and the bitwidth. -/
abbrev Ids (p : ℕ) := ZId → ℕ → Option (UMeta (ZMod p))

/-- `register`, `uint_optimizer.rs:24-26`. -/
def Ids.register (ids : Ids p) (x : ZId) (w : ℕ) (m : UMeta (ZMod p)) : Ids p :=
  fun y v => if y = x ∧ v = w then some m else ids y v

/-- `UMetadata::with_max`, `zir/uint.rs:147-153`. -/
def withMax (m : ZMod p) : UMeta (ZMod p) := ⟨m, .unknown⟩

/-- `UMetadata::parameter`, `zir/uint.rs:159-165`. -/
def parameterMeta (p w : ℕ) : UMeta (ZMod p) := ⟨2 ^ w - 1, .no⟩

/-- `ShouldReduce::make_false`, `zir/uint.rs:129-135`; `none` is the `unreachable!`. -/
def makeFalse : ShouldReduce → Option ShouldReduce
  | .yes => none
  | _ => some .no

/-- `force_reduce`, `uint_optimizer.rs:29-41` (`make_true` always answers `True`). -/
def forceReduce : UExpr (ZMod p) → Option (UExpr (ZMod p))
  | .mk w (some m) i => some (.mk w (some ⟨m.max, .yes⟩) i)
  | .mk _ none _ => none

/-- `force_no_reduce`, `uint_optimizer.rs:43-55`. -/
def forceNoReduce : UExpr (ZMod p) → Option (UExpr (ZMod p))
  | .mk w (some m) i => match makeFalse m.shouldReduce with
    | some s => some (.mk w (some ⟨m.max, s⟩) i)
    | none => none
  | .mk _ none _ => none

/-- `if should_reduce { force_reduce(e) } else { force_no_reduce(e) }`, `uint_optimizer.rs:174-183`. -/
def forceIf (b : Bool) (e : UExpr (ZMod p)) : Option (UExpr (ZMod p)) := if b then forceReduce e else forceNoReduce e

/-- `metadata.unwrap().max`. -/
def maxOf (e : UExpr (ZMod p)) : Option (ZMod p) := e.info.map UMeta.max

/-- `range_max`, `uint_optimizer.rs:116`. -/
def rangeMax (p w : ℕ) : ZMod p := ((2 ^ w - 1 : ℕ) : ZMod p)

/-- Which operands to reduce and the resulting maximum: the cascade of `uint_optimizer.rs:158-172` (addition) and
`:296-310` (multiplication), where `ck` is `checked_add` or `checked_mul`, and `both` the fallback. -/
def choose (ck : ZMod p → ZMod p → Fld.Checked (ZMod p)) (lm rm rg both : ZMod p) : Option (Bool × Bool × ZMod p) :=
  match ck lm rm with
  | .panicked => none
  | .some m => some (false, false, m)
  | .none => match ck rg rm with
    | .panicked => none
    | .some m => some (true, false, m)
    | .none => match ck lm rg with
      | .panicked => none
      | .some m => some (false, true, m)
      | .none => some (true, true, both)

/-- Which operands of a subtraction to reduce and the resulting maximum, `uint_optimizer.rs:213-245`. `lm` is the
maximum of the left operand, `rb` the bitwidth of the maximum of the right operand. -/
def chooseSub (w : ℕ) (lm : ZMod p) (rb : ℕ) : Option (Bool × Bool × ZMod p) :=
  let offset : ZMod p := 2 ^ (max rb w)
  let targetOffset : ZMod p := 2 ^ w
  if rb = Fld.requiredBits p - 1 then
    match Fld.checkedAdd lm targetOffset with
    | .panicked => none
    | .some m => some (false, true, m)
    | .none => some (true, true, rangeMax p w + targetOffset)
  else match Fld.checkedAdd lm offset with
    | .panicked => none
    | .some m => some (false, false, m)
    | .none => match Fld.checkedAdd (rangeMax p w) offset with
      | .panicked => none
      | .some m => some (true, false, m)
      | .none => none

/-- The maximum of the elements of an array, `uint_optimizer.rs:141-148`; `none` if the array is empty. -/
def maxOfAll : List (UExpr (ZMod p)) → Option ℕ
  | [] => none
  | [e] => (maxOf e).map ZMod.val
  | e :: e' :: es => do
    let m ← maxOf e
    let n ← maxOfAll (e' :: es)
    some (max m.val n)

/-- The annotated maximum of `e << by`, `uint_optimizer.rs:342-346`. -/
def leftShiftMax (w by_ : ℕ) (m : ZMod p) : ℕ := (m.val <<< by_) &&& (2 ^ w - 1)

/-- The annotated maximum of `e >> by`, `uint_optimizer.rs:365-369`. -/
def rightShiftMax (w by_ : ℕ) (m : ZMod p) : ℕ := (m.val &&& (2 ^ w - 1)) >>> by_

/-- The literal a shift amount must be after folding (`right.into_inner()`, `uint_optimizer.rs:340,363`). -/
def literal? : UExpr (ZMod p) → Option ℕ
  | .mk _ _ (.value n) => some n
  | _ => none

mutual
/-- `fold_field_expression` (`zir/folder.rs:425-510`; array accesses: `uint_optimizer.rs:58-67`). -/
def uoF (ids : Ids p) : FExpr (ZMod p) → Option (FExpr (ZMod p))
  | .value n => some (.value n)
  | .ident x => some (.ident x)
  | .select es i => do
    let es ← uoFs ids es
    let i ← uoU ids i
    let i ← forceReduce i
    some (.select es i)
  | .add l r => do
    let l ← uoF ids l
    let r ← uoF ids r
    some (.add l r)
  | .sub l r => do
    let l ← uoF ids l
    let r ← uoF ids r
    some (.sub l r)
  | .mult l r => do
    let l ← uoF ids l
    let r ← uoF ids r
    some (.mult l r)
  | .div l r => do
    let l ← uoF ids l
    let r ← uoF ids r
    some (.div l r)
  | .pow l r => do
    let l ← uoF ids l
    let r ← uoU ids r
    some (.pow l r)
  | .and l r => do
    let l ← uoF ids l
    let r ← uoF ids r
    some (.and l r)
  | .or l r => do
    let l ← uoF ids l
    let r ← uoF ids r
    some (.or l r)
  | .xor l r => do
    let l ← uoF ids l
    let r ← uoF ids r
    some (.xor l r)
  | .leftShift l r => do
    let l ← uoF ids l
    let r ← uoU ids r
    some (.leftShift l r)
  | .rightShift l r => do
    let l ← uoF ids l
    let r ← uoU ids r
    some (.rightShift l r)
  | .cond c t e => do
    let c ← uoB ids c
    let t ← uoF ids t
    let e ← uoF ids e
    some (.cond c t e)
/-- The elements of an array of field elements, `uint_optimizer.rs:63`. -/
def uoFs (ids : Ids p) : List (FExpr (ZMod p)) → Option (List (FExpr (ZMod p)))
  | [] => some []
  | e :: es => do
    let e ← uoF ids e
    let es ← uoFs ids es
    some (e :: es)
/-- `fold_boolean_expression`, `uint_optimizer.rs:69-104`, `zir/folder.rs:512-575`. -/
def uoB (ids : Ids p) : BExpr (ZMod p) → Option (BExpr (ZMod p))
  | .value n => some (.value n)
  | .ident x => some (.ident x)
  | .select es i => do
    let es ← uoBs ids es
    let i ← uoU ids i
    let i ← forceReduce i
    some (.select es i)
  | .fieldLt l r => do
    let l ← uoF ids l
    let r ← uoF ids r
    some (.fieldLt l r)
  | .fieldLe l r => do
    let l ← uoF ids l
    let r ← uoF ids r
    some (.fieldLe l r)
  | .fieldEq l r => do
    let l ← uoF ids l
    let r ← uoF ids r
    some (.fieldEq l r)
  | .uintLt l r => do
    let l ← uoU ids l
    let r ← uoU ids r
    let l ← forceReduce l
    let r ← forceReduce r
    some (.uintLt l r)
  | .uintLe l r => do
    let l ← uoU ids l
    let r ← uoU ids r
    let l ← forceReduce l
    let r ← forceReduce r
    some (.uintLe l r)
  | .uintEq l r => do
    let l ← uoU ids l
    let r ← uoU ids r
    let l ← forceReduce l
    let r ← forceReduce r
    some (.uintEq l r)
  | .boolEq l r => do
    let l ← uoB ids l
    let r ← uoB ids r
    some (.boolEq l r)
  | .or l r => do
    let l ← uoB ids l
    let r ← uoB ids r
    some (.or l r)
  | .and l r => do
    let l ← uoB ids l
    let r ← uoB ids r
    some (.and l r)
  | .not e => do
    let e ← uoB ids e
    some (.not e)
  | .cond c t e => do
    let c ← uoB ids c
    let t ← uoB ids t
    let e ← uoB ids e
    some (.cond c t e)
/-- The elements of an array of booleans, `uint_optimizer.rs:63`. -/
def uoBs (ids : Ids p) : List (BExpr (ZMod p)) → Option (List (BExpr (ZMod p)))
  | [] => some []
  | e :: es => do
    let e ← uoB ids e
    let es ← uoBs ids es
    some (e :: es)
/-- `fold_uint_expression`, `uint_optimizer.rs:106-404`: annotated expressions are returned unchanged (`:109-111`), and
`:118` asserts that the width is below half of the bits of the field. -/
def uoU (ids : Ids p) : UExpr (ZMod p) → Option (UExpr (ZMod p))
  | .mk w (some m) i => some (.mk w (some m) i)
  | .mk w none i => if w < (Fld.requiredBits p - 1) / 2 then do
      let (m, i) ← uoUI ids w i
      some (.mk w (some m) i)
    else none
/-- The elements of an array of integers: folded, then marked not to be reduced, `uint_optimizer.rs:136-139`. -/
def uoUs (ids : Ids p) : List (UExpr (ZMod p)) → Option (List (UExpr (ZMod p)))
  | [] => some []
  | e :: es => do
    let e ← uoU ids e
    let e ← forceNoReduce e
    let es ← uoUs ids es
    some (e :: es)
/-- The cases of `fold_uint_expression`, `uint_optimizer.rs:124-399`: the metadata and the expression. -/
def uoUI (ids : Ids p) (w : ℕ) : UInner (ZMod p) → Option (UMeta (ZMod p) × UInner (ZMod p))
  | .value n => some (withMax (n : ZMod p), .value n)
  | .ident x => do
    let m ← ids x w
    some (m, .ident x)
  | .select es i => do
    let i ← uoU ids i
    let i ← forceReduce i
    let es ← uoUs ids es
    let n ← maxOfAll es
    let m ← Fld.tryFromBiguint p n
    some (withMax m, .select es i)
  | .add l r => do
    let l ← uoU ids l
    let r ← uoU ids r
    let lm ← maxOf l
    let rm ← maxOf r
    let (bl, br, m) ← choose Fld.checkedAdd lm rm (rangeMax p w) (rangeMax p w + rangeMax p w)
    let l ← forceIf bl l
    let r ← forceIf br r
    some (withMax m, .add l r)
  | .sub l r => do
    let l ← uoU ids l
    let r ← uoU ids r
    let lm ← maxOf l
    let rm ← maxOf r
    let (bl, br, m) ← chooseSub w lm (Fld.bits rm)
    let l ← forceIf bl l
    let r ← forceIf br r
    some (withMax m, .sub l r)
  | .mult l r => do
    let l ← uoU ids l
    let r ← uoU ids r
    let lm ← maxOf l
    let rm ← maxOf r
    let (bl, br, m) ← choose Fld.checkedMul lm rm (rangeMax p w) (rangeMax p w * rangeMax p w)
    let l ← forceIf bl l
    let r ← forceIf br r
    some (withMax m, .mult l r)
  | .div l r => do
    let l ← uoU ids l
    let r ← uoU ids r
    let l ← forceReduce l
    let r ← forceReduce r
    some (withMax (rangeMax p w), .div l r)
  | .rem l r => do
    let l ← uoU ids l
    let r ← uoU ids r
    let l ← forceReduce l
    let r ← forceReduce r
    some (withMax (rangeMax p w), .rem l r)
  | .xor l r => do
    let l ← uoU ids l
    let r ← uoU ids r
    let l ← forceReduce l
    let r ← forceReduce r
    some (withMax (rangeMax p w), .xor l r)
  | .and l r => do
    let l ← uoU ids l
    let r ← uoU ids r
    let l ← forceReduce l
    let r ← forceReduce r
    some (withMax (rangeMax p w), .and l r)
  | .or l r => do
    let l ← uoU ids l
    let r ← uoU ids r
    let l ← forceReduce l
    let r ← forceReduce r
    some (withMax (rangeMax p w), .or l r)
  | .leftShift l r => do
    let l ← uoU ids l
    let r ← uoU ids r
    let by_ ← literal? r
    let em ← maxOf l
    let m ← Fld.tryFromBiguint p (leftShiftMax w by_ em)
    let l ← forceReduce l
    some (withMax m, .leftShift l (.mk 32 none (.value by_)))
  | .rightShift l r => do
    let l ← uoU ids l
    let r ← uoU ids r
    let by_ ← literal? r
    let em ← maxOf l
    let m ← Fld.tryFromBiguint p (rightShiftMax w by_ em)
    let l ← forceReduce l
    some (withMax m, .rightShift l (.mk 32 none (.value by_)))
  | .not e => do
    let e ← uoU ids e
    let e ← forceReduce e
    some (withMax (rangeMax p w), .not e)
  | .cond c t e => do
    let c ← uoB ids c
    let t ← uoU ids t
    let e ← uoU ids e
    let tm ← maxOf t
    let em ← maxOf e
    let t ← forceNoReduce t
    let e ← forceNoReduce e
    let m ← Fld.tryFromBiguint p (max tm.val em.val)
    some (withMax m, .cond c t e)
end

/-- `fold_expression`, `zir/folder.rs`: dispatch on the type. -/
def uoZ (ids : Ids p) : ZExpr (ZMod p) → Option (ZExpr (ZMod p))
  | .field e => (uoF ids e).map .field
  | .bool e => (uoB ids e).map .bool
  | .uint e => (uoU ids e).map .uint

/-- An expression that is reduced if it is an integer: `uint_optimizer.rs:411-420`, `:512-519`, `:553-560`. -/
def uoZReduced (ids : Ids p) : ZExpr (ZMod p) → Option (ZExpr (ZMod p))
  | .uint e => do
    let e ← uoU ids e
    let e ← forceReduce e
    some (.uint e)
  | e => uoZ ids e

/-- `map(..).collect()` of a function that may panic. -/
def mapAll {α β : Type} (f : α → Option β) : List α → Option (List β)
  | [] => some []
  | a :: as => do
    let b ← f a
    let bs ← mapAll f as
    some (b :: bs)

/-- The registrations of a call, `uint_optimizer.rs:450-496`; the assertion that there is one assignee. The maximum is
computed as `T::from(2).pow(w) - T::from(1)`. -/
def registerEmbed (ids : Ids p) : Embed → List ZId → Option (Ids p)
  | .uFromBits w, [x] => some (ids.register x w ⟨2 ^ w - 1, .no⟩)
  | .uFromBits _, _ => none
  | _, _ => some ids

/-- The arguments of a call, `uint_optimizer.rs:498-541`. -/
def uoArgs (ids : Ids p) : Embed → List (ZExpr (ZMod p)) → Option (List (ZExpr (ZMod p)))
  | .uToBits _, args => mapAll (uoZReduced ids) args
  | _, args => mapAll (uoZ ids) args

section
/- `hf`: what folding the function of a hint does (`fold_assembly_assignment`, `zir/folder.rs:254-261`, calls `fold_function`
on it, which registers its parameters and definitions in the same table). Hint functions are abstract in this model. -/
variable (hf : Z → Ids p → Option (Z × Ids p))

/-- `fold_assembly_statement`, `zir/folder.rs:254-292`. -/
def uoAsm (ids : Ids p) : ZAsm (ZMod p) Z → Option (ZAsm (ZMod p) Z × Ids p)
  | .assignment xs f args => do
    let (f, ids) ← hf f ids
    some (.assignment xs f args, ids)
  | .constraint l r info => do
    let l ← uoF ids l
    let r ← uoF ids r
    some (.constraint l r info, ids)

/-- `fold_assembly_block`, `zir/folder.rs:400-410`. -/
def uoAsms (ids : Ids p) : List (ZAsm (ZMod p) Z) → Option (List (ZAsm (ZMod p) Z) × Ids p)
  | [] => some ([], ids)
  | s :: ss => do
    let (s, ids) ← uoAsm hf ids s
    let (ss, ids) ← uoAsms ids ss
    some (s :: ss, ids)

mutual
/-- `fold_statement`: `uint_optimizer.rs:406-567` and, for branches, assertions and assembly, `zir/folder.rs:340-410`. -/
def uoStmt (ids : Ids p) : ZStmt (ZMod p) Z → Option (ZStmt (ZMod p) Z × Ids p)
  | .ret es => do
    let es ← mapAll (uoZReduced ids) es
    some (.ret es, ids)
  | .definition x e => do
    let e ← uoZ ids e
    match e with
    | .uint i => do
      let i ← forceNoReduce i
      let m ← i.info
      some (.definition x (.uint i), ids.register x i.width m)
    | e => some (.definition x e, ids)
  | .ifElse c t e => do
    let c ← uoB ids c
    let (t, ids) ← uoStmts ids t
    let (e, ids) ← uoStmts ids e
    some (.ifElse c t e, ids)
  | .assertion e err => do
    let e ← uoB ids e
    some (.assertion e err, ids)
  | .multiDef xs embed g args => do
    let ids ← registerEmbed ids embed xs
    let args ← uoArgs ids embed args
    some (.multiDef xs embed g args, ids)
  | .log es => do
    let es ← mapAll (mapAll (uoZReduced ids)) es
    some (.log es, ids)
  | .assembly ss => do
    let (ss, ids) ← uoAsms hf ids ss
    some (.assembly ss, ids)
/-- A list of statements, folded in order. -/
def uoStmts (ids : Ids p) : List (ZStmt (ZMod p) Z) → Option (List (ZStmt (ZMod p) Z) × Ids p)
  | [] => some ([], ids)
  | s :: ss => do
    let (s, ids) ← uoStmt ids s
    let (ss, ids) ← uoStmts ids ss
    some (s :: ss, ids)
end

/-- `fold_parameter`, `uint_optimizer.rs:571-584`, on each parameter. -/
def registerParams (ids : Ids p) : List ZParam → Ids p
  | [] => ids
  | q :: qs => registerParams (match q.ty with
    | .uint w => ids.register q.id w (parameterMeta p w)
    | _ => ids) qs

/-- `UintOptimizer::optimize`, `uint_optimizer.rs:20-22`, `zir/folder.rs:664-691`. -/
def uintOptimize (f : ZFun (ZMod p) Z) : Option (ZFun (ZMod p) Z) := do
  let (body, _) ← uoStmts hf (registerParams (fun _ _ => none) f.params) f.body
  some ⟨f.params, body, f.returnCount⟩

end
end Zok.Uo
