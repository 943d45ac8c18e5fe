import Verif.Model.Flattener

/-
The flattener, continued: statements, embedded functions, parameters and programs (`zokrates_codegen/src/lib.rs`).
-/

namespace Zok

/-- `ZirFunction`, `zir/mod.rs`: parameters, statements and the number of outputs. -/
structure ZFun (F Z : Type _) where
  params : List ZParam
  body : List (ZStmt F Z)
  returnCount : ℕ

namespace Flt
variable {p : ℕ} {Z : Type} [Fact p.Prime]

/-- `flatten_expression`, `lib.rs:1216-1239`. -/
def flattenZ : ZExpr (ZMod p) → FlatM p Z (FlatU p)
  | .field e => do
    let f ← flattenF e
    pure (withField f)
  | .bool e => do
    let f ← flattenB e
    pure (withField f)
  | .uint e => flattenU e

/-- `flatten_expression(e).get_field_unchecked()` on each element. -/
def flattenZs : List (ZExpr (ZMod p)) → FlatM p Z (List (FlatExpr (ZMod p)))
  | [] => pure []
  | e :: es => do
    let u ← flattenZ e
    let f ← getField u
    let fs ← flattenZs es
    pure (f :: fs)

/-- The assertion on the arguments of an embedded function, `lib.rs:1026-1029`. `is_true` is `should_reduce == True`. -/
def assertArg : ZExpr (ZMod p) → FlatM p Z Unit
  | .uint e => do
    let m ← unwrap e.info
    assert (decide (m.shouldReduce = .yes))
  | _ => pure ()

/-- The arguments of an embedded function, `lib.rs:1023-1032`. -/
def flattenArgs : List (ZExpr (ZMod p)) → FlatM p Z (List (FlatU p))
  | [] => pure []
  | e :: es => do
    assertArg e
    let u ← flattenZ e
    let us ← flattenArgs es
    pure (u :: us)

/-- `get_field_unchecked` on each element. -/
def getFields : List (FlatU p) → FlatM p Z (List (FlatExpr (ZMod p)))
  | [] => pure []
  | u :: us => do
    let f ← getField u
    let fs ← getFields us
    pure (f :: fs)

/-- The constant bits of `BitArrayLe`, `lib.rs:1066-1073`. -/
def constBool : FlatExpr (ZMod p) → FlatM p Z Bool
  | .value n => if n = 1 then pure true else if n = 0 then pure false else panic
  | _ => panic

/-- `constBool` on each element. -/
def constBools : List (FlatExpr (ZMod p)) → FlatM p Z (List Bool)
  | [] => pure []
  | e :: es => do
    let b ← constBool e
    let bs ← constBools es
    pure (b :: bs)

/-- `unpack_to_bitwidth(n)` (`zokrates_ast/src/common/embed.rs:560-640`) instantiated by `flatten_embed_call_aux`
(`lib.rs:1119-1208`): the parameter is defined, the outputs of the directive and then the returned variables are new
symbols. -/
def unpackCall (n : ℕ) (params : List (FlatU p)) : FlatM p Z (List (FlatU p)) := do
  let fs ← getFields params
  let x ← (match fs with
    | f :: _ => define f
    | [] => panic)
  let os ← useSyms n
  emit (.directive os (.bits n) [.ident x])
  emitAll (os.reverse.map (fun o => bitness (.ident o) .bitness))
  emit (.condition (flatFromBits (os.map FlatExpr.ident)) (.mul (.ident x) (.value 1)) .sum)
  let rs ← useSyms n
  emitAll ((List.zip rs os).map (fun t => .definition t.1 (.ident t.2)))
  pure (rs.map (fun r => withField (.ident r)))

/-- `flatten_embed_call`, `lib.rs:1016-1117`. -/
def embedCall (embed : Embed) (generics : List ℕ) (args : List (ZExpr (ZMod p))) : FlatM p Z (List (FlatU p)) := do
  let params ← flattenArgs args
  match embed with
  | .fieldToBoolUnsafe => do
    let u ← unwrap params.getLast?
    pure [u]
  | .uToBits w => do
    let u ← unwrap params.getLast?
    let bits ← unwrap u.bits
    assert (bits.length = w)
    pure (bits.map withField)
  | .uFromBits w => do
    let bits ← getFields params
    assert (bits.length = w)
    pure [withBits bits]
  | .bitArrayLe => do
    let len ← unwrap generics.head?
    assert (len ≤ params.length)
    let es ← getFields (params.take len)
    let vars ← defineAll es
    let cs ← getFields (params.drop len)
    let cs ← constBools cs
    let conditions ← constantLeCheck (vars.map FlatExpr.ident) cs
    let r ← eqCheck (.value (conditions.length : ZMod p)) (sumFold conditions)
    pure [withField r]
  | .unpack => do
    let n ← unwrap generics.head?
    unpackCall n params

/-- `use_variable`, `lib.rs:2900-2905`. -/
def useVariable (x : ZId) : FlatM p Z Variable := fun st => some (Variable.new st.next,
  { st with next := st.next + 1, layout := fun y => if y = x then some (Variable.new st.next) else st.layout y })

/-- `use_variable_with_existing`, `lib.rs:2912-2918`. -/
def useExisting (x : ZId) (v : Variable) : FlatM p Z Unit := fun st =>
  some ((), { st with layout := fun y => if y = x then some v else st.layout y })

/-- The binding of a flattened right-hand side to a variable of the source, `lib.rs:2386-2398, 2724-2735`. -/
def bindVar (x : ZId) (f : FlatExpr (ZMod p)) : FlatM p Z Variable :=
  match f with
  | .ident v => do
    useExisting x v
    pure v
  | e => do
    let v ← useVariable x
    emit (.definition v e)
    pure v

/-- The binding of a list of right-hand sides, `lib.rs:2719-2736`. -/
def bindVars : List ZId → List (FlatU p) → FlatM p Z (List Variable)
  | x :: xs, u :: us => do
    let f ← getField u
    let v ← bindVar x f
    let vs ← bindVars xs us
    pure (v :: vs)
  | _, _ => pure []

/-- `use_variable` on each assignee, `lib.rs:2303-2307`. -/
def useVariables : List ZId → FlatM p Z (List Variable)
  | [] => pure []
  | x :: xs => do
    let v ← useVariable x
    let vs ← useVariables xs
    pure (v :: vs)

/-- `self.layout.get(..).unwrap()` on each argument, `lib.rs:2295-2301`. -/
def lookups : List ZId → FlatM p Z (List Variable)
  | [] => pure []
  | x :: xs => do
    let v ← lookup x
    let vs ← lookups xs
    pure (v :: vs)

/-- `identify_expression`, `lib.rs:2880-2893`: the same as `linearise`. -/
def identify (e : FlatExpr (ZMod p)) : FlatM p Z (FlatExpr (ZMod p)) := linearise e

/-- `flatten_equality_assertion`, `lib.rs:2843-2869`. -/
def equalityAssertion (lhs rhs : FlatExpr (ZMod p)) (err : RuntimeError) : FlatM p Z Unit :=
  match lhs, rhs with
  | .mul l r, z => product l r z
  | z, .mul l r => product l r z
  | x, z => do
    let z ← identify z
    let x ← identify x
    emit (.condition z (.mul x (.value 1)) err)
where
  product (l r z : FlatExpr (ZMod p)) : FlatM p Z Unit := do
    let z ← identify z
    let l ← identify l
    let r ← identify r
    emit (.condition z (.mul l r) err)

/-- `enforce_not_zero_assertion`, `lib.rs:2808-2834`. -/
def notZeroAssertion (x : FlatExpr (ZMod p)) : FlatM p Z Unit := do
  let v ← define x
  let inv ← useSym
  emit (.directive [inv] .div [.value 1, .ident v])
  emit (.condition (.value 1) (.mul (.ident inv) (.ident v)) .inverse)

/-- `enforce_naive_assertion`, `lib.rs:2774-2799`. -/
def naiveAssertion (e : BExpr (ZMod p)) (err : RuntimeError) : FlatM p Z Unit := do
  let f ← flattenB e
  if f.isLinear then emit (.condition f (.value 1) err) else emit (.condition (.value 1) f err)

/-- `FieldLt`/`FieldLe` assertions on flattened operands, `lib.rs:2434-2535`; `cst` is the check against a constant and
`dyn` the one for two variables. -/
def cmpAssertion (max : ZMod p) (cst : FlatExpr (ZMod p) → ZMod p → RuntimeError → FlatM p Z Unit)
    (dyn : FlatExpr (ZMod p) → FlatExpr (ZMod p) → FlatM p Z (FlatExpr (ZMod p)))
    (lhs rhs : FlatExpr (ZMod p)) (err : RuntimeError) : FlatM p Z Unit :=
  match lhs, rhs with
  | e, .value c => cst e c err
  | .value c, e => cst (.sub (.value max) e) (max - c) err
  | l, r => do
    let e ← dyn l r
    emit (.condition e (.value 1) err)

/-- The operands of an assertion on unsigned integers. -/
def twoUFields (l r : UExpr (ZMod p)) : FlatM p Z (FlatExpr (ZMod p) × FlatExpr (ZMod p)) := do
  let a ← flattenU l
  let a ← getField a
  let b ← flattenU r
  let b ← getField b
  pure (a, b)

/-- An assertion whose expression is not a conjunction, `lib.rs:2418-2701`. -/
def assertion (e : BExpr (ZMod p)) (err : RuntimeError) : FlatM p Z Unit :=
  match e with
  | .fieldEq l r => do
    let a ← flattenF l
    let b ← flattenF r
    equalityAssertion a b err
  | .fieldLt l r => do
    let a ← flattenF l
    let b ← flattenF r
    cmpAssertion (Fld.maxValue p) enforceConstantLt
      (fun a b => do enforceSafe a b; ltCheck a b (Fld.requiredBits p - 2)) a b err
  | .fieldLe l r => do
    let a ← flattenF l
    let b ← flattenF r
    cmpAssertion (Fld.maxValue p) enforceConstantLe
      (fun a b => do enforceSafe a b; leCheck a b (Fld.requiredBits p - 2)) a b err
  | .uintLt l r => do
    let (a, b) ← twoUFields l r
    cmpAssertion (2 ^ l.width - 1) enforceConstantLt (fun a b => ltCheck a b l.width) a b err
  | .uintLe l r => do
    let (a, b) ← twoUFields l r
    cmpAssertion (2 ^ l.width - 1) enforceConstantLe (fun a b => leCheck a b l.width) a b err
  | .uintEq l r => do
    let (a, b) ← twoUFields l r
    equalityAssertion a b err
  | .boolEq l r => do
    let a ← flattenB l
    let b ← flattenB r
    equalityAssertion a b err
  | .not (.uintEq l r) => match l.inner, r.inner with
    | .value 0, _ => do
      let u ← flattenU r
      let x ← getField u
      notZeroAssertion x
    | _, .value 0 => do
      let u ← flattenU l
      let x ← getField u
      notZeroAssertion x
    | _, _ => naiveAssertion (.not (.uintEq l r)) err
  | .not (.fieldEq l r) =>
    if isZero l then do
      let x ← flattenF r
      notZeroAssertion x
    else if isZero r then do
      let x ← flattenF l
      notZeroAssertion x
    else naiveAssertion (.not (.fieldEq l r)) err
  | e => naiveAssertion e err
where
  /-- the literal zero -/
  isZero : FExpr (ZMod p) → Bool
    | .value n => decide (n = 0)
    | _ => false

/-- The order in which `into_conjunction_iterator` (`zir/mod.rs:847`, `zokrates_ast/src/common/mod.rs`,
`ConjunctionIterator`) yields the conjuncts: the last one first. -/
def conjuncts : BExpr (ZMod p) → List (BExpr (ZMod p))
  | .and l r => conjuncts r ++ conjuncts l
  | e => [e]

/-- Assertions of all conjuncts, `lib.rs:2410-2417`. -/
def assertions (err : RuntimeError) : List (BExpr (ZMod p)) → FlatM p Z Unit
  | [] => pure ()
  | e :: es => do
    assertion e err
    assertions err es

/-- `flatten_assembly_statement`, `lib.rs:2281-2326`. -/
def flattenAsm : ZAsm (ZMod p) Z → FlatM p Z Unit
  | .assignment assignees f args => do
    let ins ← lookups args
    let outs ← useVariables assignees
    emit (.directive outs (.zir f) (ins.map FlatExpr.ident))
  | .constraint l r info => do
    let a ← flattenF l
    let b ← flattenF r
    emit (.condition a b (.sourceAssemblyConstraint info))

/-- `flatten_assembly_statement` on each statement of a block. -/
def flattenAsms : List (ZAsm (ZMod p) Z) → FlatM p Z Unit
  | [] => pure ()
  | s :: ss => do
    flattenAsm s
    flattenAsms ss

/-- Run an action with an empty buffer and push the buffer as a block, `lib.rs:2366-2375`. -/
def inBlock (m : FlatM p Z Unit) : FlatM p Z Unit := fun st =>
  match m { st with out := [] } with
  | none => none
  | some (_, st') => some ((), { st' with out := st.out ++ [.block st'.out] })

/-- `Log`, `lib.rs:2751-2768`. -/
def flattenLog : List (List (ZExpr (ZMod p))) → FlatM p Z (List (List (FlatExpr (ZMod p))))
  | [] => pure []
  | es :: rest => do
    let fs ← flattenZs es
    let r ← flattenLog rest
    pure (fs :: r)

/-- The definitions of the outputs, `lib.rs:2357-2362`. -/
def outputDefs (fs : List (FlatExpr (ZMod p))) : List (FlatStmt (ZMod p) Z) :=
  fs.zipIdx.map (fun t => .definition (Variable.pub t.2) t.1)

mutual
/-- `flatten_statement`, `lib.rs:2333-2771`. -/
def flattenStmt : ZStmt (ZMod p) Z → FlatM p Z Unit
  | .ret es => do
    let fs ← flattenZs es
    emitAll (outputDefs fs)
  | .assembly ss => inBlock (flattenAsms ss)
  | .ifElse c t e => do
    let f ← flattenB c
    let _ ← newDef f
    flattenStmts t
    flattenStmts e
  | .definition x e => do
    let rhs ← flattenZ e
    let f ← getField rhs
    let v ← bindVar x f
    match rhs.bits with
    | some bits => setCache (.ident v) ⟨bits, rhs.exact⟩
    | none => pure ()
  | .assertion e err => assertions err (conjuncts e)
  | .multiDef xs embed generics args => do
    let rhs ← embedCall embed generics args
    assert (xs.length = rhs.length)
    let vs ← bindVars xs rhs
    match embed with
    | .uFromBits _ => do
      let bits ← flattenZs args
      let v ← unwrap vs.head?
      setCache (.ident v) ⟨bits, true⟩
    | _ => pure ()
  | .log es => do
    let fs ← flattenLog es
    emit (.log fs)
/-- `flatten_statement` on each statement. -/
def flattenStmts : List (ZStmt (ZMod p) Z) → FlatM p Z Unit
  | [] => pure ()
  | s :: ss => do
    flattenStmt s
    flattenStmts ss
end

/-- `use_parameter`, `lib.rs:2920-2958`. -/
def useParameter (q : ZParam) : FlatM p Z Parameter := do
  let v ← useVariable q.id
  (match q.ty with
    | .uint w => do
      let _ ← getBits (withField (.ident v)) w w .sum
      pure ()
    | .bool => emit (bitness (.ident v) .argumentBitness)
    | .field => pure ())
  pure ⟨v, q.priv⟩

/-- `use_parameter` on each parameter. -/
def useParameters : List ZParam → FlatM p Z (List Parameter)
  | [] => pure []
  | q :: qs => do
    let a ← useParameter q
    let as ← useParameters qs
    pure (a :: as)

/-- `from_program_and_config` and the iterator it returns, `lib.rs:82-137`, run to the end. -/
def flattenFun (f : ZFun (ZMod p) Z) : FlatM p Z (List Parameter) := do
  let args ← useParameters f.params
  flattenStmts f.body
  pure args

end Flt

/-- `from_program_and_config`: the arguments and the flat statements of a program, `none` if the flattener panics. The
last component is the ghost flag `clash`. -/
def fromProgram {p : ℕ} {Z : Type} [Fact p.Prime] (f : ZFun (ZMod p) Z) :
    Option (List Parameter × List (FlatStmt (ZMod p) Z) × Bool) :=
  (Flt.flattenFun f (FlState.init p Z)).map (fun t => (t.1, t.2.out, t.2.clash))

end Zok
