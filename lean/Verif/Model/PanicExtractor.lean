import Verif.Model.FlattenerStmt

/-
`PanicExtractor`, `zokrates_analysis/src/panic_extractor.rs`: a fold over ZIR (`zokrates_ast/src/zir/folder.rs`) that
puts the failure modes of expressions into separate assertions in front of the statement. The buffer `panic_buffer`
is threaded through the fold. The hint functions of assembly blocks are abstract: `hx z b` is the folded hint `z` when the
buffer is `b` (`fold_function` of a hint drains the buffer into the first statement of the hint).
-/

namespace Zok
variable {p : ℕ} {Z : Type} [Fact p.Prime]

namespace Px

/-- `panic_buffer`, `panic_extractor.rs:14-17`. -/
abbrev Buf (p : ℕ) (Z : Type) := List (ZStmt (ZMod p) Z)

/-- `assert(!(d == 0))`, `panic_extractor.rs:76-89`; `DivisionByZero` is converted to `Inverse`
(`common/error.rs:36-49`). -/
def fieldDivGuard (d : FExpr (ZMod p)) : ZStmt (ZMod p) Z :=
  .assertion (.not (.fieldEq d (.value 0))) .inverse

/-- `assert(!(d == 0))` for integers of width `w`, `panic_extractor.rs:137-150`. -/
def uintDivGuard (w : ℕ) (d : UExpr (ZMod p)) : ZStmt (ZMod p) Z :=
  .assertion (.not (.uintEq d (.mk w none (.value 0)))) .inverse

/-- `2**safe_width`, `panic_extractor.rs:175-179`. -/
def ltOffset (p : ℕ) : ZMod p := 2 ^ (Fld.requiredBits p - 2)

/-- `2**(safe_width + 1)`, `panic_extractor.rs:180`. -/
def ltMax (p : ℕ) : ZMod p := 2 ^ (Fld.requiredBits p - 2 + 1)

/-- `assert(2**safe_width + (left - right) < 2**(safe_width + 1))`, `panic_extractor.rs:189-201`. -/
def ltGuardMax (l r : FExpr (ZMod p)) : ZStmt (ZMod p) Z :=
  .assertion (.fieldLt (.add (.value (ltOffset p)) (.sub l r)) (.value (ltMax p))) .incompleteDynamicRange

/-- `assert(!(right - left == 2**safe_width))`, `panic_extractor.rs:205-222`. -/
def ltGuardMin (l r : FExpr (ZMod p)) : ZStmt (ZMod p) Z :=
  .assertion (.not (.fieldEq (.sub r l) (.value (ltOffset p)))) .incompleteDynamicRange

/-- `matches!(e, FieldElementExpression::Value(_))`, `panic_extractor.rs:163-165`. -/
def isValueF : FExpr (ZMod p) → Bool
  | .value _ => true
  | _ => false

/-- The buffer after a conditional, `panic_extractor.rs:111-119`. -/
def condGuard (c : BExpr (ZMod p)) (pt pe : Buf p Z) (b : Buf p Z) : Buf p Z :=
  if pt.isEmpty && pe.isEmpty then b else b ++ [.ifElse c pt pe]

mutual
/-- `fold_field_expression`: `panic_extractor.rs:66-94` for divisions, `:96-124` for conditionals, `folder.rs:425-502` for
the rest. -/
def exF : FExpr (ZMod p) → Buf p Z → FExpr (ZMod p) × Buf p Z
  | .value n, b => (.value n, b)
  | .ident x, b => (.ident x, b)
  | .select es i, b =>
    let (es, b) := exFs es b
    let (i, b) := exU i b
    (.select es i, b)
  | .add l r, b =>
    let (l, b) := exF l b
    let (r, b) := exF r b
    (.add l r, b)
  | .sub l r, b =>
    let (l, b) := exF l b
    let (r, b) := exF r b
    (.sub l r, b)
  | .mult l r, b =>
    let (l, b) := exF l b
    let (r, b) := exF r b
    (.mult l r, b)
  | .div l r, b =>
    let (n, b) := exF l b
    let (d, b) := exF r b
    (.div n d, b ++ [fieldDivGuard d])
  | .pow l r, b =>
    let (l, b) := exF l b
    let (r, b) := exU r b
    (.pow l r, b)
  | .and l r, b =>
    let (l, b) := exF l b
    let (r, b) := exF r b
    (.and l r, b)
  | .or l r, b =>
    let (l, b) := exF l b
    let (r, b) := exF r b
    (.or l r, b)
  | .xor l r, b =>
    let (l, b) := exF l b
    let (r, b) := exF r b
    (.xor l r, b)
  | .leftShift l r, b =>
    let (l, b) := exF l b
    let (r, b) := exU r b
    (.leftShift l r, b)
  | .rightShift l r, b =>
    let (l, b) := exF l b
    let (r, b) := exU r b
    (.rightShift l r, b)
  | .cond c t e, b =>
    let (c, b) := exB c b
    let (t, pt) := exF t []
    let (e, pe) := exF e []
    (.cond c t e, condGuard c pt pe b)
/-- The elements of an array, `folder.rs:710-724`. -/
def exFs : List (FExpr (ZMod p)) → Buf p Z → List (FExpr (ZMod p)) × Buf p Z
  | [], b => ([], b)
  | e :: es, b =>
    let (e, b) := exF e b
    let (es, b) := exFs es b
    (e :: es, b)
/-- `fold_boolean_expression`: `panic_extractor.rs:157-236` for comparisons of field elements, `:96-124` for conditionals,
`folder.rs:504-575` for the rest. -/
def exB : BExpr (ZMod p) → Buf p Z → BExpr (ZMod p) × Buf p Z
  | .value n, b => (.value n, b)
  | .ident x, b => (.ident x, b)
  | .select es i, b =>
    let (es, b) := exBs es b
    let (i, b) := exU i b
    (.select es i, b)
  | .fieldLt l r, b =>
    if isValueF l || isValueF r then
      let (l, b) := exF l b
      let (r, b) := exF r b
      (.fieldLt l r, b)
    else
      let (l, b) := exF l b
      let (r, b) := exF r b
      (.fieldLt l r, b ++ [ltGuardMax l r] ++ [ltGuardMin l r])
  | .fieldLe l r, b =>
    let (l, b) := exF l b
    let (r, b) := exF r b
    (.fieldLe l r, b)
  | .fieldEq l r, b =>
    let (l, b) := exF l b
    let (r, b) := exF r b
    (.fieldEq l r, b)
  | .uintLt l r, b =>
    let (l, b) := exU l b
    let (r, b) := exU r b
    (.uintLt l r, b)
  | .uintLe l r, b =>
    let (l, b) := exU l b
    let (r, b) := exU r b
    (.uintLe l r, b)
  | .uintEq l r, b =>
    let (l, b) := exU l b
    let (r, b) := exU r b
    (.uintEq l r, b)
  | .boolEq l r, b =>
    let (l, b) := exB l b
    let (r, b) := exB r b
    (.boolEq l r, b)
  | .or l r, b =>
    let (l, b) := exB l b
    let (r, b) := exB r b
    (.or l r, b)
  | .and l r, b =>
    let (l, b) := exB l b
    let (r, b) := exB r b
    (.and l r, b)
  | .not e, b =>
    let (e, b) := exB e b
    (.not e, b)
  | .cond c t e, b =>
    let (c, b) := exB c b
    let (t, pt) := exB t []
    let (e, pe) := exB e []
    (.cond c t e, condGuard c pt pe b)
/-- The elements of an array, `folder.rs:710-724`. -/
def exBs : List (BExpr (ZMod p)) → Buf p Z → List (BExpr (ZMod p)) × Buf p Z
  | [], b => ([], b)
  | e :: es, b =>
    let (e, b) := exB e b
    let (es, b) := exBs es b
    (e :: es, b)
/-- `fold_uint_expression`, `folder.rs:577-594`: bitwidth and metadata are kept. -/
def exU : UExpr (ZMod p) → Buf p Z → UExpr (ZMod p) × Buf p Z
  | .mk w m i, b =>
    let (i, b) := exUI w i b
    (.mk w m i, b)
/-- The elements of an array, `folder.rs:710-724`. -/
def exUs : List (UExpr (ZMod p)) → Buf p Z → List (UExpr (ZMod p)) × Buf p Z
  | [], b => ([], b)
  | e :: es, b =>
    let (e, b) := exU e b
    let (es, b) := exUs es b
    (e :: es, b)
/-- `fold_uint_expression_cases`: `panic_extractor.rs:126-155` for divisions, `:96-124` for conditionals, `folder.rs:596-662`
for the rest (remainders included). -/
def exUI (w : ℕ) : UInner (ZMod p) → Buf p Z → UInner (ZMod p) × Buf p Z
  | .value n, b => (.value n, b)
  | .ident x, b => (.ident x, b)
  | .select es i, b =>
    let (es, b) := exUs es b
    let (i, b) := exU i b
    (.select es i, b)
  | .add l r, b =>
    let (l, b) := exU l b
    let (r, b) := exU r b
    (.add l r, b)
  | .sub l r, b =>
    let (l, b) := exU l b
    let (r, b) := exU r b
    (.sub l r, b)
  | .mult l r, b =>
    let (l, b) := exU l b
    let (r, b) := exU r b
    (.mult l r, b)
  | .div l r, b =>
    let (n, b) := exU l b
    let (d, b) := exU r b
    (.div n d, b ++ [uintDivGuard w d])
  | .rem l r, b =>
    let (l, b) := exU l b
    let (r, b) := exU r b
    (.rem l r, b)
  | .xor l r, b =>
    let (l, b) := exU l b
    let (r, b) := exU r b
    (.xor l r, b)
  | .and l r, b =>
    let (l, b) := exU l b
    let (r, b) := exU r b
    (.and l r, b)
  | .or l r, b =>
    let (l, b) := exU l b
    let (r, b) := exU r b
    (.or l r, b)
  | .leftShift l r, b =>
    let (l, b) := exU l b
    let (r, b) := exU r b
    (.leftShift l r, b)
  | .rightShift l r, b =>
    let (l, b) := exU l b
    let (r, b) := exU r b
    (.rightShift l r, b)
  | .not e, b =>
    let (e, b) := exU e b
    (.not e, b)
  | .cond c t e, b =>
    let (c, b) := exB c b
    let (t, pt) := exU t []
    let (e, pe) := exU e []
    (.cond c t e, condGuard c pt pe b)
end

/-- `fold_expression`, `folder.rs:181-187`. -/
def exZ : ZExpr (ZMod p) → Buf p Z → ZExpr (ZMod p) × Buf p Z
  | .field e, b =>
    let (e, b) := exF e b
    (.field e, b)
  | .bool e, b =>
    let (e, b) := exB e b
    (.bool e, b)
  | .uint e, b =>
    let (e, b) := exU e b
    (.uint e, b)

/-- `fold_expression` on each element of a vector. -/
def exZs : List (ZExpr (ZMod p)) → Buf p Z → List (ZExpr (ZMod p)) × Buf p Z
  | [], b => ([], b)
  | e :: es, b =>
    let (e, b) := exZ e b
    let (es, b) := exZs es b
    (e :: es, b)

/-- The expressions of a log statement, `folder.rs:387-398`. -/
def exZss : List (List (ZExpr (ZMod p))) → Buf p Z → List (List (ZExpr (ZMod p))) × Buf p Z
  | [], b => ([], b)
  | e :: es, b =>
    let (e, b) := exZs e b
    let (es, b) := exZss es b
    (e :: es, b)

/-- `fold_assembly_statement`, `folder.rs:254-291`. -/
def exAsm (hx : Z → Buf p Z → Z) : ZAsm (ZMod p) Z → Buf p Z → ZAsm (ZMod p) Z × Buf p Z
  | .assignment xs f args, b => (.assignment xs (hx f b) args, [])
  | .constraint l r info, b =>
    let (l, b) := exF l b
    let (r, b) := exF r b
    (.constraint l r info, b)

/-- The statements of an assembly block, `folder.rs:400-410`. -/
def exAsms (hx : Z → Buf p Z → Z) : List (ZAsm (ZMod p) Z) → Buf p Z → List (ZAsm (ZMod p) Z) × Buf p Z
  | [], b => ([], b)
  | s :: ss, b =>
    let (s, b) := exAsm hx s b
    let (ss, b) := exAsms hx ss b
    (s :: ss, b)

mutual
/-- `fold_statement`, `panic_extractor.rs:26-64`, `folder.rs:293-410`. The buffer is empty before and after. -/
def exStmt (hx : Z → Buf p Z → Z) : ZStmt (ZMod p) Z → List (ZStmt (ZMod p) Z)
  | .ret es =>
    let (es, b) := exZs es []
    b ++ [.ret es]
  | .definition x e =>
    let (e, b) := exZ e []
    b ++ [.definition x e]
  | .ifElse c t e =>
    let (c, b) := exB c []
    b ++ [.ifElse c (exStmts hx t) (exStmts hx e)]
  | .assertion e err =>
    let (e, b) := exB e []
    b ++ [.assertion e err]
  | .multiDef xs embed g args =>
    let (args, b) := exZs args []
    b ++ [.multiDef xs embed g args]
  | .log es =>
    let (es, b) := exZss es []
    b ++ [.log es]
  | .assembly ss =>
    let (ss, b) := exAsms hx ss []
    b ++ [.assembly ss]
/-- `flat_map(fold_statement)`. -/
def exStmts (hx : Z → Buf p Z → Z) : List (ZStmt (ZMod p) Z) → List (ZStmt (ZMod p) Z)
  | [] => []
  | s :: ss => exStmt hx s ++ exStmts hx ss
end

end Px

/-- `PanicExtractor::extract`, `panic_extractor.rs:19-23`, `folder.rs:664-691`. -/
def extractPanics (hx : Z → List (ZStmt (ZMod p) Z) → Z) (f : ZFun (ZMod p) Z) : ZFun (ZMod p) Z :=
  { f with body := Px.exStmts hx f.body }

end Zok
