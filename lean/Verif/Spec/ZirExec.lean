import Verif.Spec.ZirOk
import Verif.Spec.Bits
import Verif.Model.FlattenerStmt

/-
Specification: the meaning of ZIR statements and functions. `Exec O σ s r`: the statement `s` can take the state `σ` to
the outcome `r`, a new state or a `Fault`. Execution is eager: both branches of an `if` are executed, one after the
other. It is a relation because the values of assembly hints and of some bit decompositions are chosen by the prover:
`O` says which choices are allowed.
-/

namespace Zok
variable {p : ℕ} {Z : Type}

/-- The choices left to the prover: the outputs of a hint for the given inputs, and the bits of an unpacked field
element. -/
structure Oracle (p : ℕ) (Z : Type) where
  hint : Z → List (ZMod p) → List (ZMod p) → Prop
  unpack : ℕ → ZMod p → List Bool → Prop

/-- Everything the circuit cannot exclude: hints return anything; unpacking into `n` bits returns any `n` bits that are
a binary representation of an integer congruent to the field element. -/
def Oracle.any (p : ℕ) (Z : Type) : Oracle p Z where
  hint _ _ _ := True
  unpack n x bl := bl.length = n ∧ ((natBE bl : ℕ) : ZMod p) = x

/-- The encoding of a value as a field element. -/
def ZVal.enc : ZVal p → ZMod p
  | .field v => v
  | .bool b => boolF b
  | .uint _ n => (n : ZMod p)

/-- The state: the values of the variables, and the values returned. -/
structure ZState (p : ℕ) where
  env : ZEnv p
  outs : Option (List (ZVal p))

/-- Assign a variable. -/
def ZState.set (σ : ZState p) (x : ZId) (v : ZVal p) : ZState p :=
  { σ with env := fun y => if y = x then some v else σ.env y }

/-- Assign variables, one after the other. -/
def ZState.setAll (σ : ZState p) : List ZId → List (ZVal p) → ZState p
  | x :: xs, v :: vs => (σ.set x v).setAll xs vs
  | _, _ => σ

section
variable [Fact p.Prime]

/-- The value of an expression. -/
def evalZ (env : ZEnv p) : ZExpr (ZMod p) → Except Fault (ZVal p)
  | .field e => do
    let v ← evalF env e
    .ok (.field v)
  | .bool e => do
    let v ← evalB env e
    .ok (.bool v)
  | .uint e => do
    let v ← evalU env e
    .ok (.uint e.width v)

/-- The values of a list of expressions. -/
def evalZs (env : ZEnv p) : List (ZExpr (ZMod p)) → Except Fault (List (ZVal p))
  | [] => .ok []
  | e :: es => do
    let v ← evalZ env e
    let vs ← evalZs env es
    .ok (v :: vs)

/-- `c` is one of the conjuncts of `e`. -/
inductive Conjunct {F : Type} : BExpr F → BExpr F → Prop
  | self (e) : Conjunct e e
  | left {c l r} : Conjunct c l → Conjunct c (.and l r)
  | right {c l r} : Conjunct c r → Conjunct c (.and l r)

/-- The results of the embedded functions. -/
inductive EmbedRes (O : Oracle p Z) : Embed → List ℕ → List (ZVal p) → Except Fault (List (ZVal p)) → Prop
  | castBool (g b) : EmbedRes O .fieldToBoolUnsafe g [.field (boolF b)] (.ok [.bool b])
  | castFault (g x) : x ≠ 0 → x ≠ 1 → EmbedRes O .fieldToBoolUnsafe g [.field x] (.error .notBool)
  | toBits (g w n) : EmbedRes O (.uToBits w) g [.uint w n] (.ok ((bitsBE w n).map .bool))
  | fromBits (g bl) : EmbedRes O (.uFromBits bl.length) g (bl.map .bool) (.ok [.uint bl.length (natBE bl)])
  | bitArrayLe (al bl) : al.length = bl.length → EmbedRes O .bitArrayLe [al.length] (al.map .bool ++ bl.map .bool)
      (.ok [.bool (decide (natBE al ≤ natBE bl))])
  | unpack (n x bl) : O.unpack n x bl → EmbedRes O .unpack [n] [.field x] (.ok (bl.map .bool))

/-- The values of variables. -/
def evalIds (env : ZEnv p) : List ZId → Option (List (ZVal p))
  | [] => some []
  | x :: xs => match env x, evalIds env xs with
    | some v, some vs => some (v :: vs)
    | _, _ => none

/-- Execution of a statement of an assembly block. -/
inductive ExecAsm (O : Oracle p Z) : ZState p → ZAsm (ZMod p) Z → Except Fault (ZState p) → Prop
  | assignment {σ xs f args ins outs} : evalIds σ.env args = some ins → O.hint f (ins.map ZVal.enc) outs →
      outs.length = xs.length → ExecAsm O σ (.assignment xs f args) (.ok (σ.setAll xs (outs.map .field)))
  | ok {σ l r info v} : evalF σ.env l = .ok v → evalF σ.env r = .ok v → ExecAsm O σ (.constraint l r info) (.ok σ)
  | failed {σ l r info v w} : evalF σ.env l = .ok v → evalF σ.env r = .ok w → v ≠ w →
      ExecAsm O σ (.constraint l r info) (.error .assertionFailed)
  | faultL {σ l r info f} : evalF σ.env l = .error f → ExecAsm O σ (.constraint l r info) (.error f)
  | faultR {σ l r info v f} : evalF σ.env l = .ok v → evalF σ.env r = .error f →
      ExecAsm O σ (.constraint l r info) (.error f)

/-- Execution of the statements of an assembly block. -/
inductive ExecAsms (O : Oracle p Z) : ZState p → List (ZAsm (ZMod p) Z) → Except Fault (ZState p) → Prop
  | nil {σ} : ExecAsms O σ [] (.ok σ)
  | fault {σ s ss f} : ExecAsm O σ s (.error f) → ExecAsms O σ (s :: ss) (.error f)
  | cons {σ s ss σ' r} : ExecAsm O σ s (.ok σ') → ExecAsms O σ' ss r → ExecAsms O σ (s :: ss) r

mutual
/-- Execution of a statement. -/
inductive Exec (O : Oracle p Z) : ZState p → ZStmt (ZMod p) Z → Except Fault (ZState p) → Prop
  | ret {σ es vs} : evalZs σ.env es = .ok vs → Exec O σ (.ret es) (.ok { σ with outs := some vs })
  | retFault {σ es f} : evalZs σ.env es = .error f → Exec O σ (.ret es) (.error f)
  | definition {σ x e v} : evalZ σ.env e = .ok v → Exec O σ (.definition x e) (.ok (σ.set x v))
  | definitionFault {σ x e f} : evalZ σ.env e = .error f → Exec O σ (.definition x e) (.error f)
  | ifElse {σ c t e b σ' r} : evalB σ.env c = .ok b → ExecL O σ t (.ok σ') → ExecL O σ' e r →
      Exec O σ (.ifElse c t e) r
  | ifFault {σ c t e f} : evalB σ.env c = .error f → Exec O σ (.ifElse c t e) (.error f)
  | thenFault {σ c t e b f} : evalB σ.env c = .ok b → ExecL O σ t (.error f) → Exec O σ (.ifElse c t e) (.error f)
  | assertOk {σ e err} : evalB σ.env e = .ok true → Exec O σ (.assertion e err) (.ok σ)
  | assertFailed {σ e err} : evalB σ.env e = .ok false → Exec O σ (.assertion e err) (.error .assertionFailed)
  /-- the conjuncts of an assertion can be evaluated in any order -/
  | assertFault {σ e err c f} : Conjunct c e → evalB σ.env c = .error f → Exec O σ (.assertion e err) (.error f)
  | multiDef {σ xs embed g args vs rs} : evalZs σ.env args = .ok vs → EmbedRes O embed g vs (.ok rs) →
      rs.length = xs.length → Exec O σ (.multiDef xs embed g args) (.ok (σ.setAll xs rs))
  | embedFault {σ xs embed g args vs f} : evalZs σ.env args = .ok vs → EmbedRes O embed g vs (.error f) →
      Exec O σ (.multiDef xs embed g args) (.error f)
  | argsFault {σ xs embed g args f} : evalZs σ.env args = .error f → Exec O σ (.multiDef xs embed g args) (.error f)
  | log {σ es vs} : evalZs σ.env es.flatten = .ok vs → Exec O σ (.log es) (.ok σ)
  | logFault {σ es f} : evalZs σ.env es.flatten = .error f → Exec O σ (.log es) (.error f)
  | assembly {σ ss r} : ExecAsms O σ ss r → Exec O σ (.assembly ss) r
/-- Execution of a list of statements. -/
inductive ExecL (O : Oracle p Z) : ZState p → List (ZStmt (ZMod p) Z) → Except Fault (ZState p) → Prop
  | nil {σ} : ExecL O σ [] (.ok σ)
  | fault {σ s ss f} : Exec O σ s (.error f) → ExecL O σ (s :: ss) (.error f)
  | cons {σ s ss σ' r} : Exec O σ s (.ok σ') → ExecL O σ' ss r → ExecL O σ (s :: ss) r
end

/-- The value a field element decodes to as an argument of the given type, if it is well-typed: booleans are 0 and 1,
unsigned integers of width `w` are below `2^w`. -/
def decodeArg : ZType → ZMod p → Option (ZVal p)
  | .field, x => some (.field x)
  | .bool, x => if x = 0 then some (.bool false) else if x = 1 then some (.bool true) else none
  | .uint w, x => if x.val < 2 ^ w then some (.uint w x.val) else none

/-- The values of the arguments, if they are well-typed. -/
def decodeArgs : List ZParam → List (ZMod p) → Option (List (ZVal p))
  | [], [] => some []
  | q :: qs, x :: xs => match decodeArg q.ty x, decodeArgs qs xs with
    | some v, some vs => some (v :: vs)
    | _, _ => none
  | _, _ => none

/-- The initial state: the parameters have the given values. -/
def initState (f : ZFun (ZMod p) Z) (vs : List (ZVal p)) : ZState p :=
  (⟨fun _ => none, none⟩ : ZState p).setAll (f.params.map ZParam.id) vs

/-- The function can return `outs` on arguments with the field encodings `args`. -/
def Returns (O : Oracle p Z) (f : ZFun (ZMod p) Z) (args outs : List (ZMod p)) : Prop :=
  ∃ vs σ rs, decodeArgs f.params args = some vs ∧ ExecL O (initState f vs) f.body (.ok σ) ∧ σ.outs = some rs ∧
    rs.map ZVal.enc = outs

/-- The function can fail with the fault `e` on arguments with the field encodings `args`. -/
def Faults (O : Oracle p Z) (f : ZFun (ZMod p) Z) (args : List (ZMod p)) (e : Fault) : Prop :=
  ∃ vs, decodeArgs f.params args = some vs ∧ ExecL O (initState f vs) f.body (.error e)

end

/-! ### Well-formed statements -/

/-- Constants: literals (and accesses to an empty array, which always fail). -/
def UExpr.isConst {F : Type} : UExpr F → Bool
  | .mk _ _ (.value _) => true
  | .mk _ _ (.select [] _) => true
  | _ => false

/-- Comparisons of two constants are excluded from assertions: constant propagation removes them. -/
def ComparesConstants {F : Type} : BExpr F → Prop
  | .fieldLt l r => l.isConst = true ∧ r.isConst = true
  | .fieldLe l r => l.isConst = true ∧ r.isConst = true
  | .uintLt l r => l.isConst = true ∧ r.isConst = true
  | .uintLe l r => l.isConst = true ∧ r.isConst = true
  | _ => False

/-- Well-formed expressions. -/
def OkZ (Γ : Ctx) : ZExpr (ZMod p) → Prop
  | .field e => OkF Γ e
  | .bool e => OkB Γ e
  | .uint e => OkU Γ e

/-- An expression that is marked for reduction, if it is an integer. -/
def ZExpr.Reduced : ZExpr (ZMod p) → Prop
  | .uint e => e.Reduced
  | _ => True

/-- The kind of the value of an expression. -/
def ZExpr.kind : ZExpr (ZMod p) → Kind
  | .field _ => .field
  | .bool _ => .bool
  | .uint e => .uint e.width e.emax

/-- Extend a context. -/
def Ctx.set (Γ : Ctx) (x : ZId) (k : Kind) : Ctx := fun y => if y = x then some k else Γ y

/-- Extend a context, one variable after the other. -/
def Ctx.setAll (Γ : Ctx) : List ZId → List Kind → Ctx
  | x :: xs, k :: ks => (Γ.set x k).setAll xs ks
  | _, _ => Γ

/-- Well-typed calls of embedded functions, and the kinds of their results. -/
inductive OkEmbed (Γ : Ctx) : Embed → List ℕ → List (ZExpr (ZMod p)) → List Kind → Prop
  | cast {g e} : OkF Γ e → OkEmbed Γ .fieldToBoolUnsafe g [.field e] [.bool]
  | toBits {g w} {e : UExpr (ZMod p)} : OkU Γ e → e.width = w → e.Reduced →
      OkEmbed Γ (.uToBits w) g [.uint e] (List.replicate w .bool)
  | fromBits {g} {es : List (BExpr (ZMod p))} : OkBs Γ es → 1 ≤ es.length → 2 * es.length + 2 ≤ Fld.requiredBits p →
      OkEmbed Γ (.uFromBits es.length) g (es.map .bool) [.uint es.length (2 ^ es.length - 1)]
  | bitArrayLe {as bs : List (BExpr (ZMod p))} : OkBs Γ as → OkBs Γ bs → as.length = bs.length →
      as.length ≤ Fld.requiredBits p → OkEmbed Γ .bitArrayLe [as.length] (as.map .bool ++ bs.map .bool) [.bool]
  | unpack {n e} : OkF Γ e → OkEmbed Γ .unpack [n] [.field e] (List.replicate n .bool)

/-- Well-typed assembly statements. -/
inductive OkAsm : Ctx → ZAsm (ZMod p) Z → Ctx → Prop
  | assignment {Γ xs f args} : (∀ x ∈ args, Γ x = some .field ∨ Γ x = some .bool) →
      OkAsm Γ (.assignment xs f args) (Γ.setAll xs (xs.map fun _ => .field))
  | constraint {Γ l r info} : OkF Γ l → OkF Γ r → OkAsm Γ (.constraint l r info) Γ

/-- Well-typed assembly blocks. -/
inductive OkAsms : Ctx → List (ZAsm (ZMod p) Z) → Ctx → Prop
  | nil {Γ} : OkAsms Γ [] Γ
  | cons {Γ s Γ' ss Γ''} : OkAsm Γ s Γ' → OkAsms Γ' ss Γ'' → OkAsms Γ (s :: ss) Γ''

mutual
/-- Well-formed statements: `OkStmt Γ s Γ'` when `s` is well-formed in `Γ` and `Γ'` is the context after it. -/
inductive OkStmt : Ctx → ZStmt (ZMod p) Z → Ctx → Prop
  | ret {Γ es} : (∀ e ∈ es, OkZ Γ e ∧ e.Reduced) → OkStmt Γ (.ret es) Γ
  | definition {Γ x} {e : ZExpr (ZMod p)} : OkZ Γ e → OkStmt Γ (.definition x e) (Γ.set x e.kind)
  | ifElse {Γ c t e Γ' Γ''} : OkB Γ c → OkStmts Γ t Γ' → OkStmts Γ' e Γ'' → OkStmt Γ (.ifElse c t e) Γ''
  | assertion {Γ e err} : OkB Γ e → (∀ c, Conjunct c e → ¬ ComparesConstants c) → OkStmt Γ (.assertion e err) Γ
  /-- the assignees are new: the program is in static single assignment form -/
  | multiDef {Γ xs embed g args ks} : (∀ x ∈ xs, Γ x = none) → OkEmbed Γ embed g args ks →
      OkStmt Γ (.multiDef xs embed g args) (Γ.setAll xs ks)
  | log {Γ es} : (∀ e ∈ es.flatten, OkZ Γ e) → OkStmt Γ (.log es) Γ
  | assembly {Γ ss Γ'} : OkAsms Γ ss Γ' → OkStmt Γ (.assembly ss) Γ'
/-- Well-formed lists of statements. -/
inductive OkStmts : Ctx → List (ZStmt (ZMod p) Z) → Ctx → Prop
  | nil {Γ} : OkStmts Γ [] Γ
  | cons {Γ s Γ' ss Γ''} : OkStmt Γ s Γ' → OkStmts Γ' ss Γ'' → OkStmts Γ (s :: ss) Γ''
end

/-- The kind of a parameter. -/
def ZType.kind : ZType → Kind
  | .field => .field
  | .bool => .bool
  | .uint w => .uint w (2 ^ w - 1)

/-- Parameter types the field can hold. -/
def ZType.Ok (p : ℕ) : ZType → Prop
  | .uint w => 1 ≤ w ∧ 2 * w + 2 ≤ Fld.requiredBits p
  | _ => True

/-- Well-formed functions: the body ends with a return statement. -/
structure OkFun (f : ZFun (ZMod p) Z) : Prop where
  params : ∀ q ∈ f.params, q.ty.Ok p
  body : ∃ ss es Γ', f.body = ss ++ [.ret es] ∧ es.length = f.returnCount ∧
    OkStmts (Ctx.setAll (fun _ => none) (f.params.map ZParam.id) (f.params.map fun q => q.ty.kind)) f.body Γ'

end Zok
