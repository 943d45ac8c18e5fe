import Verif.Model.Zir
import Verif.Model.Flat
import Verif.Model.Interp

/-
The flattener: `zokrates_codegen/src/lib.rs`. Rust panics (`unwrap`, `assert!`, `unreachable!`) are `none`.
`HashMap`s are functions. Spans are dropped. The statements are pushed at the end of one list.

Ghost state. Two flags are added to the state of the code; the code does not have them, and the model only writes them:
no branch of the model depends on them. `exact` records, for a cached or attached list of bits, whether it is the whole
decomposition of the value or only its low-order part; `clash` records that `get_bits_unchecked` answered a request from
a cache entry that cannot answer it faithfully (see `getBits`).
-/

namespace Zok

/-- An entry of `bits_cache`, `lib.rs:136-137`, with the ghost flag `exact`. -/
structure CacheEntry (p : ℕ) where
  bits : List (FlatExpr (ZMod p))
  exact : Bool

/-- `struct Flattener`, `lib.rs:128-138`, with the buffer of flattened statements, and the ghost flag `clash`. -/
structure FlState (p : ℕ) (Z : Type) where
  next : ℕ
  layout : ZId → Option Variable
  cache : FlatExpr (ZMod p) → Option (CacheEntry p)
  out : List (FlatStmt (ZMod p) Z)
  clash : Bool

/-- `Flattener::default()`. -/
def FlState.init (p : ℕ) (Z : Type) : FlState p Z := ⟨0, fun _ => none, fun _ => none, [], false⟩

/-- `struct FlatUExpression`, `lib.rs:204-208`, with the ghost flag `exact`. -/
structure FlatU (p : ℕ) where
  field : Option (FlatExpr (ZMod p))
  bits : Option (List (FlatExpr (ZMod p)))
  exact : Bool := true

/-- Flattening actions: they update the state or panic. -/
abbrev FlatM (p : ℕ) (Z : Type) := StateT (FlState p Z) Option

namespace Flt
variable {p : ℕ} {Z : Type} [Fact p.Prime]

/-- A Rust panic. -/
def panic {α : Type} : FlatM p Z α := fun _ => none

/-- `assert!`. -/
def assert (b : Bool) : FlatM p Z Unit := if b then pure () else panic

/-- `Option::unwrap`. -/
def unwrap {α : Type} : Option α → FlatM p Z α
  | some a => pure a
  | none => panic

/-- `statements_flattened.push_back(s)`, `lib.rs:47-49`. -/
def emit (s : FlatStmt (ZMod p) Z) : FlatM p Z Unit := fun st => some ((), { st with out := st.out ++ [s] })

/-- `statements_flattened.extend(ss)`, `lib.rs:55-57`. -/
def emitAll (ss : List (FlatStmt (ZMod p) Z)) : FlatM p Z Unit := fun st => some ((), { st with out := st.out ++ ss })

/-- `use_sym`, `lib.rs:2960-2970`. -/
def useSym : FlatM p Z Variable := fun st => some (Variable.new st.next, { st with next := st.next + 1 })

/-- `n` calls of `use_sym`. -/
def useSyms : ℕ → FlatM p Z (List Variable)
  | 0 => pure []
  | n + 1 => do
    let v ← useSym
    let vs ← useSyms n
    pure (v :: vs)

/-- `self.layout.get(x).unwrap()`. -/
def lookup (x : ZId) : FlatM p Z Variable := fun st => match st.layout x with
  | some v => some (v, st)
  | none => none

/-- `self.bits_cache.get(e)`. -/
def getCache (e : FlatExpr (ZMod p)) : FlatM p Z (Option (CacheEntry p)) := fun st => some (st.cache e, st)

/-- `self.bits_cache.insert(e, bits)`. -/
def setCache (e : FlatExpr (ZMod p)) (c : CacheEntry p) : FlatM p Z Unit := fun st =>
  some ((), { st with cache := fun e' => if e' = e then some c else st.cache e' })

/-- Ghost: raise the `clash` flag if `b`. -/
def raise (b : Bool) : FlatM p Z Unit := fun st => some ((), { st with clash := st.clash || b })

/-- `define`, `lib.rs:267-285`. -/
def define (e : FlatExpr (ZMod p)) : FlatM p Z Variable :=
  match e with
  | .ident v => pure v
  | e => do
    let r ← useSym
    emit (.definition r e)
    pure r

/-- `define` on each element of a list. -/
def defineAll : List (FlatExpr (ZMod p)) → FlatM p Z (List Variable)
  | [] => pure []
  | e :: es => do
    let v ← define e
    let vs ← defineAll es
    pure (v :: vs)

/-- A new symbol constrained to be `e`, unless `e` is linear: the pattern `if e.is_linear() { e } else { .. }` of
`lib.rs:1417-1430` and elsewhere, and `identify_expression`, `lib.rs:2880-2893`. -/
def linearise (e : FlatExpr (ZMod p)) : FlatM p Z (FlatExpr (ZMod p)) :=
  if e.isLinear then pure e
  else do
    let r ← useSym
    emit (.definition r e)
    pure (.ident r)

/-- A new symbol constrained to be `e`. -/
def newDef (e : FlatExpr (ZMod p)) : FlatM p Z Variable := do
  let r ← useSym
  emit (.definition r e)
  pure r

/-- `fold(FlatExpression::from(T::zero()), |acc, e| FlatExpression::add(acc, e))`. -/
def sumFold (es : List (FlatExpr (ZMod p))) : FlatExpr (ZMod p) := es.foldl .add (.value 0)

/-- The condition `x == x * x`. -/
def bitness (x : FlatExpr (ZMod p)) (err : RuntimeError) : FlatStmt (ZMod p) Z := .condition x (.mul x x) err

/-- The main loop of `constant_le_check`, `lib.rs:364-406`; an element is `a[i]`, `b[i]`, `is_not_smaller_run[i]`,
`size_unknown[i]`. -/
def leLoop : List (FlatExpr (ZMod p) × Bool × Variable × Variable) → FlatM p Z (List (FlatExpr (ZMod p)))
  | [] => pure []
  | (a, true, nsr, su) :: rest => do
    emit (.definition nsr a)
    (match rest with
      | (_, _, _, su') :: _ => emit (.definition su' (.mul (.ident su) (.ident nsr)))
      | [] => pure ())
    leLoop rest
  | (a, false, _, su) :: rest => do
    (match rest with
      | (_, _, _, su') :: _ => emit (.definition su' (.ident su))
      | [] => pure ())
    let orLeft := .sub (.value 1) (.ident su)
    let orRight := .sub (.value 1) a
    let andName ← useSym
    emit (.definition andName (.mul orLeft orRight))
    let res ← leLoop rest
    pure (.sub (.add orLeft orRight) (.ident andName) :: res)

/-- The symbols of `constant_le_check`, `lib.rs:352-355`. -/
def leSyms : ℕ → FlatM p Z (List (Variable × Variable))
  | 0 => pure []
  | n + 1 => do
    let x ← useSym
    let y ← useSym
    let r ← leSyms n
    pure ((x, y) :: r)

/-- `constant_le_check`, `lib.rs:318-409`. -/
def constantLeCheck (a : List (FlatExpr (ZMod p))) (b : List Bool) : FlatM p Z (List (FlatExpr (ZMod p))) := do
  assert (a.length = b.length)
  if b.all id then do
    let ids ← defineAll a
    emitAll (ids.map (fun v => bitness (.ident v) .bitness))
    pure []
  else do
    let syms ← leSyms b.length
    (match syms with
      | (_, su) :: _ => emit (.definition su (.value 1))
      | [] => panic)
    leLoop (List.zip a (List.zip b syms))

/-- `eq_check`, `lib.rs:421-466`. -/
def eqCheck (left right : FlatExpr (ZMod p)) : FlatM p Z (FlatExpr (ZMod p)) := do
  let l ← define left
  let r ← define right
  let x : FlatExpr (ZMod p) := .sub (.ident l) (.ident r)
  let y ← useSym
  let m ← useSym
  emit (.directive [y, m] .conditionEq [x])
  emit (.condition (.ident y) (.mul x (.ident m)) .equal)
  let res : FlatExpr (ZMod p) := .sub (.value 1) (.ident y)
  emit (.condition (.value 0) (.mul res x) .equal)
  pure res

/-- `enforce_constant_le_check_bits`, `lib.rs:476-500`. -/
def enforceLeBits (a : List (FlatExpr (ZMod p))) (c : List Bool) (err : RuntimeError) : FlatM p Z Unit := do
  let conditions ← constantLeCheck a c
  emit (.condition (.value 0) (.sub (sumFold conditions) (.value (conditions.length : ZMod p))) err)

/-- The bits of a constant, `lib.rs:1916-1926`: the result of the `Bits(to)` solver. -/
def constBits (n : ℕ) (x : ZMod p) : List (ZMod p) :=
  let bs := Fld.toBitsBe x
  let bs := bs.drop (bs.length - n)
  (List.replicate (n - bs.length) false ++ bs).map boolF

/-- The answer of `get_bits_unchecked` from a cache entry, `lib.rs:1937-1961`, for a request of `tgt` bits of a value of
`from_` bits.

Ghost: the answer is faithful when the entry is the whole decomposition, or when its low-order part of exactly the
requested width is requested (`from_ > tgt = length`); and an entry that is longer than requested is only faithful when
the request is for the whole value (`from_ ≤ tgt`), because the dropped bits are constrained to vanish. -/
def cachedBits (entry : CacheEntry p) (from_ tgt : ℕ) (err : RuntimeError) :
    FlatM p Z (List (FlatExpr (ZMod p))) := do
  let dropped := entry.bits.take (entry.bits.length - tgt)
  let kept := entry.bits.drop (entry.bits.length - tgt)
  emit (.condition (.value 0) (sumFold dropped) err)
  raise ((!entry.exact && !(decide (tgt = entry.bits.length) && decide (tgt < from_))) ||
    (decide (tgt < entry.bits.length) && decide (tgt < from_)))
  pure (List.replicate (tgt - kept.length) (.value 0) ++ kept)

/-- A new decomposition in `get_bits_unchecked`, `lib.rs:1962-2001`. -/
def freshBits (f : FlatExpr (ZMod p)) (from_ tgt : ℕ) (err : RuntimeError) :
    FlatM p Z (List (FlatExpr (ZMod p))) := do
  let vs ← useSyms from_
  emit (.directive vs (.bits from_) [f])
  let bits := vs.map FlatExpr.ident
  emitAll (bits.map (fun b => bitness b .bitness))
  let sum := flatFromBits bits
  emit (.condition f sum err)
  let kept := bits.drop (from_ - tgt)
  setCache f ⟨kept, decide (from_ ≤ tgt)⟩
  setCache sum ⟨kept, decide (from_ ≤ tgt)⟩
  pure kept

/-- `get_bits_unchecked`, `lib.rs:1905-2008`. -/
def getBits (e : FlatU p) (from_ tgt : ℕ) (err : RuntimeError) : FlatM p Z (List (FlatExpr (ZMod p))) := do
  assert (from_ ≤ Fld.requiredBits p)
  assert (tgt ≤ Fld.requiredBits p)
  match e.field with
  | some (.value x) => do
    let bits := (constBits tgt x).map FlatExpr.value
    setCache (.value x) ⟨bits, decide (x.val < 2 ^ tgt)⟩
    pure bits
  | field => match e.bits with
    | some bs => pure bs
    | none => do
      let f ← unwrap field
      match ← getCache f with
      | some entry => cachedBits entry (max from_ tgt) tgt err
      | none => freshBits f (max from_ tgt) tgt err

/-- `FlatUExpression::with_field`. -/
def withField (e : FlatExpr (ZMod p)) : FlatU p := ⟨some e, none, true⟩

/-- `FlatUExpression::with_bits`. -/
def withBits (bs : List (FlatExpr (ZMod p))) : FlatU p := ⟨none, some bs, true⟩

/-- `get_field_unchecked`, `lib.rs:252-263`. -/
def getField (e : FlatU p) : FlatM p Z (FlatExpr (ZMod p)) :=
  match e.field with
  | some f => pure f
  | none => match e.bits with
    | some bs => pure (flatFromBits bs)
    | none => panic

/-- `enforce_constant_le_check`, `lib.rs:509-540`. -/
def enforceConstantLe (e : FlatExpr (ZMod p)) (c : ZMod p) (err : RuntimeError) : FlatM p Z Unit := do
  let w := Fld.bits c
  let bits ← getBits (withField e) w w err
  enforceLeBits bits ((Fld.toBitsBe c).drop (Fld.requiredBits p - w)) err

/-- `enforce_constant_lt_check`, `lib.rs:549-566`. -/
def enforceConstantLt (e : FlatExpr (ZMod p)) (c : ZMod p) (err : RuntimeError) : FlatM p Z Unit :=
  if c = 0 then emit (.condition (.value 0) (.value 1) err)
  else enforceConstantLe e (c - 1) err

/-- `constant_field_le_check`, `lib.rs:667-706`. -/
def constantFieldLe (e : FlatExpr (ZMod p)) (c : ZMod p) : FlatM p Z (FlatExpr (ZMod p)) := do
  let w := Fld.requiredBits p
  let bits ← getBits (withField e) w w .constantLtSum
  enforceLeBits bits (Fld.toBitsBe (Fld.maxValue p)) .le
  let conditions ← constantLeCheck bits (Fld.toBitsBe c)
  eqCheck (.value (conditions.length : ZMod p)) (sumFold conditions)

/-- `constant_lt_check`, `lib.rs:643-655`. -/
def constantLt (e : FlatExpr (ZMod p)) (c : ZMod p) : FlatM p Z (FlatExpr (ZMod p)) :=
  if c = 0 then pure (.value 0) else constantFieldLe e (c - 1)

/-- The dynamic case of `lt_check`, `lib.rs:753-779`. -/
def ltDynamic (lhs rhs : FlatExpr (ZMod p)) (w : ℕ) : FlatM p Z (FlatExpr (ZMod p)) := do
  let l ← define lhs
  let r ← define rhs
  let shifted : FlatExpr (ZMod p) := .add (.value (2 ^ w)) (.sub (.ident l) (.ident r))
  let bits ← getBits (withField shifted) (w + 1) (w + 1) .sum
  match bits with
  | b :: _ => pure (.sub (.value 1) b)
  | [] => panic

/-- `lt_check`, `lib.rs:734-781`. -/
def ltCheck (lhs rhs : FlatExpr (ZMod p)) (w : ℕ) : FlatM p Z (FlatExpr (ZMod p)) :=
  match lhs, rhs with
  | x, .value c => constantLt x c
  | .value c, x => constantLt (.sub (.value (Fld.maxValue p)) x) (Fld.maxValue p - c)
  | l, r => ltDynamic l r w

/-- `le_check`, `lib.rs:709-731`. -/
def leCheck (lhs rhs : FlatExpr (ZMod p)) (w : ℕ) : FlatM p Z (FlatExpr (ZMod p)) := do
  let eq ← eqCheck lhs rhs
  let lt ← ltCheck lhs rhs w
  pure (.add eq lt)

/-- The two range checks before a dynamic field comparison, `lib.rs:810-828, 2451-2471`. -/
def enforceSafe (lhs rhs : FlatExpr (ZMod p)) : FlatM p Z Unit := do
  let safeMax : ZMod p := 2 ^ (Fld.requiredBits p - 2)
  enforceConstantLt lhs safeMax .incompleteDynamicRange
  enforceConstantLt rhs safeMax .incompleteDynamicRange

/-- `BooleanExpression::FieldLt` on flattened operands, `lib.rs:799-832`. -/
def fieldLtCheck (lhs rhs : FlatExpr (ZMod p)) : FlatM p Z (FlatExpr (ZMod p)) :=
  match lhs, rhs with
  | e, .value c => constantLt e c
  | .value c, e => constantLt (.sub (.value (Fld.maxValue p)) e) (Fld.maxValue p - c)
  | l, r => do
    enforceSafe l r
    ltCheck l r (Fld.requiredBits p - 2)

/-- `flatten_conditional_expression`, `lib.rs:578-632`, given the actions flattening its parts. -/
def conditional (c t e : FlatM p Z (FlatExpr (ZMod p))) : FlatM p Z (FlatU p) := do
  let c ← c
  let cId ← newDef c
  let t ← t
  let e ← e
  let tId ← newDef t
  let eId ← newDef e
  let t0 ← newDef (.mul (.ident cId) (.ident tId))
  let t1 ← newDef (.mul (.sub (.value 1) (.ident cId)) (.ident eId))
  let res ← newDef (.add (.ident t0) (.ident t1))
  pure (withField (.ident res))

/-- The fold of `flatten_select_expression`, `lib.rs:2045-2064`. -/
def selFold : List (FlatExpr (ZMod p) × FlatExpr (ZMod p)) → FlatExpr (ZMod p) → FlatExpr (ZMod p) →
    FlatM p Z (FlatExpr (ZMod p) × FlatExpr (ZMod p))
  | [], rc, res => pure (rc, res)
  | (c, e) :: rest, rc, res => do
    let v ← newDef (.mul c e)
    selFold rest (.add rc c) (.add res (.ident v))

/-- The end of `flatten_select_expression`, `lib.rs:2045-2072`. -/
def selFinish (l : List (FlatExpr (ZMod p) × FlatExpr (ZMod p))) : FlatM p Z (FlatU p) := do
  let (rc, res) ← selFold l (.value 0) (.value 0)
  emit (.condition rc (.value 1) .selectRangeCheck)
  pure (withField res)

/-- The field of a reduced expression, `lib.rs:1861-1877`: the left fold of `2^(w - i - 1) * bit`. -/
def foldBits (w : ℕ) (bits : List (FlatExpr (ZMod p))) : FlatExpr (ZMod p) :=
  bits.zipIdx.foldl (fun acc t => .add acc (.mul (.value (2 ^ (w - t.2 - 1))) t.1)) (.value 0)

/-- The reduction at the end of `flatten_uint_expression`, `lib.rs:1850-1885`. -/
def uTail (w : ℕ) (max : ZMod p) (shouldReduce : Bool) (res : FlatU p) : FlatM p Z (FlatU p) :=
  if shouldReduce then do
    let actual := Fld.bits max
    let bits ← getBits res actual w .sum
    if w < actual then pure ⟨some (foldBits w bits), some bits, true⟩
    else do
      let f ← getField res
      pure ⟨some f, some bits, true⟩
  else pure res

/-- `metadata.unwrap()` and `should_reduce.to_bool()`, `lib.rs:1398-1408`. -/
def readInfo (m : Option (UMeta (ZMod p))) : FlatM p Z (ZMod p × Bool) := do
  let m ← unwrap m
  let b ← unwrap m.shouldReduce.toBool?
  pure (m.max, b)

/-- `assert!(e.metadata.as_ref().unwrap().should_reduce.to_bool())`, `lib.rs:876-877`. -/
def assertReduced (m : Option (UMeta (ZMod p))) : FlatM p Z Unit := do
  let (_, b) ← readInfo m
  assert b

/-- `UintEq` on operands given by their metadata and flattening actions, `lib.rs:865-888`. -/
def uintEqCheck (ml : Option (UMeta (ZMod p))) (l : FlatM p Z (FlatU p)) (mr : Option (UMeta (ZMod p)))
    (r : FlatM p Z (FlatU p)) : FlatM p Z (FlatExpr (ZMod p)) := do
  assertReduced ml
  assertReduced mr
  let a ← l
  let a ← getField a
  let b ← r
  let b ← getField b
  eqCheck a b

/-- `UintLt`, `lib.rs:902-921`. -/
def uintLtCheck (w : ℕ) (ml : Option (UMeta (ZMod p))) (l : FlatM p Z (FlatU p)) (mr : Option (UMeta (ZMod p)))
    (r : FlatM p Z (FlatU p)) : FlatM p Z (FlatExpr (ZMod p)) := do
  assertReduced ml
  assertReduced mr
  let a ← l
  let a ← getField a
  let b ← r
  let b ← getField b
  ltCheck a b w

/-- The condition for position `i` of a selection, `lib.rs:2024-2039`: `uint_eq(i, index)` where the constant `i` has
width 32, metadata `max = i` and is reduced. -/
def selCond (mi : Option (UMeta (ZMod p))) (idx : FlatM p Z (FlatU p)) (i : ℕ) : FlatM p Z (FlatExpr (ZMod p)) :=
  uintEqCheck (some ⟨(i : ZMod p), .yes⟩) (uTail 32 (i : ZMod p) true (withField (.value (i : ZMod p)))) mi idx

/-- Powers by repeated squaring, `lib.rs:2208-2232`: the first element is `prev`, each next one its square. The list
argument is the rest of the exponent's bits. -/
def powSquares : List Bool → FlatExpr (ZMod p) → FlatM p Z (List (FlatExpr (ZMod p)))
  | [], _ => pure []
  | _ :: rest, prev => do
    let v ← newDef (.mul prev prev)
    let r ← powSquares rest (.ident v)
    pure (.ident v :: r)

/-- The product of the selected powers, `lib.rs:2235-2251`. -/
def powFold : List (Bool × FlatExpr (ZMod p)) → FlatExpr (ZMod p) → FlatM p Z (FlatExpr (ZMod p))
  | [], acc => pure acc
  | (true, pw) :: rest, acc => do
    let v ← newDef (.mul acc pw)
    powFold rest (.ident v)
  | (false, _) :: rest, acc => powFold rest acc

/-- The bits of the exponent, lowest first, without leading zeroes, `lib.rs:2190-2205`. -/
def expBits (n : ℕ) : List Bool := ((bitsBE 128 n).dropWhile (fun b => !b)).reverse

/-- `Pow`, `lib.rs:2180-2253`, on a flattened base. -/
def powFlat (base : FlatExpr (ZMod p)) (n : ℕ) : FlatM p Z (FlatExpr (ZMod p)) := do
  assert base.isLinear
  let bits := expBits n
  match bits with
  | [] => pure (.value 1)
  | _ :: rest => do
    let sq ← powSquares rest base
    powFold (List.zip bits (base :: sq)) (.value 1)

/-- `Div`, `lib.rs:2145-2178`, on flattened operands. -/
def divFlat (l r : FlatExpr (ZMod p)) : FlatM p Z (FlatExpr (ZMod p)) := do
  let a ← newDef l
  let b ← newDef r
  let inv ← useSym
  emit (.directive [inv] .div [.ident a, .ident b])
  emit (.condition (.ident a) (.mul (.ident b) (.ident inv)) .division)
  pure (.ident inv)

/-- `euclidean_division`, `lib.rs:1297-1377`, on the operands' fields. -/
def euclid (w : ℕ) (left right : FlatExpr (ZMod p)) : FlatM p Z (Variable × Variable) := do
  let n ← linearise left
  let d ← linearise right
  let q ← useSym
  let r ← useSym
  emit (.directive [q, r] .euclideanDiv [n, d])
  let _ ← getBits (withField (.ident q)) w w .sum
  let _ ← getBits (withField (.ident r)) w w .sum
  let _ ← getBits (withField (.add (.sub (.ident r) d) (.value ((2 ^ w : ℕ) : ZMod p)))) w w .sum
  emit (.condition (.sub n (.ident r)) (.mul (.ident q) d) .euclidean)
  pure (q, r)

/-- One bit of `default_xor`, `lib.rs:1258-1291`. -/
def xorBit (x y : FlatExpr (ZMod p)) : FlatM p Z (FlatExpr (ZMod p)) :=
  match x, y with
  | .value n, e => xorConst n e
  | e, .value n => xorConst n e
  | x, y => do
    let name ← useSym
    emit (.directive [name] .xor [x, y])
    emit (.condition (.add x (.sub y (.ident name))) (.mul (.add x x) y) .xor)
    pure (.ident name)
where
  xorConst (n : ZMod p) (e : FlatExpr (ZMod p)) : FlatM p Z (FlatExpr (ZMod p)) :=
    if n = 0 then do
      let v ← define e
      pure (.ident v)
    else if n = 1 then do
      let v ← define (.sub (.value 1) e)
      pure (.ident v)
    else panic

/-- One bit of `And`, `lib.rs:1775-1791`. -/
def andBit (x y : FlatExpr (ZMod p)) : FlatM p Z (FlatExpr (ZMod p)) :=
  match x, y with
  | .value n, e => andConst n e
  | e, .value n => andConst n e
  | x, y => do
    let v ← define (.mul x y)
    pure (.ident v)
where
  andConst (n : ZMod p) (e : FlatExpr (ZMod p)) : FlatM p Z (FlatExpr (ZMod p)) :=
    if n = 0 then pure (.value 0) else if n = 1 then pure e else panic

/-- One bit of `Or`, `lib.rs:1812-1843`. -/
def orBit (x y : FlatExpr (ZMod p)) : FlatM p Z (FlatExpr (ZMod p)) :=
  match x, y with
  | .value n, e => orConst n e
  | e, .value n => orConst n e
  | x, y => do
    let name ← useSym
    emit (.directive [name] .or [x, y])
    emit (.condition (.add x (.sub y (.ident name))) (.mul x y) .or)
    pure (.ident name)
where
  orConst (n : ZMod p) (e : FlatExpr (ZMod p)) : FlatM p Z (FlatExpr (ZMod p)) :=
    if n = 0 then do
      let v ← define e
      pure (.ident v)
    else if n = 1 then pure (.value 1)
    else panic

/-- One bit of `Not`, `lib.rs:1433-1441`. -/
def notBit (b : FlatExpr (ZMod p)) : FlatM p Z (FlatExpr (ZMod p)) := do
  let v ← define (.sub (.value 1) b)
  pure (.ident v)

/-- One bit of the `Ch` pattern, `lib.rs:1636-1657`. -/
def chBit (a b c : FlatExpr (ZMod p)) : FlatM p Z (FlatExpr (ZMod p)) := do
  let ch ← useSym
  emit (.directive [ch] .shaCh [a, b, c])
  emit (.condition (.sub (.ident ch) c) (.mul a (.sub b c)) .shaXor)
  pure (.ident ch)

/-- One bit of the `Maj` pattern, `lib.rs:1709-1745`. -/
def majBit (a b c : FlatExpr (ZMod p)) : FlatM p Z (FlatExpr (ZMod p)) := do
  let maj ← useSym
  let bc ← useSym
  emit (.directive [maj] .shaAndXorAndXorAnd [a, b, c])
  emit (.condition (.ident bc) (.mul b c) .shaXor)
  emit (.condition (.sub (.ident bc) (.ident maj)) (.mul (.sub (.add (.ident bc) (.ident bc)) (.add b c)) a) .shaXor)
  pure (.ident maj)

/-- `zip` of two lists of bits, mapped in order. -/
def zipBits (f : FlatExpr (ZMod p) → FlatExpr (ZMod p) → FlatM p Z (FlatExpr (ZMod p))) :
    List (FlatExpr (ZMod p)) → List (FlatExpr (ZMod p)) → FlatM p Z (List (FlatExpr (ZMod p)))
  | a :: as, b :: bs => do
    let r ← f a b
    let rs ← zipBits f as bs
    pure (r :: rs)
  | _, _ => pure []

/-- `zip` of three lists of bits, mapped in order. -/
def zipBits3 (f : FlatExpr (ZMod p) → FlatExpr (ZMod p) → FlatExpr (ZMod p) → FlatM p Z (FlatExpr (ZMod p))) :
    List (FlatExpr (ZMod p)) → List (FlatExpr (ZMod p)) → List (FlatExpr (ZMod p)) → FlatM p Z (List (FlatExpr (ZMod p)))
  | a :: as, b :: bs, c :: cs => do
    let r ← f a b c
    let rs ← zipBits3 f as bs cs
    pure (r :: rs)
  | _, _, _ => pure []

/-- Map over a list of bits, in order. -/
def mapBits (f : FlatExpr (ZMod p) → FlatM p Z (FlatExpr (ZMod p))) :
    List (FlatExpr (ZMod p)) → FlatM p Z (List (FlatExpr (ZMod p)))
  | a :: as => do
    let r ← f a
    let rs ← mapBits f as
    pure (r :: rs)
  | [] => pure []

/-- `default_xor`, `lib.rs:1241-1295`, given the actions flattening the operands. -/
def defaultXor (l r : FlatM p Z (FlatU p)) : FlatM p Z (FlatU p) := do
  let a ← l
  let b ← r
  let abits ← unwrap a.bits
  let bbits ← unwrap b.bits
  let res ← zipBits xorBit abits bbits
  pure (withBits res)

/-- The `Ch` and `Maj` cases, `lib.rs:1622-1661, 1691-1748`. -/
def threeBits (f : FlatExpr (ZMod p) → FlatExpr (ZMod p) → FlatExpr (ZMod p) → FlatM p Z (FlatExpr (ZMod p)))
    (a b c : FlatM p Z (FlatU p)) : FlatM p Z (FlatU p) := do
  let a ← a
  let b ← b
  let c ← c
  let as ← unwrap a.bits
  let bs ← unwrap b.bits
  let cs ← unwrap c.bits
  let res ← zipBits3 f as bs cs
  pure (withBits res)

/-- The operands of `Add`, `Sub` and `Mult`, `lib.rs:1445-1468`: both sides are flattened, then made linear. -/
def twoFields (l r : FlatM p Z (FlatU p)) : FlatM p Z (FlatExpr (ZMod p) × FlatExpr (ZMod p)) := do
  let a ← l
  let a ← getField a
  let b ← r
  let b ← getField b
  let a ← linearise a
  let b ← linearise b
  pure (a, b)

/-- The operands of field `Add`, `Sub` and `Mult`, `lib.rs:2096-2144`. -/
def twoLinear (l r : FlatM p Z (FlatExpr (ZMod p))) : FlatM p Z (FlatExpr (ZMod p) × FlatExpr (ZMod p)) := do
  let a ← l
  let b ← r
  let a ← linearise a
  let b ← linearise b
  pure (a, b)

/-- `And`/`Or` on all bits, `lib.rs:1763-1794, 1795-1847`. -/
def bitwise (w : ℕ) (f : FlatExpr (ZMod p) → FlatExpr (ZMod p) → FlatM p Z (FlatExpr (ZMod p)))
    (l r : FlatM p Z (FlatU p)) : FlatM p Z (FlatU p) := do
  let a ← l
  let b ← r
  let abits ← unwrap a.bits
  let bbits ← unwrap b.bits
  assert (abits.length = w)
  assert (bbits.length = w)
  let res ← zipBits f abits bbits
  pure (withBits res)

/-- `BooleanExpression::Or`, `lib.rs:937-957`, on flattened operands. -/
def boolOr (x y : FlatExpr (ZMod p)) : FlatM p Z (FlatExpr (ZMod p)) := do
  assert (x.isLinear && y.isLinear)
  let name ← useSym
  emit (.directive [name] .or [x, y])
  emit (.condition (.add x (.sub y (.ident name))) (.mul x y) .or)
  pure (.ident name)

mutual
/-- `flatten_field_expression`, `lib.rs:2080-2275`. -/
def flattenF : FExpr (ZMod p) → FlatM p Z (FlatExpr (ZMod p))
  | .value n => pure (.value n)
  | .ident x => do
    let v ← lookup x
    pure (.ident v)
  | .select es i => do
    let l ← flattenSelF es 0 (selCond i.info (flattenU i))
    let u ← selFinish l
    getField u
  | .add l r => do
    let (a, b) ← twoLinear (flattenF l) (flattenF r)
    pure (.add a b)
  | .sub l r => do
    let (a, b) ← twoLinear (flattenF l) (flattenF r)
    pure (.sub a b)
  | .mult l r => do
    let (a, b) ← twoLinear (flattenF l) (flattenF r)
    pure (.mul a b)
  | .div l r => do
    let a ← flattenF l
    let b ← flattenF r
    divFlat a b
  | .pow base e => match e.inner with
    | .value n => do
      let b ← flattenF base
      powFlat b n
    | _ => panic
  | .cond c t e => do
    let u ← conditional (flattenB c) (flattenF t) (flattenF e)
    getField u
  | .and _ _ | .or _ _ | .xor _ _ | .leftShift _ _ | .rightShift _ _ => panic
/-- The elements of `flatten_select_expression` on field elements, `lib.rs:2021-2044`. -/
def flattenSelF : List (FExpr (ZMod p)) → ℕ → (ℕ → FlatM p Z (FlatExpr (ZMod p))) →
    FlatM p Z (List (FlatExpr (ZMod p) × FlatExpr (ZMod p)))
  | [], _, _ => pure []
  | e :: es, i, c => do
    let k ← c i
    let v ← flattenF e
    let rest ← flattenSelF es (i + 1) c
    pure ((k, v) :: rest)
/-- `flatten_boolean_expression`, `lib.rs:793-990`. -/
def flattenB : BExpr (ZMod p) → FlatM p Z (FlatExpr (ZMod p))
  | .value b => pure (.value (boolF b))
  | .ident x => do
    let v ← lookup x
    pure (.ident v)
  | .select es i => do
    let l ← flattenSelB es 0 (selCond i.info (flattenU i))
    let u ← selFinish l
    getField u
  | .fieldLt l r => do
    let a ← flattenF l
    let b ← flattenF r
    fieldLtCheck a b
  | .fieldLe l r => do
    let a ← flattenF l
    let b ← flattenF r
    let lt ← fieldLtCheck a b
    let a ← flattenF l
    let b ← flattenF r
    let eq ← eqCheck a b
    pure (.add eq lt)
  | .fieldEq l r => do
    let a ← flattenF l
    let b ← flattenF r
    eqCheck a b
  | .uintLt l r => uintLtCheck l.width l.info (flattenU l) r.info (flattenU r)
  | .uintLe l r => do
    let lt ← uintLtCheck l.width l.info (flattenU l) r.info (flattenU r)
    let eq ← uintEqCheck l.info (flattenU l) r.info (flattenU r)
    pure (.add eq lt)
  | .uintEq l r => uintEqCheck l.info (flattenU l) r.info (flattenU r)
  | .boolEq l r => do
    let x ← flattenB l
    let y ← flattenB r
    let v ← newDef (.mul (.sub x y) (.sub x y))
    pure (.sub (.value 1) (.ident v))
  | .or l r => do
    let x ← flattenB l
    let y ← flattenB r
    boolOr x y
  | .and l r => do
    let x ← flattenB l
    let y ← flattenB r
    let v ← useSym
    assert (x.isLinear && y.isLinear)
    emit (.definition v (.mul x y))
    pure (.ident v)
  | .not e => do
    let x ← flattenB e
    pure (.sub (.value 1) x)
  | .cond c t e => do
    let u ← conditional (flattenB c) (flattenB t) (flattenB e)
    getField u
/-- The elements of `flatten_select_expression` on booleans. -/
def flattenSelB : List (BExpr (ZMod p)) → ℕ → (ℕ → FlatM p Z (FlatExpr (ZMod p))) →
    FlatM p Z (List (FlatExpr (ZMod p) × FlatExpr (ZMod p)))
  | [], _, _ => pure []
  | e :: es, i, c => do
    let k ← c i
    let v ← flattenB e
    let rest ← flattenSelB es (i + 1) c
    pure ((k, v) :: rest)
/-- `flatten_uint_expression`, `lib.rs:1385-1890`. -/
def flattenU : UExpr (ZMod p) → FlatM p Z (FlatU p)
  | .mk w m i => do
    let (max, red) ← readInfo m
    let res ← flattenUI w i
    uTail w max red res
/-- The elements of `flatten_select_expression` on unsigned integers; the field of each element is taken
(`element.flat()`, `lib.rs:2057`). -/
def flattenSelU : List (UExpr (ZMod p)) → ℕ → (ℕ → FlatM p Z (FlatExpr (ZMod p))) →
    FlatM p Z (List (FlatExpr (ZMod p) × FlatExpr (ZMod p)))
  | [], _, _ => pure []
  | e :: es, i, c => do
    let k ← c i
    let u ← flattenU e
    let v ← getField u
    let rest ← flattenSelU es (i + 1) c
    pure ((k, v) :: rest)
/-- The `match` of `flatten_uint_expression`, `lib.rs:1410-1848`. In the default cases of `Xor` the code rebuilds the
operands it has taken apart; the model uses the operands themselves. -/
def flattenUI (w : ℕ) : UInner (ZMod p) → FlatM p Z (FlatU p)
  | .value n => pure (withField (.value (n : ZMod p)))
  | .ident x => do
    let v ← lookup x
    let c ← getCache (.ident v)
    match c with
    | none => pure (withField (.ident v))
    | some c => do
      assert (c.bits.length = w)
      pure ⟨some (.ident v), some c.bits, c.exact⟩
  | .select es i => do
    let l ← flattenSelU es 0 (selCond i.info (flattenU i))
    selFinish l
  | .not e => do
    let u ← flattenU e
    let bits ← unwrap u.bits
    assert (bits.length = w)
    let res ← mapBits notBit bits
    pure (withBits res)
  | .add l r => do
    let (a, b) ← twoFields (flattenU l) (flattenU r)
    pure (withField (.add a b))
  | .sub l r => do
    let mr ← unwrap r.info
    let (a, b) ← twoFields (flattenU l) (flattenU r)
    pure (withField (.add (.value (2 ^ (max (Fld.bits mr.max) w))) (.sub a b)))
  | .leftShift e by_ => match by_.inner with
    | .value v => do
      let k := v % 2 ^ 32
      let u ← flattenU e
      let bits ← unwrap u.bits
      assert (bits.length = w)
      pure (withBits (bits.drop k ++ List.replicate (min k w) (.value 0)))
    | _ => panic
  | .rightShift e by_ => match by_.inner with
    | .value v => do
      let k := v % 2 ^ 32
      let u ← flattenU e
      let bits ← unwrap u.bits
      assert (bits.length = w)
      pure (withBits (List.replicate (min k w) (.value 0) ++ bits.take (w - min k w)))
    | _ => panic
  | .mult l r => do
    let (a, b) ← twoFields (flattenU l) (flattenU r)
    let v ← newDef (.mul a b)
    pure (withField (.ident v))
  | .div l r => do
    let a ← flattenU l
    let a ← getField a
    let b ← flattenU r
    let b ← getField b
    let (q, _) ← euclid w a b
    pure (withField (.ident q))
  | .rem l r => do
    let a ← flattenU l
    let a ← getField a
    let b ← flattenU r
    let b ← getField b
    let (_, r) ← euclid w a b
    pure (withField (.ident r))
  | .cond c t e => conditional (flattenB c)
      (do let u ← flattenU t; getField u) (do let u ← flattenU e; getField u)
  | .xor (.mk wl ml (.and a b)) (.mk wr mr (.and aa c)) => do
    let _ ← unwrap ml
    let _ ← unwrap mr
    if aa.inner.beq (.not a) then threeBits chBit (flattenU a) (flattenU b) (flattenU c)
    else defaultXor (flattenU (.mk wl ml (.and a b))) (flattenU (.mk wr mr (.and aa c)))
  | .xor (.mk wl ml (.xor (.mk w0 m0 (.and a b)) (.mk w1 m1 (.and aa c)))) (.mk wr mr (.and bb cc)) => do
    let _ ← unwrap ml
    let _ ← unwrap mr
    let _ ← unwrap m0
    let _ ← unwrap m1
    if aa.beq a && bb.beq b && cc.beq c then threeBits majBit (flattenU a) (flattenU b) (flattenU c)
    else (defaultXor (flattenU (.mk wl ml (.xor (.mk w0 m0 (.and a b)) (.mk w1 m1 (.and aa c)))))
      (flattenU (.mk wr mr (.and bb cc))))
  | .xor l r => do
    let _ ← unwrap l.info
    let _ ← unwrap r.info
    defaultXor (flattenU l) (flattenU r)
  | .and l r => bitwise w andBit (flattenU l) (flattenU r)
  | .or l r => bitwise w orBit (flattenU l) (flattenU r)
end

end Flt
end Zok
