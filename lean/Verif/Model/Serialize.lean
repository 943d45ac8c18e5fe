import Verif.Model.Interp

/-
Files: witnesses (`zokrates_ast/src/ir/witness.rs`, `common/flat/variable.rs`, `zokrates_field/src/lib.rs`) and compiled
programs (`zokrates_ast/src/ir/serialize.rs`, `solver_indexer.rs`, `check.rs`). A byte is a natural number below 256; a
reader is the list of bytes left to read; `none` is an `io::Error`.
-/

namespace Zok.Ser

abbrev Bytes := List ℕ

/-- `read_exact` into a buffer of `n` bytes. -/
def readExact (n : ℕ) (r : Bytes) : Option (Bytes × Bytes) := if n ≤ r.length then some (r.take n, r.drop n) else none

/-- `write_u32::<LittleEndian>` / `write_u64` / `usize::to_le_bytes` with `k` bytes: `x` modulo `256^k`. -/
def writeLE (k x : ℕ) : Bytes := Fld.bytesLE k x

/-- `read_u32::<LittleEndian>` and its variants. -/
def readLE (k : ℕ) (r : Bytes) : Option (ℕ × Bytes) := match readExact k r with
  | none => none
  | some (b, r) => some (Fld.natLE b, r)

/-! ### Witness -/

/-- `Variable::write`, `variable.rs:37-40`: `isize::to_le_bytes`, two's complement on 8 bytes. -/
def writeVar (v : Variable) : Bytes := writeLE 8 ((v : ℤ) % 2 ^ 64).toNat

/-- `Variable::read`, `variable.rs:42-49`: `isize::from_le_bytes`. -/
def readVar (r : Bytes) : Option (Variable × Bytes) := match readLE 8 r with
  | none => none
  | some (n, r) => some ((if n < 2 ^ 63 then (n : ℤ) else (n : ℤ) - 2 ^ 64 : ℤ), r)

variable {p : ℕ}

/-- `Field::write`, `zokrates_field/src/lib.rs:222-226` (external `ark-ff`: the canonical representative, little endian). -/
def writeField (x : ZMod p) : Bytes := Fld.toByteVector x

/-- `Field::read`, `zokrates_field/src/lib.rs:215-220` (external `ark-ff`: `BigInteger::read`, then `from_repr`, which fails
unless the integer is below the modulus). -/
def readField (p : ℕ) (r : Bytes) : Option (ZMod p × Bytes) := match readExact (8 * Fld.limbs p) r with
  | none => none
  | some (b, r) => if Fld.natLE b < p then some ((Fld.natLE b : ZMod p), r) else none

/-- The loop of `Witness::write`, `witness.rs:45-48`. -/
def writeEntries : SMap (ZMod p) → Bytes
  | [] => []
  | (v, x) :: tl => writeVar v ++ writeField x ++ writeEntries tl

/-- `Witness::write`, `witness.rs:41-50`. -/
def writeWitness (w : SMap (ZMod p)) : Bytes := writeLE 8 w.length ++ writeEntries w

/-- The loop of `Witness::read`, `witness.rs:60-65`. -/
def readEntries (p : ℕ) : ℕ → SMap (ZMod p) → Bytes → Option (SMap (ZMod p) × Bytes)
  | 0, w, r => some (w, r)
  | n + 1, w, r => match readVar r with
    | none => none
    | some (v, r) => match readField p r with
      | none => none
      | some (x, r) => readEntries p n (SMap.insert w v x) r

/-- `Witness::read`, `witness.rs:52-68`, with the bytes left unread. -/
def readWitness (p : ℕ) (r : Bytes) : Option (SMap (ZMod p) × Bytes) := match readLE 8 r with
  | none => none
  | some (n, r) => readEntries p n [] r

/-! ### Header -/

/-- `SectionType`, `serialize.rs:77-84`. -/
inductive SectionType where
  | parameters | constraints | solvers | modules
deriving DecidableEq, Repr

/-- `ty as u32`. -/
def SectionType.toNat : SectionType → ℕ
  | .parameters => 1
  | .constraints => 2
  | .solvers => 3
  | .modules => 4

/-- `TryFrom<u32> for SectionType`, `serialize.rs:86-98`. -/
def SectionType.tryFrom : ℕ → Option SectionType
  | 1 => some .parameters
  | 2 => some .constraints
  | 3 => some .solvers
  | 4 => some .modules
  | _ => none

/-- `Section`, `serialize.rs:100-105`. -/
structure Section where
  ty : SectionType
  offset : ℕ
  length : ℕ
deriving DecidableEq, Repr

/-- `ProgHeader`, `serialize.rs:125-133`. -/
structure ProgHeader where
  magic : Bytes
  version : Bytes
  curveId : Bytes
  constraintCount : ℕ
  returnCount : ℕ
  sections : Section × Section × Section × Section
deriving DecidableEq, Repr

/-- The body of the loop over the sections, `serialize.rs:143-147`. -/
def writeSection (s : Section) : Bytes := writeLE 4 s.ty.toNat ++ writeLE 8 s.offset ++ writeLE 8 s.length

/-- `ProgHeader::write`, `serialize.rs:136-150`. -/
def writeHeader (h : ProgHeader) : Bytes :=
  h.magic ++ h.version ++ h.curveId ++ writeLE 4 h.constraintCount ++ writeLE 4 h.returnCount ++
    writeSection h.sections.1 ++ writeSection h.sections.2.1 ++ writeSection h.sections.2.2.1 ++
    writeSection h.sections.2.2.2

/-- `ProgHeader::read_section`, `serialize.rs:180-189`. -/
def readSection (r : Bytes) : Option (Section × Bytes) := match readLE 4 r with
  | none => none
  | some (id, r) => match SectionType.tryFrom id with
    | none => none
    | some ty => match readLE 8 r with
      | none => none
      | some (o, r) => match readLE 8 r with
        | none => none
        | some (l, r) => some (⟨ty, o, l⟩, r)

/-- `ProgHeader::read`, `serialize.rs:152-178`. -/
def readHeader (r : Bytes) : Option (ProgHeader × Bytes) := do
  let (magic, r) ← readExact 4 r
  let (version, r) ← readExact 4 r
  let (curveId, r) ← readExact 4 r
  let (cc, r) ← readLE 4 r
  let (rc, r) ← readLE 4 r
  let (s1, r) ← readSection r
  let (s2, r) ← readSection r
  let (s3, r) ← readSection r
  let (s4, r) ← readSection r
  return (⟨magic, version, curveId, cc, rc, (s1, s2, s3, s4)⟩, r)

/-- `ZOKRATES_MAGIC`, `serialize.rs:13`. -/
def MAGIC : Bytes := [0x5a, 0x4f, 0x4b, 0]
/-- `FILE_VERSION`, `serialize.rs:14`. -/
def VERSION : Bytes := [3, 0, 0, 0]

/-- The errors of `deserialize`. -/
inductive ReadError where
  | header | magic | version | curve | panic
deriving DecidableEq, Repr

/-! ### Choice of the curve -/

/-- The variants of `ProgEnum`, `serialize.rs:17-32`. -/
inductive Curve where
  | bls12_381 | bn128 | bls12_377 | bw6_761 | pallas | vesta
deriving DecidableEq, Repr

/-- The `match header.curve_id` of `deserialize`, `serialize.rs:387-400`; `id` is `Field::id`, four bytes of the SHA-256 of
the modulus (`zokrates_field/src/lib.rs:283-293`). -/
def selectCurve (id : Curve → Bytes) (m : Bytes) : Option Curve :=
  if m = id .bls12_381 then some .bls12_381
  else if m = id .bn128 then some .bn128
  else if m = id .bls12_377 then some .bls12_377
  else if m = id .bw6_761 then some .bw6_761
  else if m = id .pallas then some .pallas
  else if m = id .vesta then some .vesta
  else none

/-- `ProgEnum::curve`, `serialize.rs:66-75`: the curve whose name is returned. -/
def curveName : Curve → Curve
  | .bn128 => .bn128
  | .bls12_381 => .bls12_381
  | .bls12_377 => .bls12_377
  | .bw6_761 => .bw6_761
  | .pallas => .bls12_377
  | .vesta => .bw6_761

/-- The first steps of `deserialize`, `serialize.rs:373-400`, up to the choice of the program variant. -/
def identify (id : Curve → Bytes) (file : Bytes) : Except ReadError (Curve × ProgHeader) :=
  match readHeader file with
  | none => .error .header
  | some (h, _) =>
    if h.magic ≠ MAGIC then .error .magic
    else if h.version ≠ VERSION then .error .version
    else match selectCurve id h.curveId with
      | none => .error .curve
      | some c => .ok (c, h)

/-! ### Programs -/

/-- `SolverIndexer`, `solver_indexer.rs:22-26`: the table, and the index of each hash seen. -/
structure Indexer (Z : Type _) where
  solvers : List (Solver Z)
  index : List (ℕ × ℕ)

section
variable {F Z : Type _}

/-- `SolverIndexer::fold_directive_statement`, `solver_indexer.rs:28-56`. `hash` is the 64-bit `DefaultHasher`. -/
def indexDirective (sem : SolverSem F Z) (hash : Z → ℕ) (d : Directive F Z) (ix : Indexer Z) :
    Directive F Z × Indexer Z :=
  match d.solver with
  | .zir f => match ix.index.lookup (hash f) with
    | some i => (⟨d.inputs, d.outputs, .ref i (d.solver.signature sem)⟩, ix)
    | none =>
      let i := ix.solvers.length
      (⟨d.inputs, d.outputs, .ref i (d.solver.signature sem)⟩, ⟨ix.solvers ++ [.zir f], (hash f, i) :: ix.index⟩)
  | _ => (d, ix)

mutual
/-- `fold_statement` of the indexer (default cases of `folder.rs:103-141`): one statement gives one statement. -/
def indexStmt (sem : SolverSem F Z) (hash : Z → ℕ) : Stmt F Z → Indexer Z → Stmt F Z × Indexer Z
  | .block ss, ix =>
    let r := indexStmts sem hash ss ix
    (.block r.1, r.2)
  | .directive d, ix =>
    let r := indexDirective sem hash d ix
    (.directive r.1, r.2)
  | .constraint c, ix => (.constraint c, ix)
  | .log l, ix => (.log l, ix)
/-- Over a list of statements. -/
def indexStmts (sem : SolverSem F Z) (hash : Z → ℕ) : List (Stmt F Z) → Indexer Z → List (Stmt F Z) × Indexer Z
  | [], ix => ([], ix)
  | s :: ss, ix =>
    let r := indexStmt sem hash s ix
    let r' := indexStmts sem hash ss r.2
    (r.1 :: r'.1, r'.2)
end

/-- Removing from the set of unconstrained variables all variables of a combination (`fold_linear_combination` with
`fold_variable` of `check.rs:40-43`); sets are lists. -/
def removeVars (l : LinComb F) (vs : List Variable) : List Variable :=
  vs.filter fun v => !(l.map Prod.fst).contains v

mutual
/-- `UnconstrainedVariableDetector::fold_statement`, `check.rs:36-51` with the default cases of `folder.rs`: constraints *and
logs* remove their variables, directives add their outputs and do not look at their inputs. -/
def detect : Stmt F Z → List Variable → List Variable
  | .block ss, vs => detectL ss vs
  | .constraint c, vs => removeVars c.lin (removeVars c.quad.right (removeVars c.quad.left vs))
  | .directive d, vs => vs ++ d.outputs
  | .log l, vs => l.foldl (fun vs e => e.foldl (fun vs l => removeVars l vs) vs) vs
/-- Over a list of statements. -/
def detectL : List (Stmt F Z) → List Variable → List Variable
  | [], vs => vs
  | s :: ss, vs => detectL ss (detect s vs)
end

/-- `UnconstrainedVariableDetector::new`, `check.rs:15-28`. -/
def detectInit (p : Prog F Z) : List Variable := (p.arguments.filter (·.priv)).map Parameter.id

/-- The variables reported by `finalize`, `check.rs:30-35`, with possible repetitions (the code keeps a set and reports its
cardinality). -/
def unconstrained (p : Prog F Z) : List Variable := detectL p.statements (detectInit p)

/-- `matches!(s, Statement::Constraint(..))`. -/
def isConstraint : Stmt F Z → Bool
  | .constraint _ => true
  | _ => false

/-- The external CBOR encoder and decoder (`serde_cbor`) for the four kinds of data in a program file. A decoder returns the
remaining bytes, or `none` on an error or at the end of the file. `M` is the module map. -/
structure Codec (F Z M : Type _) where
  encArgs : List Parameter → Bytes
  decArgs : Bytes → Option (List Parameter × Bytes)
  encStmt : Stmt F Z → Bytes
  decStmt : Bytes → Option (Stmt F Z × Bytes)
  encSolvers : List (Solver Z) → Bytes
  decSolvers : Bytes → Option (List (Solver Z) × Bytes)
  encModules : M → Bytes
  decModules : Bytes → Option (M × Bytes)

variable {M : Type _}

/-- `std::mem::size_of::<ProgHeader>()` on a 64-bit target: 20 bytes of scalars and four sections of 24 bytes, aligned to 8. -/
def HEADER_SIZE : ℕ := 120

/-- Overwrite the beginning of a file: `w.rewind()` followed by a write. -/
def overwrite (file new : Bytes) : Bytes := new ++ file.drop new.length

/-- `ProgIterator::serialize`, `serialize.rs:195-284`: the file, and the result: the number of constraints, or the number of
unconstrained variables (the file is written in both cases). The section of the module map is tagged `Solvers`, as in the
code. The hash table of the indexer starts empty and the solvers the program already has are not written. -/
def serialize [DecidableEq Variable] (cd : Codec F Z M) (sem : SolverSem F Z) (hash : Z → ℕ) (curveId : Bytes)
    (p : Prog F Z) (mm : M) : Bytes × Except ℕ ℕ :=
  let w := List.replicate HEADER_SIZE 0
  let o1 := w.length
  let w := w ++ cd.encArgs p.arguments
  let s1 : Section := ⟨.parameters, o1, w.length - o1⟩
  let r := indexStmts sem hash p.statements ⟨[], []⟩
  let o2 := w.length
  let w := w ++ r.1.flatMap cd.encStmt
  let s2 : Section := ⟨.constraints, o2, w.length - o2⟩
  let o3 := w.length
  let w := w ++ cd.encSolvers r.2.solvers
  let s3 : Section := ⟨.solvers, o3, w.length - o3⟩
  let o4 := w.length
  let w := w ++ cd.encModules mm
  let s4 : Section := ⟨.solvers, o4, w.length - o4⟩
  let count := (p.statements.filter isConstraint).length
  let h : ProgHeader := ⟨MAGIC, VERSION, curveId, count % 2 ^ 32, p.returnCount % 2 ^ 32, (s1, s2, s3, s4)⟩
  let left := (detectL r.1 (detectInit p)).dedup
  (overwrite w (writeHeader h), if left = [] then .ok count else .error left.length)

/-- `UnwrappedStreamDeserializer::next` until it returns `None`, `serialize.rs:286-299`: statements are decoded until the
first failure. `fuel` bounds the number of statements; the length of the file suffices. -/
def readStmts (cd : Codec F Z M) : ℕ → Bytes → List (Stmt F Z)
  | 0, _ => []
  | fuel + 1, r => match cd.decStmt r with
    | none => []
    | some (s, r) => s :: readStmts cd fuel r

/-- `ProgEnum::read`, `serialize.rs:311-371`, and `ProgIterator::collect`: sections are located by their offsets only; an
undecodable section is a panic. -/
def readProg (cd : Codec F Z M) (file : Bytes) (h : ProgHeader) : Except ReadError (Prog F Z × M) :=
  match cd.decArgs (file.drop h.sections.1.offset) with
  | none => .error .panic
  | some (args, _) => match cd.decSolvers (file.drop h.sections.2.2.1.offset) with
    | none => .error .panic
    | some (solvers, _) => match cd.decModules (file.drop h.sections.2.2.2.offset) with
      | none => .error .panic
      | some (mm, _) =>
        let ss := readStmts cd (file.length + 1) (file.drop h.sections.2.1.offset)
        .ok (⟨args, h.returnCount, ss, solvers⟩, mm)

/-- `ProgEnum::deserialize`, `serialize.rs:373-401`, for a caller that handles programs over the curve `c`: the code
dispatches to the same function at another field for the other curves, which is `.error .curve` here. -/
def deserialize (cd : Codec F Z M) (id : Curve → Bytes) (c : Curve) (file : Bytes) : Except ReadError (Prog F Z × M) :=
  match identify id file with
  | .error e => .error e
  | .ok (c', h) => if c' = c then readProg cd file h else .error .curve

end

end Zok.Ser
