import Verif.Props.Serialize
import Mathlib.Tactic.DeriveCountable
import Mathlib.Logic.Equiv.List

/-
C31, C32: a codec that satisfies `Codec.Lawful`, examples, and the defects of the code.
-/

namespace Zok.Ser

instance : Countable Char := Function.Injective.countable (f := Char.toNat) fun a b h => by
  exact Char.toNat_inj.1 h
instance : Countable String := Function.Injective.countable (f := String.toList) fun _ _ h => String.toList_inj.1 h

deriving instance Countable for RuntimeError
deriving instance Countable for Solver
deriving instance Countable for Parameter
deriving instance Countable for QuadComb
deriving instance Countable for Constraint
deriving instance Countable for Directive

variable {F Z : Type} [Countable F] [Countable Z]

/-- The statements that are not blocks. -/
abbrev Leaf (F Z : Type) := Constraint F ⊕ Directive F Z ⊕ List (List (LinComb F))

/-- A number for each leaf. -/
noncomputable def leafCode (x : Leaf F Z) : ℕ := (exists_injective_nat (Leaf F Z)).choose x

theorem leafCode_inj : Function.Injective (leafCode (F := F) (Z := Z)) := (exists_injective_nat (Leaf F Z)).choose_spec

mutual
/-- A number for each statement. -/
noncomputable def stmtCode : Stmt F Z → ℕ
  | .block ss => 2 * Encodable.encode (stmtCodes ss)
  | .constraint c => 2 * leafCode (F := F) (Z := Z) (.inl c) + 1
  | .directive d => 2 * leafCode (F := F) (Z := Z) (.inr (.inl d)) + 1
  | .log l => 2 * leafCode (F := F) (Z := Z) (.inr (.inr l)) + 1
/-- A list of numbers for each list of statements. -/
noncomputable def stmtCodes : List (Stmt F Z) → List ℕ
  | [] => []
  | s :: ss => stmtCode s :: stmtCodes ss
end

mutual
theorem stmtCode_inj (s t : Stmt F Z) (h : stmtCode s = stmtCode t) : s = t := by
  cases s with
  | block ss =>
    cases t with
    | block ts =>
      simp only [stmtCode] at h
      have h' : stmtCodes ss = stmtCodes ts := Encodable.encode_injective (by omega)
      rw [stmtCodes_inj ss ts h']
    | _ => simp only [stmtCode] at h; omega
  | constraint c =>
    cases t with
    | block ts => simp only [stmtCode] at h; omega
    | _ =>
      simp only [stmtCode] at h
      have := leafCode_inj (F := F) (Z := Z) (Nat.eq_of_mul_eq_mul_left (by norm_num : 0 < 2) (Nat.add_right_cancel h))
      simp_all
  | directive c =>
    cases t with
    | block ts => simp only [stmtCode] at h; omega
    | _ =>
      simp only [stmtCode] at h
      have := leafCode_inj (F := F) (Z := Z) (Nat.eq_of_mul_eq_mul_left (by norm_num : 0 < 2) (Nat.add_right_cancel h))
      simp_all
  | log c =>
    cases t with
    | block ts => simp only [stmtCode] at h; omega
    | _ =>
      simp only [stmtCode] at h
      have := leafCode_inj (F := F) (Z := Z) (Nat.eq_of_mul_eq_mul_left (by norm_num : 0 < 2) (Nat.add_right_cancel h))
      simp_all
theorem stmtCodes_inj (ss ts : List (Stmt F Z)) (h : stmtCodes ss = stmtCodes ts) : ss = ts := by
  cases ss with
  | nil => cases ts with
    | nil => rfl
    | cons t ts => simp [stmtCodes] at h
  | cons s ss => cases ts with
    | nil => simp [stmtCodes] at h
    | cons t ts =>
      simp only [stmtCodes, List.cons.injEq] at h
      rw [stmtCode_inj s t h.1, stmtCodes_inj ss ts h.2]
end

/-- A tagged code for a countable type, of two "bytes" (a codec may use any numbers: nothing in C31 depends on bytes being
below 256, and two of them keep the file small). -/
noncomputable def toyEnc {α : Type} (tag : ℕ) (code : α → ℕ) (a : α) : Bytes := [tag, code a]

open Classical in
/-- Its decoder. -/
noncomputable def toyDec {α : Type} (tag : ℕ) (code : α → ℕ) : Bytes → Option (α × Bytes)
  | t :: n :: r => if t = tag then
      if h : ∃ a, code a = n then some (h.choose, r) else none
    else none
  | _ => none

theorem toy_law {α : Type} (tag : ℕ) (code : α → ℕ) (inj : Function.Injective code) (a : α) (r : Bytes) :
    toyDec tag code (toyEnc tag code a ++ r) = some (a, r) := by
  have h : ∃ a', code a' = code a := ⟨a, rfl⟩
  simp only [toyDec, toyEnc, List.cons_append, List.nil_append, if_true, dif_pos h]
  rw [inj h.choose_spec]

/-- A codec. -/
noncomputable def toyCodec (F Z : Type) [Countable F] [Countable Z] : Codec F Z Unit where
  encArgs := toyEnc 2 (exists_injective_nat (List Parameter)).choose
  decArgs := toyDec 2 (exists_injective_nat (List Parameter)).choose
  encStmt := toyEnc 3 stmtCode
  decStmt := toyDec 3 stmtCode
  encSolvers := toyEnc 4 (exists_injective_nat (List (Solver Z))).choose
  decSolvers := toyDec 4 (exists_injective_nat (List (Solver Z))).choose
  encModules := toyEnc 5 fun _ => 0
  decModules := toyDec 5 fun _ => 0

/-- Non-vacuity of the hypothesis of C31. -/
theorem toyCodec_lawful (F Z : Type) [Countable F] [Countable Z] : (toyCodec F Z).Lawful where
  args := toy_law 2 _ (exists_injective_nat (List Parameter)).choose_spec
  stmt := toy_law 3 stmtCode fun s t => stmtCode_inj s t
  solvers := toy_law 4 _ (exists_injective_nat (List (Solver Z))).choose_spec
  modules := toy_law (α := Unit) 5 (fun _ => 0) fun _ _ _ => rfl
  nonempty := fun s => by simp [toyCodec, toyEnc]
  stop := fun s r => by simp [toyCodec, toyEnc, toyDec]

/-- Distinct curve identifiers. -/
def toyId : Curve → Bytes
  | .bls12_381 => [0, 0, 0, 1]
  | .bn128 => [0, 0, 0, 2]
  | .bls12_377 => [0, 0, 0, 3]
  | .bw6_761 => [0, 0, 0, 4]
  | .pallas => [0, 0, 0, 5]
  | .vesta => [0, 0, 0, 6]

theorem toyId_inj : Function.Injective toyId := by intro a b; cases a <;> cases b <;> simp [toyId]
theorem toyId_len (c : Curve) : (toyId c).length = 4 := by cases c <;> rfl

/-- The length of a file of the toy codec. -/
theorem toy_size (sem : SolverSem F Z) (hash : Z → ℕ) (c : Curve) (prog : Prog F Z) :
    (serialize (toyCodec F Z) sem hash (toyId c) prog ()).1.length = 126 + 2 * (indexStmts sem hash prog.statements ⟨[], []⟩).1.length := by
  unfold serialize
  simp only
  rw [length_overwrite]
  · simp only [List.length_append, List.length_replicate, HEADER_SIZE, toyCodec, toyEnc, List.length_cons, List.length_nil,
      List.length_flatMap, List.map_const', List.sum_replicate, smul_eq_mul]
    omega
  · simp [writeHeader, writeSection, writeLE, Fld.length_bytesLE, MAGIC, VERSION, toyId_len, HEADER_SIZE]

/-- Two user-defined solvers: a square (number 0) and a successor (other numbers). -/
def toySem : SolverSem (ZMod 97) ℕ where
  zirSig := fun _ => (1, 1)
  zirRun := fun f xs => match f, xs with
    | 0, [x] => .ok [x * x]
    | _, [x] => .ok [x + 1]
    | _, _ => .error "arity"
  extRun := fun _ xs => xs

/-- `def main(private field a) -> field`: two hints on `a`, both constrained, the same solver used twice. -/
def toyProg : Prog (ZMod 97) ℕ where
  arguments := [⟨(1 : ℤ), true⟩]
  returnCount := 1
  statements := [
    .directive ⟨[⟨[((0 : ℤ), 1)], [((1 : ℤ), 1)]⟩], [(2 : ℤ)], .zir 0⟩,
    .directive ⟨[⟨[((0 : ℤ), 1)], [((2 : ℤ), 1)]⟩], [(3 : ℤ)], .zir 1⟩,
    .directive ⟨[⟨[((0 : ℤ), 1)], [((3 : ℤ), 1)]⟩], [(4 : ℤ)], .zir 0⟩,
    .constraint ⟨⟨[((1 : ℤ), 1)], [((1 : ℤ), 1)]⟩, [((2 : ℤ), 1)], none⟩,
    .constraint ⟨⟨[((3 : ℤ), 1)], [((3 : ℤ), 1)]⟩, [((4 : ℤ), 1)], none⟩,
    .constraint ⟨⟨[((0 : ℤ), 1)], [((2 : ℤ), 1), ((4 : ℤ), 1)]⟩, [((-1 : ℤ), 1)], none⟩]
  solvers := []

/-- Non-vacuity of `C31_same_execution`: its hypotheses hold of `toyProg`. -/
example : ∃ prog', deserialize (toyCodec (ZMod 97) ℕ) toyId .bn128
      (serialize (toyCodec (ZMod 97) ℕ) toySem _root_.id (toyId .bn128) toyProg ()).1 = .ok (prog', ()) ∧
    ∀ oor inputs, execute toySem oor inputs prog'.statements prog'.arguments prog'.solvers =
      execute toySem oor inputs toyProg.statements toyProg.arguments toyProg.solvers := by
  refine C31_same_execution _ (toyCodec_lawful _ _) toySem _root_.id toyId toyId_inj toyId_len .bn128 toyProg ()
    (fun a _ b _ h => h) ?_ (by norm_num [toyProg]) ?_
  · intro i o k sig h
    simp [toyProg, atomsL, atoms] at h
  · rw [toy_size]
    norm_num [toyProg, indexStmts]

/-- What the indexer makes of it: the third directive refers to the same entry as the first. -/
example : (indexStmts toySem _root_.id toyProg.statements ⟨[], []⟩).2.solvers = [.zir 0, .zir 1] ∧
    (atomsL (indexStmts toySem _root_.id toyProg.statements ⟨[], []⟩).1).filterMap (fun s => match s with
      | .directive d => some d.solver
      | _ => none) = [.ref 0 (1, 1), .ref 1 (1, 1), .ref 0 (1, 1)] := by decide +kernel

/-- Defect of the code: solvers are identified by a 64-bit hash. If two solvers of the program collide (here all do), the
program read back runs the first one for both. -/
theorem C31_collision : ∃ (prog prog' : Prog (ZMod 97) ℕ) (w w' : Witness (ZMod 97)),
    deserialize (toyCodec (ZMod 97) ℕ) toyId .bn128
      (serialize (toyCodec (ZMod 97) ℕ) toySem (fun _ => 0) (toyId .bn128) prog ()).1 = .ok (prog', ()) ∧
    execute toySem false [3] prog.statements prog.arguments prog.solvers = .ok w ∧
    execute toySem false [3] prog'.statements prog'.arguments prog'.solvers = .ok w' ∧ w ≠ w' := by
  have key : ∀ prog : Prog (ZMod 97) ℕ, prog.returnCount < 2 ^ 32 → prog.statements.length < 1000 →
      deserialize (toyCodec (ZMod 97) ℕ) toyId .bn128
        (serialize (toyCodec (ZMod 97) ℕ) toySem (fun _ => 0) (toyId .bn128) prog ()).1 =
      .ok (⟨prog.arguments, prog.returnCount, (indexStmts toySem (fun _ => 0) prog.statements ⟨[], []⟩).1,
        (indexStmts toySem (fun _ => 0) prog.statements ⟨[], []⟩).2.solvers⟩, ()) := by
    intro prog h1 h2
    exact file_read_back _ (toyCodec_lawful _ _) toySem _ toyId toyId_inj toyId_len .bn128 prog () h1 (by
      rw [toy_size, length_indexStmts]; omega)
  refine ⟨toyProg, _, _, _, key toyProg (by norm_num [toyProg]) (by norm_num [toyProg]), rfl, rfl, ?_⟩
  decide +kernel

/-- Defect of the code: the table of a program is not written, only rebuilt from inlined solvers. Serialising a program that
was read from a file (whose solvers are references) loses its solvers: it does not execute any more. -/
theorem C31_lost_table : ∃ (prog prog' prog'' : Prog (ZMod 97) ℕ) (w : Witness (ZMod 97)),
    deserialize (toyCodec (ZMod 97) ℕ) toyId .bn128
      (serialize (toyCodec (ZMod 97) ℕ) toySem _root_.id (toyId .bn128) prog ()).1 = .ok (prog', ()) ∧
    deserialize (toyCodec (ZMod 97) ℕ) toyId .bn128
      (serialize (toyCodec (ZMod 97) ℕ) toySem _root_.id (toyId .bn128) prog' ()).1 = .ok (prog'', ()) ∧
    execute toySem false [3] prog'.statements prog'.arguments prog'.solvers = .ok w ∧
    execute toySem false [3] prog''.statements prog''.arguments prog''.solvers = .error (.solver "Could not get solver") := by
  have key : ∀ prog : Prog (ZMod 97) ℕ, prog.returnCount < 2 ^ 32 → prog.statements.length < 1000 →
      deserialize (toyCodec (ZMod 97) ℕ) toyId .bn128
        (serialize (toyCodec (ZMod 97) ℕ) toySem _root_.id (toyId .bn128) prog ()).1 =
      .ok (⟨prog.arguments, prog.returnCount, (indexStmts toySem _root_.id prog.statements ⟨[], []⟩).1,
        (indexStmts toySem _root_.id prog.statements ⟨[], []⟩).2.solvers⟩, ()) := by
    intro prog h1 h2
    exact file_read_back _ (toyCodec_lawful _ _) toySem _ toyId toyId_inj toyId_len .bn128 prog () h1 (by
      rw [toy_size, length_indexStmts]; omega)
  refine ⟨toyProg, _, _, _, key toyProg (by norm_num [toyProg]) (by norm_num [toyProg]), key _ (by norm_num [toyProg]) (by
    simp only [length_indexStmts]; norm_num [toyProg]), rfl, rfl⟩

/-- A private argument that is only printed. -/
def logOnly : Prog (ZMod 97) ℕ := ⟨[⟨(1 : ℤ), true⟩], 0, [.log [[[((1 : ℤ), 1)]]]], []⟩

/-- Defect of the code: a private argument that is only printed is accepted as constrained. -/
theorem C32_log_only : (serialize (toyCodec (ZMod 97) ℕ) toySem _root_.id (toyId .bn128) logOnly ()).2 = .ok 0 ∧
    PrivateArg logOnly (1 : ℤ) ∧ ∀ s ∈ atomsL logOnly.statements, ¬ InConstraint (1 : ℤ) s := by
  refine ⟨?_, ⟨⟨(1 : ℤ), true⟩, by simp [logOnly], rfl, rfl⟩, ?_⟩
  · rw [serialize_result]
    decide +kernel
  · simp [logOnly, atomsL, atoms, InConstraint]

/-- Non-vacuity of `C32_exact`: `toyProg` is accepted; with its second constraint removed, variable 3 is reported. -/
example : (serialize (toyCodec (ZMod 97) ℕ) toySem _root_.id (toyId .bn128) toyProg ()).2 = .ok 3 ∧
    (serialize (toyCodec (ZMod 97) ℕ) toySem _root_.id (toyId .bn128)
      { toyProg with statements := toyProg.statements.eraseIdx 4 } ()).2 = .error 1 := by
  rw [serialize_result, serialize_result]
  decide +kernel

end Zok.Ser
