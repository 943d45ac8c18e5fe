import Verif.Model.Export
import Verif.Spec.Sat

/-
What exported files mean: rank-1 constraint systems, the binary formats `.r1cs` and `.wtns` of iden3, SMT-LIB terms over the
integers, and circuits of a proving backend. Only the data types of `Verif/Model/Export.lean` are used.
-/

namespace Zok.Export

section
variable {F : Type _} [Field F]

/-- The scalar product of a sparse vector with the wire values. -/
def dot (l : List (ℕ × F)) (x : ℕ → F) : F := (l.map fun t => t.2 * x t.1).sum

/-- A row `(A, B, C)` of a rank-1 constraint system holds: `⟨A,x⟩ ⟨B,x⟩ = ⟨C,x⟩`. -/
def RowSat (x : ℕ → F) (r : Row F) : Prop := dot r.1 x * dot r.2.1 x = dot r.2.2 x

end

/-- The wires of a row are below `n`. -/
def RowBounded {F : Type _} (n : ℕ) (r : Row F) : Prop :=
  (∀ t ∈ r.1, t.1 < n) ∧ (∀ t ∈ r.2.1, t.1 < n) ∧ ∀ t ∈ r.2.2, t.1 < n

/-- The arguments are distinct variables other than `~one` and the outputs. -/
def ArgsInternal {F Z : Type _} (p : Prog F Z) : Prop :=
  (p.arguments.map Parameter.id).Nodup ∧ ∀ a ∈ p.arguments, (0 : ℤ) < a.id

/-- The canonical representatives of the coefficients. -/
def natTerms {p : ℕ} (l : List (ℕ × ZMod p)) : List (ℕ × ℕ) := l.map fun t => (t.1, t.2.val)

/-- The canonical representatives of the coefficients of a row. -/
def natRow {p : ℕ} (r : Row (ZMod p)) : List (ℕ × ℕ) × List (ℕ × ℕ) × List (ℕ × ℕ) :=
  (natTerms r.1, natTerms r.2.1, natTerms r.2.2)

/-! ### Binary formats -/

abbrev Reader (α : Type _) := Ser.Bytes → Option (α × Ser.Bytes)

/-- A little endian number of `k` bytes. -/
def rdNum (k : ℕ) : Reader ℕ := fun b =>
  if k ≤ b.length then some (Fld.natLE (b.take k), b.drop k) else none

/-- `n` items. -/
def rdMany {α : Type _} (rd : Reader α) : ℕ → Reader (List α)
  | 0, b => some ([], b)
  | n + 1, b => match rd b with
    | none => none
    | some (a, b) => match rdMany rd n b with
      | none => none
      | some (as, b) => some (a :: as, b)

/-- A term of a linear combination: wire (4 bytes) and coefficient (`fs` bytes). -/
def rdTerm (fs : ℕ) : Reader (ℕ × ℕ) := fun b => match rdNum 4 b with
  | none => none
  | some (i, b) => match rdNum fs b with
    | none => none
    | some (c, b) => some ((i, c), b)

/-- A linear combination: number of terms (4 bytes) and terms. -/
def rdLin (fs : ℕ) : Reader (List (ℕ × ℕ)) := fun b => match rdNum 4 b with
  | none => none
  | some (n, b) => rdMany (rdTerm fs) n b

/-- A constraint: three linear combinations. -/
def rdRow (fs : ℕ) : Reader (List (ℕ × ℕ) × List (ℕ × ℕ) × List (ℕ × ℕ)) := fun b => match rdLin fs b with
  | none => none
  | some (x, b) => match rdLin fs b with
    | none => none
    | some (y, b) => match rdLin fs b with
      | none => none
      | some (z, b) => some ((x, y, z), b)

/-- A section: type (4 bytes), size (8 bytes) and `size` bytes of contents. -/
def rdSection : Reader (ℕ × Ser.Bytes) := fun b => match rdNum 4 b with
  | none => none
  | some (ty, b) => match rdNum 8 b with
    | none => none
    | some (n, b) => if n ≤ b.length then some ((ty, b.take n), b.drop n) else none

/-- A file: magic number, version and sections, until the end of the file. -/
def rdFile (magic : Ser.Bytes) (version : ℕ) (b : Ser.Bytes) : Option (List (ℕ × Ser.Bytes)) :=
  if b.take 4 ≠ magic then none else match rdNum 4 (b.drop 4) with
    | none => none
    | some (v, b) => if v ≠ version then none else match rdNum 4 b with
      | none => none
      | some (n, b) => match rdMany rdSection n b with
        | some (ss, []) => some ss
        | _ => none

/-- The contents of an `.r1cs` file. -/
structure R1csFile where
  prime : ℕ
  nWires : ℕ
  nPubOut : ℕ
  nPubIn : ℕ
  nPrvIn : ℕ
  nLabels : ℕ
  rows : List (List (ℕ × ℕ) × List (ℕ × ℕ) × List (ℕ × ℕ))
deriving DecidableEq

/-- Reading the sections of an `.r1cs` file: section 1 is the header, section 2 the constraints, and both must be read to
their end. -/
def rdR1cs (ss : List (ℕ × Ser.Bytes)) : Option R1csFile := match ss.lookup 1, ss.lookup 2 with
  | some h, some c => match rdNum 4 h with
    | none => none
    | some (fs, h) => match rdNum fs h with
      | none => none
      | some (prime, h) => match rdMany (rdNum 4) 4 h with
        | some ([nWires, nPubOut, nPubIn, nPrvIn], h) => match rdNum 8 h with
          | none => none
          | some (nLabels, h) => match rdNum 4 h with
            | some (n, []) => match rdMany (rdRow fs) n c with
              | some (rows, []) => some ⟨prime, nWires, nPubOut, nPubIn, nPrvIn, nLabels, rows⟩
              | _ => none
            | _ => none
        | _ => none
  | _, _ => none

/-- Reading the sections of a `.wtns` file: the prime and the values. -/
def rdWtns (ss : List (ℕ × Ser.Bytes)) : Option (ℕ × List ℕ) := match ss.lookup 1, ss.lookup 2 with
  | some h, some c => match rdNum 4 h with
    | none => none
    | some (fs, h) => match rdNum fs h with
      | none => none
      | some (prime, h) => match rdNum 4 h with
        | some (n, []) => match rdMany (rdNum fs) n c with
          | some (vals, []) => some (prime, vals)
          | _ => none
        | _ => none
  | _, _ => none

/-! ### SMT-LIB -/

mutual
/-- The integer value of a term, under a valuation of the names. `mod` is the Euclidean remainder. -/
def SExp.int (σ : List Char → ℤ) : SExp → Option ℤ
  | .num n => some n
  | .sym s => some (σ s)
  | .app op args => match SExp.ints σ args with
    | none => none
    | some xs => if op = "+" then some xs.sum else if op = "*" then some xs.prod
      else if op = "mod" then match xs with
        | [a, b] => some (a % b)
        | _ => none
      else none
/-- The values of a list of terms. -/
def SExp.ints (σ : List Char → ℤ) : List SExp → Option (List ℤ)
  | [] => some []
  | e :: es => match SExp.int σ e, SExp.ints σ es with
    | some x, some xs => some (x :: xs)
    | _, _ => none
end

/-- The truth of an equation between terms. -/
def SExp.EqHolds (σ : List Char → ℤ) : SExp → Prop
  | .app "=" [a, b] => ∃ x, SExp.int σ a = some x ∧ SExp.int σ b = some x
  | _ => False

/-- The truth of a conjunction of equations. -/
def SExp.AndHolds (σ : List Char → ℤ) : SExp → Prop
  | .app "and" es => ∀ e ∈ es, SExp.EqHolds σ e
  | _ => False

mutual
/-- The names occurring in an expression. -/
def SExp.names : SExp → List (List Char)
  | .num _ => []
  | .sym s => [s]
  | .app _ args => SExp.namesL args
/-- The names occurring in a list of expressions. -/
def SExp.namesL : List SExp → List (List Char)
  | [] => []
  | e :: es => SExp.names e ++ SExp.namesL es
end

/-! ### Backends -/

section
variable {F : Type _} [Field F]

/-- The value of a wire, given the values of the public and of the other variables. -/
def Wire.val (inputs auxs : ℕ → F) : Wire → F
  | .one => 1
  | .input i => inputs i
  | .aux i => auxs i

/-- The value of a combination of wires. -/
def wireVal (inputs auxs : ℕ → F) (l : List (F × Wire)) : F := (l.map fun t => t.1 * t.2.val inputs auxs).sum

/-- A constraint of the backend holds. -/
def WireSat (inputs auxs : ℕ → F) (c : List (F × Wire) × List (F × Wire) × List (F × Wire)) : Prop :=
  wireVal inputs auxs c.1 * wireVal inputs auxs c.2.1 = wireVal inputs auxs c.2.2

end

/-- The variables of the constraints (top level) in the order in which they are written. -/
def constraintVars {F Z : Type _} : List (Stmt F Z) → List Variable
  | [] => []
  | .constraint c :: ss =>
    c.quad.left.map Prod.fst ++ c.quad.right.map Prod.fst ++ c.lin.map Prod.fst ++ constraintVars ss
  | _ :: ss => constraintVars ss

/-- Keep the first occurrence of each element. -/
def firstOccurrences : List Variable → List Variable → List Variable
  | _, [] => []
  | seen, v :: vs => if v ∈ seen then firstOccurrences seen vs else v :: firstOccurrences (v :: seen) vs

end Zok.Export
