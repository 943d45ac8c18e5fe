import Verif.Model.Flattener
import Verif.Spec.Flat
import Verif.Spec.ZirOk

/-
Specification: what it means for the circuit under construction to represent source values, under an assignment `ρ` of
the circuit variables.
-/

namespace Zok
variable {p : ℕ} {Z : Type} [Fact p.Prime]

/-- All statements are satisfied. -/
def SatF (ρ : Assignment (ZMod p)) (out : List (FlatStmt (ZMod p) Z)) : Prop := ∀ s ∈ out, FlatStmt.Sat ρ s

/-- The expressions evaluate to the given booleans. -/
def BitsRel (ρ : Assignment (ZMod p)) (bs : List (FlatExpr (ZMod p))) (bl : List Bool) : Prop :=
  bs.map (FlatExpr.val ρ) = bl.map boolF

/-- A cache entry is correct: the bits are booleans, the low-order digits of an integer `N` representing the expression,
which is the canonical representative unless the decomposition has the full width of the field. -/
def EntryOk (ρ : Assignment (ZMod p)) (f : FlatExpr (ZMod p)) (c : CacheEntry p) : Prop :=
  c.bits.length ≤ Fld.requiredBits p ∧ ∃ bl N, BitsRel ρ c.bits bl ∧ ((N : ℕ) : ZMod p) = f.val ρ ∧
    natBE bl = N % 2 ^ c.bits.length ∧ (c.exact = true → natBE bl = N) ∧
    (N < p ∨ (c.bits.length = Fld.requiredBits p ∧ N = natBE bl))

/-- All cache entries are correct. -/
def CacheOk (ρ : Assignment (ZMod p)) (st : FlState p Z) : Prop := ∀ f c, st.cache f = some c → EntryOk ρ f c

/-- The circuit variable `y` represents the value of the variable `x` of kind `k`. -/
def VarOk (env : ZEnv p) (ρ : Assignment (ZMod p)) (x : ZId) (y : Variable) : Kind → Prop
  | .field => env x = some (.field (ρ y))
  | .bool => ∃ b, env x = some (.bool b) ∧ ρ y = boolF b
  | .uint w mx => ∃ n, env x = some (.uint w n) ∧ n < 2 ^ w ∧ (ρ y).val % 2 ^ w = n ∧ (ρ y).val ≤ mx

/-- All variables of the context are represented. -/
def EnvOk (Γ : Ctx) (env : ZEnv p) (L : ZId → Option Variable) (ρ : Assignment (ZMod p)) : Prop :=
  ∀ x k, Γ x = some k → ∃ y, L x = some y ∧ VarOk env ρ x y k

/-- The representation of an unsigned integer `n` of width `w` by a field expression that is congruent to it and at most
`mx`, and/or by its bits. -/
structure URel (ρ : Assignment (ZMod p)) (w mx n : ℕ) (u : FlatU p) : Prop where
  lt : n < 2 ^ w
  field : ∀ f, u.field = some f → (f.val ρ).val % 2 ^ w = n ∧ (f.val ρ).val ≤ mx
  bits : ∀ bs, u.bits = some bs → ∃ bl, BitsRel ρ bs bl ∧ bl.length = w ∧ natBE bl = n
  hne : u.field = none → (∃ bs, u.bits = some bs) ∧ n ≤ mx
  exact : u.exact = true → ∀ f, u.field = some f → u.bits ≠ none → (f.val ρ).val = n

/-- Faults the circuit does not detect. -/
def Undetected (f : Fault) : Prop := f = .divZero ∨ f = .notBool

end Zok
