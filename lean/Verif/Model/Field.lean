import Mathlib.Data.ZMod.Basic
import Mathlib.Algebra.Field.ZMod
import Mathlib.Data.Nat.Size
import Mathlib.Data.Nat.Digits.Defs
import Verif.Spec.Bits

/-
`zokrates_field/src/lib.rs`, the `prime_field!` macro. The elements `Fr` of the external crate `ark_ff` are modelled by
`ZMod p`; `into_repr` is the canonical representative `ZMod.val`. `ark_ff::BigInteger` representations have a whole
number of 64-bit limbs.
-/

namespace Zok.Fld
variable {p : ℕ}

/-- `get_required_bits` = `MODULUS_BITS`, `lib.rs:257-260`. -/
def requiredBits (p : ℕ) : ℕ := Nat.size p

/-- Number of 64-bit limbs of `ark_ff`'s `BigInteger` for a modulus `p` (external crate: smallest number of limbs
holding the modulus; true of the six curves the code instantiates). -/
def limbs (p : ℕ) : ℕ := (requiredBits p + 63) / 64

/-- Length of the bit representation of `into_repr()`. -/
def reprBits (p : ℕ) : ℕ := 64 * limbs p

/-- `into_repr().to_bits_be()` (external): all bits of the limbs, most significant first. -/
def reprBitsBe (x : ZMod p) : List Bool := bitsBE (reprBits p) x.val

/-- `to_bits_be`, `lib.rs:204-208`. -/
def toBitsBe (x : ZMod p) : List Bool :=
  let res := reprBitsBe x
  res.drop (res.length - requiredBits p)

/-- The loop of `bits`, `lib.rs:188-195`: the number of bits left after removing leading zeroes. -/
def stripLen : List Bool → ℕ
  | [] => 0
  | b :: bs => if b then (b :: bs).length else stripLen bs

/-- `bits`, `lib.rs:185-197`. -/
def bits (x : ZMod p) : ℕ := max (stripLen (reprBitsBe x)) 1

/-- `to_biguint`, `lib.rs:199-202` (through little-endian bytes, which is the identity on the integer). -/
def toBiguint (x : ZMod p) : ℕ := x.val

/-- Little-endian base-256 digits. -/
def bytesLE : ℕ → ℕ → List ℕ
  | 0, _ => []
  | n + 1, x => x % 256 :: bytesLE n (x / 256)

/-- The number denoted by little-endian bytes. -/
def natLE : List ℕ → ℕ
  | [] => 0
  | b :: bs => b + 256 * natLE bs

/-- `to_byte_vector`, `lib.rs:210-213`. -/
def toByteVector (x : ZMod p) : List ℕ := bytesLE (8 * limbs p) x.val

/-- `from_byte_vector`, `lib.rs:228-233`. `BigInt::read` consumes exactly `8 * limbs` bytes (`none`: the `unwrap`
panics when there are too few), and `Fr::from` panics on integers that are not below the modulus. -/
def fromByteVector (p : ℕ) (bs : List ℕ) : Option (ZMod p) :=
  if bs.length < 8 * limbs p then none
  else
    let n := natLE (bs.take (8 * limbs p))
    if n < p then some (n : ZMod p) else none

/-- `max_value`, `lib.rs:249-251`. -/
def maxValue (p : ℕ) : ZMod p := -1

/-- `max_unique_value`, `lib.rs:252-256`. -/
def maxUniqueValue (p : ℕ) : ZMod p := 2 ^ (requiredBits p - 1) - 1

/-- `inverse_mul`, `lib.rs:239-244`. -/
def inverseMul (x : ZMod p) : Option (ZMod p) := if x = 0 then none else some x⁻¹

/-- `checked_div`, `lib.rs:462-472`. -/
def checkedDiv (x y : ZMod p) : Option (ZMod p) := if y = 0 then none else some (x * y⁻¹)

/-- `TryFrom<BigUint>`, `lib.rs:375-389`; `Fr::from_str` of the decimal digits of `n ≤ p-1` is `n`. -/
def tryFromBiguint (p : ℕ) (n : ℕ) : Option (ZMod p) :=
  if n ≤ (maxValue p).val then some (n : ZMod p) else none

/-- `From<i32>`, `lib.rs:361-373`. -/
def fromI32 (p : ℕ) (n : ℤ) : ZMod p := if n < 0 then -(((-n).toNat : ℕ) : ZMod p) else ((n.toNat : ℕ) : ZMod p)

/-- Result of `checked_add`/`checked_mul`: `panicked` is a failed `assert!`. -/
inductive Checked (α : Type) where
  | panicked
  | none
  | some (a : α)
deriving DecidableEq, Repr

/-- `checked_add`, `lib.rs:502-521`. Elements are compared through `into_repr` (derived `PartialOrd` of the wrapped
`Fr`). -/
def checkedAdd (x y : ZMod p) : Checked (ZMod p) :=
  let bound := maxUniqueValue p
  if ¬ x.val ≤ bound.val then .panicked
  else if ¬ y.val ≤ bound.val then .panicked
  else if x.val + y.val > bound.val then .none
  else .some (x + y)

/-- `checked_mul`, `lib.rs:523-542`. -/
def checkedMul (x y : ZMod p) : Checked (ZMod p) :=
  let bound := maxUniqueValue p
  if ¬ x.val ≤ bound.val then .panicked
  else if ¬ y.val ≤ bound.val then .panicked
  else if x.val * y.val > bound.val then .none
  else .some (x * y)

end Zok.Fld

namespace Zok.Fld
variable {p : ℕ}

/-- A decimal digit as a character. -/
def digitChar (d : ℕ) : Char := Char.ofNat (48 + d)

/-- `BigUint::to_string` (external): decimal digits without leading zero, `"0"` for zero. -/
def decString (n : ℕ) : List Char :=
  if n = 0 then ['0'] else ((Nat.digits 10 n).reverse).map digitChar

/-- `to_dec_string`, `lib.rs:235-237` through `Display`, `lib.rs:306-310`. -/
def toDecString (x : ZMod p) : List Char := decString x.val

/-- `to_compact_dec_string`, `lib.rs:272-282`. `modulus_minus_one_div_two` is `(p-1)/2` (external). -/
def toCompactDecString (x : ZMod p) : List Char :=
  if x.val ≤ (p - 1) / 2 then toDecString x
  else ['(', '-'] ++ toDecString (maxValue p - x + 1) ++ [')']

/-- Value of a character as a digit in `BigUint::parse_bytes` (external crate `num-bigint`): digits and letters;
`none` for any other byte. -/
def charDigit (c : Char) : Option ℕ :=
  if '0' ≤ c ∧ c ≤ '9' then some (c.toNat - 48)
  else if 'a' ≤ c ∧ c ≤ 'z' then some (c.toNat - 97 + 10)
  else if 'A' ≤ c ∧ c ≤ 'Z' then some (c.toNat - 65 + 10)
  else none

/-- The digit loop of `BigUint::from_str_radix` (external): underscores are skipped. -/
def parseDigits (radix : ℕ) : List Char → ℕ → Option ℕ
  | [], acc => some acc
  | c :: cs, acc =>
    if c = '_' then parseDigits radix cs acc
    else match charDigit c with
      | none => none
      | some d => if d < radix then parseDigits radix cs (acc * radix + d) else none

/-- `BigUint::parse_bytes` (external crate `num-bigint`): one optional leading `+`, a non-empty body that does not
start with an underscore. -/
def parseBytes (radix : ℕ) (s : List Char) : Option ℕ :=
  let s := match s with
    | '+' :: '+' :: tl => '+' :: '+' :: tl
    | '+' :: tl => tl
    | s => s
  match s with
  | [] => none
  | '_' :: _ => none
  | s => parseDigits radix s 0

/-- `try_from_str`, `lib.rs:268-271`. -/
def tryFromStr (p : ℕ) (s : List Char) (radix : ℕ) : Option (ZMod p) :=
  match parseBytes radix s with
  | none => none
  | some n => tryFromBiguint p n

end Zok.Fld
