import Verif.Model.Abi

/-
Specification of the ABI: which values have a type, and which JSON denotes which value at a type.
-/

namespace Zok.Abi
variable {p : ℕ}

mutual
/-- The value has the type: integers in range, exact lengths, members in order. -/
def HasType : CType → AVal (ZMod p) → Prop
  | .field, .field _ => True
  | .uint w, .uint w' n => w' = w ∧ n < 2 ^ w.bits
  | .bool, .bool _ => True
  | .array size t, .array vs => vs.length = size ∧ ∀ v ∈ vs, HasType t v
  | .struct ms, .struct fs => HasTypeM ms fs
  | .tuple ts, .tuple vs => HasTypeL ts vs
  | _, _ => False
/-- Pointwise typing. -/
def HasTypeL : List CType → List (AVal (ZMod p)) → Prop
  | [], [] => True
  | t :: ts, v :: vs => HasType t v ∧ HasTypeL ts vs
  | _, _ => False
/-- Pointwise typing of members, with the same names in the same order. -/
def HasTypeM : List (Str × CType) → List (Str × AVal (ZMod p)) → Prop
  | [], [] => True
  | (k, t) :: ts, (k', v) :: vs => k' = k ∧ HasType t v ∧ HasTypeM ts vs
  | _, _ => False
end

/-- `s` is a non-empty string of digits (letters are digits from ten on, in either case) below the radix, and denotes `n`. -/
def Numeral (radix : ℕ) (s : Str) (n : ℕ) : Prop :=
  s ≠ [] ∧ ∃ ds : List ℕ, List.Forall₂ (fun c d => Fld.charDigit c = some d ∧ d < radix) s ds ∧
    n = ds.foldl (fun a d => a * radix + d) 0

/-- An optional `+` followed by a numeral. -/
def PlusNumeral (radix : ℕ) (s : Str) (n : ℕ) : Prop := Numeral radix s n ∨ ∃ tl, s = '+' :: tl ∧ Numeral radix tl n

/-- A decimal numeral without superfluous leading zero. -/
def Decimal (s : Str) (n : ℕ) : Prop := Numeral 10 s n ∧ (s.head? = some '0' → s = ['0'])

/-- A hexadecimal numeral in which underscores may separate digits, optionally preceded by `+`. -/
def HexSep (s : Str) (n : ℕ) : Prop :=
  ∃ body, (s = body ∨ s = '+' :: body) ∧ body.head? ≠ some '_' ∧ Numeral 16 (body.filter (· ≠ '_')) n

/-- `t` is `s` without its leading occurrences of `0x`. -/
def WithoutPrefix (s t : Str) : Prop :=
  (∃ k, s = (List.replicate k ['0', 'x']).flatten ++ t) ∧ ∀ u, t ≠ '0' :: 'x' :: u

/-- The texts accepted for an unsigned integer of `w` bits: a decimal numeral below `2^w`, or else a hexadecimal one. -/
def UintText (w : UW) (s : Str) (n : ℕ) : Prop :=
  n < 2 ^ w.bits ∧ (PlusNumeral 10 s n ∨
    ((¬ ∃ m, PlusNumeral 10 s m ∧ m < 2 ^ w.bits) ∧ ∃ t, WithoutPrefix s t ∧ PlusNumeral 16 t n))

/-- The texts accepted for a field element: a decimal numeral, *read modulo `p`*, or else a hexadecimal one below `p`. -/
def FieldText (s : Str) (x : ZMod p) : Prop :=
  (∃ n : ℕ, Decimal s n ∧ x = n) ∨
    ((¬ ∃ n, Decimal s n) ∧ ∃ t n, WithoutPrefix s t ∧ HexSep t n ∧ n < p ∧ x = (n : ZMod p))

mutual
/-- The JSON denotes the value at the type: strings for integers and field elements, exact array lengths, and for a struct an
object whose entries are, in some order, exactly the members. -/
def Denotes : CType → Json → AVal (ZMod p) → Prop
  | .field, .str s, .field x => FieldText s x
  | .uint w, .str s, .uint w' n => w' = w ∧ UintText w s n
  | .bool, .bool b, .bool b' => b' = b
  | .array size t, .arr js, .array vs => js.length = size ∧ List.Forall₂ (Denotes t) js vs
  | .tuple ts, .arr js, .tuple vs => DenotesL ts js vs
  | .struct ms, .obj o, .struct fs => ∃ o', o'.Perm o ∧ DenotesM ms o' fs
  | _, _, _ => False
/-- Pointwise. -/
def DenotesL : List CType → List Json → List (AVal (ZMod p)) → Prop
  | [], [], [] => True
  | t :: ts, j :: js, v :: vs => Denotes t j v ∧ DenotesL ts js vs
  | _, _, _ => False
/-- Pointwise, with equal names. -/
def DenotesM : List (Str × CType) → List (Str × Json) → List (Str × AVal (ZMod p)) → Prop
  | [], [], [] => True
  | (k, t) :: ts, (k', j) :: o, (k'', v) :: vs => k' = k ∧ k'' = k ∧ Denotes t j v ∧ DenotesM ts o vs
  | _, _, _ => False
end

/-- Every object has distinct keys: an invariant of `serde_json::Map`. -/
inductive Json.WF : Json → Prop
  | null : WF .null
  | bool (b) : WF (.bool b)
  | num (s) : WF (.num s)
  | str (s) : WF (.str s)
  | arr (js) : (∀ j ∈ js, WF j) → WF (.arr js)
  | obj (o) : (o.map Prod.fst).Nodup → (∀ kv ∈ o, WF kv.2) → WF (.obj o)

mutual
/-- Struct types have distinct member names: enforced by the semantic checker. -/
def CType.Distinct : CType → Prop
  | .array _ t => t.Distinct
  | .struct ms => (ms.map Prod.fst).Nodup ∧ DistinctM ms
  | .tuple ts => DistinctL ts
  | _ => True
/-- For every element. -/
def DistinctL : List CType → Prop
  | [] => True
  | t :: ts => t.Distinct ∧ DistinctL ts
/-- For every member. -/
def DistinctM : List (Str × CType) → Prop
  | [] => True
  | (_, t) :: ts => t.Distinct ∧ DistinctM ts
end

mutual
/-- No array has elements that take no field element at all (such as `field[0][3]` or an array of empty structs). -/
def CType.Inhabiting : CType → Prop
  | .int => False
  | .array _ t => t.Inhabiting ∧ primCount t ≠ some 0
  | .struct ms => InhabitingM ms
  | .tuple ts => InhabitingL ts
  | _ => True
/-- For every element. -/
def InhabitingL : List CType → Prop
  | [] => True
  | t :: ts => t.Inhabiting ∧ InhabitingL ts
/-- For every member. -/
def InhabitingM : List (Str × CType) → Prop
  | [] => True
  | (_, t) :: ts => t.Inhabiting ∧ InhabitingM ts
end

end Zok.Abi
