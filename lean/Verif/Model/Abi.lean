import Verif.Model.Field
import Verif.Spec.Bits

/-
`zokrates_abi/src/lib.rs`: values, their encoding to and decoding from field elements, printing to and parsing from JSON;
`get_primitive_count` of `zokrates_ast/src/typed/types.rs`. Strings are lists of characters.
-/

namespace Zok.Abi

abbrev Str := List Char

/-- `UBitwidth`, `zokrates_ast/src/typed/types.rs:646-656`. -/
inductive UW where
  | b8 | b16 | b32 | b64
deriving DecidableEq, Repr

/-- The number of bits of a width. -/
def UW.bits : UW → ℕ
  | .b8 => 8
  | .b16 => 16
  | .b32 => 32
  | .b64 => 64

/-- `ConcreteType = GType<u32>`, `zokrates_ast/src/typed/types.rs:684-692`. Array sizes are `u32` in the code, unbounded here;
the names and the generics of a struct type play no role in the ABI and are dropped. -/
inductive CType where
  | int
  | field
  | bool
  | uint (w : UW)
  | array (size : ℕ) (ty : CType)
  | struct (members : List (Str × CType))
  | tuple (elems : List CType)

/-- `zokrates_abi::Value`, `lib.rs:40-51`: `uint w n` stands for `U8(n)`, …, `U64(n)`. -/
inductive AVal (F : Type) where
  | field (x : F)
  | uint (w : UW) (n : ℕ)
  | bool (b : Bool)
  | array (vs : List (AVal F))
  | struct (ms : List (Str × AVal F))
  | tuple (vs : List (AVal F))

mutual
/-- `get_primitive_count`, `zokrates_ast/src/typed/types.rs:999-1018`; `none` is the `unreachable!()` of `Int`. The product is
a `usize` in the code. -/
def primCount : CType → Option ℕ
  | .int => none
  | .field => some 1
  | .bool => some 1
  | .uint _ => some 1
  | .array n t => match primCount t with
    | none => none
    | some c => some (n * c)
  | .struct ms => primCountM ms
  | .tuple ts => primCountL ts
/-- The sum over the elements of a tuple. -/
def primCountL : List CType → Option ℕ
  | [] => some 0
  | t :: ts => match primCount t, primCountL ts with
    | some a, some b => some (a + b)
    | _, _ => none
/-- The sum over the members of a struct. -/
def primCountM : List (Str × CType) → Option ℕ
  | [] => some 0
  | (_, t) :: ts => match primCount t, primCountM ts with
    | some a, some b => some (a + b)
    | _, _ => none
end

variable {p : ℕ}

mutual
/-- `Value::encode`, `lib.rs:109-123`. -/
def encode : AVal (ZMod p) → List (ZMod p)
  | .field x => [x]
  | .uint _ n => [(n : ZMod p)]
  | .bool b => [boolF b]
  | .array vs => encodeL vs
  | .tuple vs => encodeL vs
  | .struct ms => encodeM ms
/-- `flat_map` over a list of values: arrays, tuples, and `Values::encode`, `lib.rs:206-210`. -/
def encodeL : List (AVal (ZMod p)) → List (ZMod p)
  | [] => []
  | v :: vs => encode v ++ encodeL vs
/-- `flat_map` over the members of a struct. -/
def encodeM : List (Str × AVal (ZMod p)) → List (ZMod p)
  | [] => []
  | (_, v) :: vs => encode v ++ encodeM vs
end

/-- `<[T]>::chunks(n)` (standard library): consecutive pieces of length `n`, the last one possibly shorter. `fuel` bounds the
number of pieces; the length of the list suffices. -/
def chunks {α : Type _} (n : ℕ) : ℕ → List α → List (List α)
  | 0, _ => []
  | _ + 1, [] => []
  | fuel + 1, l => l.take n :: chunks n fuel (l.drop n)

/-- `raw[a..b].to_vec()`: `none` is the panic of an out-of-range slice. -/
def slice {α : Type _} (raw : List α) (a b : ℕ) : Option (List α) :=
  if b ≤ raw.length then some ((raw.take b).drop a) else none

mutual
/-- `Value::decode`, `lib.rs:143-204`; `none` is a panic: `unwrap` of an empty `pop`, a decimal string that does not fit the
integer type, a boolean that is neither zero nor one, an out-of-range slice, `chunks(0)`, or type `Int`. -/
def decode : CType → List (ZMod p) → Option (AVal (ZMod p))
  | .int, _ => none
  | .field, raw => match raw.getLast? with
    | none => none
    | some x => some (.field x)
  | .uint w, raw => match raw.getLast? with
    | none => none
    | some x => if x.val < 2 ^ w.bits then some (.uint w x.val) else none
  | .bool, raw => match raw.getLast? with
    | none => none
    | some x => if x = 0 then some (.bool false) else if x = 1 then some (.bool true) else none
  | .array _ t, raw => match primCount t with
    | none => none
    | some c => if c = 0 then none else match (chunks c raw.length raw).mapM (decode t) with
      | none => none
      | some vs => some (.array vs)
  | .struct ms, raw => match decodeM ms raw 0 with
    | none => none
    | some vs => some (.struct vs)
  | .tuple ts, raw => match decodeL ts raw 0 with
    | none => none
    | some vs => some (.tuple vs)
/-- The `scan` over the element types of a tuple, and of `Values::decode`, `lib.rs:125-141`. -/
def decodeL : List CType → List (ZMod p) → ℕ → Option (List (AVal (ZMod p)))
  | [], _, _ => some []
  | t :: ts, raw, st => match primCount t with
    | none => none
    | some c => match slice raw st (st + c) with
      | none => none
      | some s => match decode t s with
        | none => none
        | some v => match decodeL ts raw (st + c) with
          | none => none
          | some vs => some (v :: vs)
/-- The `scan` over the members of a struct. -/
def decodeM : List (Str × CType) → List (ZMod p) → ℕ → Option (List (Str × AVal (ZMod p)))
  | [], _, _ => some []
  | (id, t) :: ts, raw, st => match primCount t with
    | none => none
    | some c => match slice raw st (st + c) with
      | none => none
      | some s => match decode t s with
        | none => none
        | some v => match decodeM ts raw (st + c) with
          | none => none
          | some vs => some ((id, v) :: vs)
end

/-- `serde_json::Value`. A number is kept as text; an object is a `serde_json::Map`, a list of entries with distinct keys. -/
inductive Json where
  | null
  | bool (b : Bool)
  | num (s : Str)
  | str (s : Str)
  | arr (js : List Json)
  | obj (o : List (Str × Json))

/-- A hexadecimal digit as `format!("{:x}")` prints it. -/
def hexChar (d : ℕ) : Char := if d < 10 then Char.ofNat (48 + d) else Char.ofNat (87 + d)

/-- The low `k` hexadecimal digits of `n`, most significant first. -/
def hexDigits : ℕ → ℕ → Str
  | 0, _ => []
  | k + 1, n => hexChar (n / 16 ^ k % 16) :: hexDigits k n

/-- `format!("{:#04x}", u)` and its wider versions (standard library): `0x` and zero-padded lower-case digits. The widths in
the code are those of the integer type, so no value has more digits. -/
def fmtHex (w : UW) (n : ℕ) : Str := '0' :: 'x' :: hexDigits (w.bits / 4) n

/-- `Map::insert`: replace the value of an existing key, or append. -/
def objInsert (o : List (Str × Json)) (k : Str) (v : Json) : List (Str × Json) :=
  match o with
  | [] => [(k, v)]
  | (k', v') :: tl => if k' = k then (k', v) :: tl else (k', v') :: objInsert tl k v

mutual
/-- `Value::into_serde_json`, `lib.rs:212-235`. -/
def toJson : AVal (ZMod p) → Json
  | .field x => .str (Fld.toDecString x)
  | .uint w n => .str (fmtHex w n)
  | .bool b => .bool b
  | .array vs => .arr (toJsonL vs)
  | .tuple vs => .arr (toJsonL vs)
  | .struct ms => .obj ((toJsonM ms).foldl (fun o kv => objInsert o kv.1 kv.2) [])
/-- Elements of arrays and tuples, and `Values::into_serde_json`, `lib.rs:237-241`. -/
def toJsonL : List (AVal (ZMod p)) → List Json
  | [] => []
  | v :: vs => toJson v :: toJsonL vs
/-- Entries of a struct, before `collect` inserts them one by one into the map. -/
def toJsonM : List (Str × AVal (ZMod p)) → List (Str × Json)
  | [] => []
  | (k, v) :: vs => (k, toJson v) :: toJsonM vs
end

/-- `zokrates_abi::Error`, `lib.rs:21-26`, without the messages. -/
inductive AbiError where
  | conversion
  | type
deriving DecidableEq, Repr

/-- `trim_start_matches("0x")`: every leading occurrence is removed. -/
def trimHex : Str → Str
  | '0' :: 'x' :: tl => trimHex tl
  | s => s

/-- The digit loop of `Fr::from_str` (external crate `ark-ff` 0.3.0): decimal digits accumulated in the field. -/
def frDigits (p : ℕ) : Str → ZMod p → Option (ZMod p)
  | [], acc => some acc
  | c :: cs, acc => if '0' ≤ c ∧ c ≤ '9' then frDigits p cs (acc * 10 + ((c.toNat - 48 : ℕ) : ZMod p)) else none

/-- `Fr::from_str` (external crate `ark-ff` 0.3.0): `"0"`, or decimal digits without a leading zero, *reduced modulo `p`*;
used by `try_from_dec_str`, `zokrates_field/src/lib.rs:261-267`. -/
def tryFromDecStr (p : ℕ) (s : Str) : Option (ZMod p) :=
  match s with
  | [] => none
  | ['0'] => some 0
  | '0' :: _ => none
  | s => frDigits p s 0

/-- The digit loop of `uN::from_str_radix` (standard library), with overflow checked at every step. -/
def uDigits (radix bound : ℕ) : Str → ℕ → Option ℕ
  | [], acc => some acc
  | c :: cs, acc => match Fld.charDigit c with
    | none => none
    | some d => if d < radix then
        if acc * radix + d < bound then uDigits radix bound cs (acc * radix + d) else none
      else none

/-- `uN::from_str_radix` (standard library): a non-empty string of digits, optionally preceded by one `+`. -/
def uFromStr (radix bound : ℕ) (s : Str) : Option ℕ :=
  match s with
  | [] => none
  | ['+'] => none
  | '+' :: tl => uDigits radix bound tl 0
  | s => uDigits radix bound s 0

/-- `Map::remove`: the value of the key and the remaining entries (whose order plays no role). -/
def objRemove (k : Str) : List (Str × Json) → Option (Json × List (Str × Json))
  | [] => none
  | (k', v) :: tl => if k' = k then some (v, tl) else match objRemove k tl with
    | none => none
    | some (r, tl') => some (r, (k', v) :: tl')

/-- `collect::<Result<Vec<_>, _>>()`: the first error, or all values. -/
def collectR {ε α : Type _} : List (Except ε α) → Except ε (List α)
  | [] => .ok []
  | .error e :: _ => .error e
  | .ok a :: tl => match collectR tl with
    | .error e => .error e
    | .ok as => .ok (a :: as)

mutual
/-- `parse_value`, `lib.rs:243-343`. -/
def parseValue : CType → Json → Except AbiError (AVal (ZMod p))
  | .field, .str s => match tryFromDecStr p s with
    | some x => .ok (.field x)
    | none => match Fld.tryFromStr p (trimHex s) 16 with
      | some x => .ok (.field x)
      | none => .error .type
  | .uint w, .str s => match uFromStr 10 (2 ^ w.bits) s with
    | some n => .ok (.uint w n)
    | none => match uFromStr 16 (2 ^ w.bits) (trimHex s) with
      | some n => .ok (.uint w n)
      | none => .error .type
  | .bool, .bool b => .ok (.bool b)
  | .array size t, .arr js =>
    if js.length ≠ size then .error .type
    else match collectR (js.map (parseValue t)) with
      | .error e => .error e
      | .ok vs => .ok (.array vs)
  | .tuple ts, .arr js =>
    if js.length ≠ ts.length then .error .type
    else match collectR (parseZip ts js) with
      | .error e => .error e
      | .ok vs => .ok (.tuple vs)
  | .struct ms, .obj o =>
    if o.length ≠ ms.length then .error .type
    else match parseMembers ms o with
      | .error e => .error e
      | .ok rs => match collectR rs with
        | .error e => .error e
        | .ok vs => .ok (.struct vs)
  | _, .num _ => .error .conversion
  | _, _ => .error .type
/-- `a.into_iter().zip(types).map(|(v, ty)| parse_value(v, ty))`. -/
def parseZip : List CType → List Json → List (Except AbiError (AVal (ZMod p)))
  | t :: ts, j :: js => parseValue t j :: parseZip ts js
  | _, _ => []
/-- The members loop, `lib.rs:316-326`: a missing member is reported before any error inside a member. -/
def parseMembers : List (Str × CType) → List (Str × Json) →
    Except AbiError (List (Except AbiError (Str × AVal (ZMod p))))
  | [], _ => .ok []
  | (id, t) :: ms, o => match objRemove id o with
    | none => .error .type
    | some (j, o') => match parseMembers ms o' with
      | .error e => .error e
      | .ok rs => .ok ((match parseValue t j with | .error e => .error e | .ok v => .ok (id, v)) :: rs)
end

/-- `parse_strict_json`, `lib.rs:359-378`. -/
def parseStrictJson (js : List Json) (ts : List CType) : Except AbiError (List (AVal (ZMod p))) :=
  if js.length ≠ ts.length then .error .type else collectR (parseZip ts js)

/-- `Inputs`, `lib.rs:1-14`: raw field elements are passed through. -/
inductive Inputs (F : Type) where
  | raw (xs : List F)
  | abi (vs : List (AVal F))

/-- `Inputs::encode`, `lib.rs:6-13`. -/
def Inputs.encode : Inputs (ZMod p) → List (ZMod p)
  | .raw xs => xs
  | .abi vs => encodeL vs

end Zok.Abi
