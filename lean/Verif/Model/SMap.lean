/-
Ordered maps keyed by constraint-system variables.

`std::collections::BTreeMap<Variable, V>` is modelled by a strictly increasing association list. The operations
below are the ones the modelled code uses: `get`, `insert`, `remove`, `contains_key`, ordered iteration.
-/

namespace Zok

/-- A constraint-system variable: `zokrates_ast/src/common/flat/variable.rs:10-13`
(`struct Variable { id: isize }`). `isize` is modelled by `Int`; the Rust newtype is transparent. The derived
`Ord` compares `id`. -/
abbrev Variable := Int

namespace Variable

/-- `Variable::new`, `variable.rs:16-20`. -/
def new (id : Nat) : Variable := 1 + (id : Int)

/-- `Variable::one`, `variable.rs:22-24`. -/
def one : Variable := (0 : Int)

/-- `Variable::public`, `variable.rs:26-30`. -/
def pub (id : Nat) : Variable := -(id : Int) - 1

/-- `Variable::is_output`, `variable.rs:77-79`. -/
def isOutput (v : Variable) : Bool := decide ((v : Int) < 0)

end Variable

/-- `BTreeMap<Variable, V>` as an association list; `SMap.Sorted` is its invariant. -/
abbrev SMap (V : Type _) := List (Variable × V)

namespace SMap
variable {V : Type _}

/-- `BTreeMap::get`. -/
def get : SMap V → Variable → Option V
  | [], _ => none
  | (k, v) :: m, x => if x = k then some v else get m x

/-- `BTreeMap::insert` (the returned old value is not used by the modelled code). -/
def insert : SMap V → Variable → V → SMap V
  | [], x, v => [(x, v)]
  | (k, w) :: m, x, v =>
    if x < k then (x, v) :: (k, w) :: m
    else if x = k then (x, v) :: m
    else (k, w) :: insert m x v

/-- `BTreeMap::remove`. -/
def erase : SMap V → Variable → SMap V
  | [], _ => []
  | (k, w) :: m, x => if x = k then m else (k, w) :: erase m x

/-- `BTreeMap::contains_key`. -/
def contains (m : SMap V) (x : Variable) : Bool := (m.get x).isSome

/-- The keys in increasing order. -/
def keys (m : SMap V) : List Variable := m.map Prod.fst

/-- The representation invariant: keys strictly increasing. -/
def Sorted (m : SMap V) : Prop := m.Pairwise (fun a b => a.1 < b.1)

end SMap
end Zok
