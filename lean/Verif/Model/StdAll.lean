import Verif.Model.StdEddsa
import Verif.Model.StdKeccak
import Verif.Model.StdBlake
import Verif.Model.StdPedersen

/-
The modelled functions of the standard library.
-/

namespace Zok.Typed.Std
open Abi
variable {p : ℕ}

/-- All functions of the library. -/
def stdlib : Program (ZMod p) := fun key ns ts t =>
  if key < 20 then utils key ns ts t else if key < 30 then ecc key ns ts t else if key < 50 then sha key ns ts t else if key < 60 then signatures key ns ts t else if key < 70 then sha3 key ns ts t else if key < 80 then blake2 key ns ts t else if key < 90 then mimc key ns ts t else if key < 100 then poseidonLib key ns ts t else pedersenLib key ns ts t

end Zok.Typed.Std
