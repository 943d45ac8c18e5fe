import Verif.Model.SMap
import Verif.Model.Field

namespace Zok

/-- `Display for Variable`, `zokrates_ast/src/common/flat/variable.rs:52-60` (`Debug`, `62-70`, is the same). -/
def Variable.display (v : Variable) : List Char :=
  if (v : ℤ) = 0 then "~one".toList
  else if (v : ℤ) > 0 then '_' :: Fld.decString ((v : ℤ) - 1).toNat
  else "~out_".toList ++ Fld.decString (-((v : ℤ) + 1)).toNat

end Zok
