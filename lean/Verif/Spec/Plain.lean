import Verif.Model.Types

/-!
Plain Python values: what `==` compares without calling the library.
-/

namespace SqlPuzzle

/-- Strings, integers, `None`, bytes, dates and naive datetimes. -/
def Obj.scalar : Obj → Bool
  | .str _ | .int _ | .none | .bytes _ | .date _ => true
  | .datetime d => d.tz.isNone
  | _ => false

/-- A scalar or a list of scalars. -/
def Obj.plain : Obj → Bool
  | .list xs => xs.all Obj.scalar
  | v => v.scalar

end SqlPuzzle
