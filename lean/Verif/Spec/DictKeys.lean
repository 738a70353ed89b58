import Verif.Model.Args
import Verif.Spec.Entries

/-!
Specification: the order of the keys of a dictionary.
-/

namespace SqlPuzzle.Spec

/-- A key with a text: a string, or an object of the library, which has the text it is written as. -/
inductive KeyText (S : Sem) : Obj → Str → Prop
  | str (s : Str) : KeyText S (.str s) s
  | object {o : Obj} {s : Str} : o.isSql = true → S.str o = .ok s → KeyText S o s

/-- A key that is a number; `True` is 1 and `False` is 0. -/
inductive KeyNumber : Obj → Int → Prop
  | int (i : Int) : KeyNumber (.int i) i
  | yes : KeyNumber (.bool true) 1
  | no : KeyNumber (.bool false) 0

/-- Texts come in the order of their characters, numbers by their values; a text and a number have no order. -/
inductive KeyAtMost (S : Sem) (a b : Obj) : Prop
  | text {s t : Str} : KeyText S a s → KeyText S b t → Before s t → KeyAtMost S a b
  | number {i j : Int} : KeyNumber a i → KeyNumber b j → i ≤ j → KeyAtMost S a b

end SqlPuzzle.Spec
