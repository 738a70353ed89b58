import Verif.Model.Types
import Mathlib.Algebra.Order.Field.Rat
import Mathlib.Algebra.Order.Field.Basic

/-!
What the plain Python values are, as far as `==` is concerned.
-/

namespace SqlPuzzle.Spec

/-- The exact value of a number: a `bool`, an `int`, a finite `float` or a finite `Decimal`. -/
inductive HasValue : Obj → ℚ → Prop
  | true_ : HasValue (.bool true) 1
  | false_ : HasValue (.bool false) 0
  | int {i : Int} : HasValue (.int i) i
  | float {neg m e} : HasValue (.float (.fin neg m e)) ((if neg then -1 else 1) * (m * 2 ^ e))
  | decimal {neg c e} : HasValue (.decimal (.fin neg c e)) ((if neg then -1 else 1) * (c * 10 ^ e))

/-- An infinite `float` or `Decimal`, and whether it is negative. -/
inductive Infinite : Obj → Bool → Prop
  | float {neg} : Infinite (.float (.inf neg)) neg
  | decimal {neg} : Infinite (.decimal (.inf neg)) neg

/-- A `float` or `Decimal` that is no number. -/
inductive NotANumber : Obj → Prop
  | float : NotANumber (.float .nan)
  | decimal : NotANumber (.decimal .nan)

/-- The values that are no numbers and equal nothing but themselves: strings, bytes, dates, `None`. -/
inductive Itself : Obj → Prop
  | none : Itself .none
  | str {s} : Itself (.str s)
  | bytes {s} : Itself (.bytes s)
  | date {d} : Itself (.date d)

/-- A number of any kind. -/
inductive AnyNumber : Obj → Prop
  | finite {a x} : HasValue a x → AnyNumber a
  | infinite {a s} : Infinite a s → AnyNumber a
  | nan {a} : NotANumber a → AnyNumber a

end SqlPuzzle.Spec
