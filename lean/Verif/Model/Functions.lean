import Verif.Model.Parts

/-!
Methods of the function objects (`sqlpuzzle/_queryparts/functions.py`).
-/

namespace SqlPuzzle

/-- `FunctionWithDistinct.distinct(allow)` (functions.py:52-54). -/
def funcDistinct (o allow : Obj) : Obj :=
  match o with
  | .func f _ e => .func f allow.truthy e
  | o => o

/-- `GroupConcat.order_by(*args)` (functions.py:138-148, orderby.py:7-8). -/
def groupConcatOrderBy (cx : Ctx) (S : Sem) (o : Obj) (args : List Obj) : Upd Obj :=
  match o with
  | .groupConcat cs os sep =>
    let r := ordersAdd cx S os { pos := args }
    (.groupConcat cs r.1 sep, r.2)
  | o => (o, some .attributeError)

/-- `GroupConcat.separator(separator)` (functions.py:150-160). -/
def groupConcatSeparator (o sep : Obj) : Upd Obj :=
  match o with
  | .groupConcat cs os _ => (.groupConcat cs os sep, none)
  | o => (o, some .attributeError)

/-- `Convert.to(type_)` (functions.py:179-192). -/
def convertTo (cx : Ctx) (S : Sem) (o ty : Obj) : Upd Obj :=
  match o with
  | .convert e _ =>
    match forceText cx S ty with
    | .ok t => (.convert e (some (cx.env.upper t)), none)
    | .error x => (o, some x)
  | o => (o, some .attributeError)

end SqlPuzzle
