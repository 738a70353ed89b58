import Verif.Model.Pattern
import Verif.Model.Queries

/-!
`Query.has` and `has` of the query parts; `configure`.
-/

namespace SqlPuzzle

/-- Characters with a meaning in a regular expression. -/
def isMeta (c : Char) : Bool := L!"\\^$.|?*+()[]{}".contains c

/-- Does `text` start with `v`, followed by the end or by a character outside `\w`? -/
def wordAt (cx : Ctx) : Str → Str → Bool
  | [], [] => true
  | [], c :: _ => !cx.env.isWord c
  | _ :: _, [] => false
  | v :: vs, c :: cs => v == c && wordAt cx vs cs

/-- `re.search('([^\w]|^)VALUE([^\w]|$)', text)` (queryparts.py:20-25) at every position; `prev`
tells whether the previous character is in `\w`. -/
def searchFrom (cx : Ctx) (v : Str) : Bool → Str → Bool
  | prev, [] => !prev && wordAt cx v []
  | prev, c :: cs => (!prev && wordAt cx v (c :: cs)) || searchFrom cx v (cx.env.isWord c) cs

/-- `has(part, value)` (queryparts.py:20-25) on the text of the part.  The value is put into the
pattern as it is.  For a value without special characters the search is written out (`searchFrom`);
that it is the search for the pattern is `C64_plain`. -/
def hasText (cx : Ctx) (v : Str) (text : Str) : R Bool :=
  if v.any isMeta then
    match hasPattern v with
    | .error e => .error e
    | .ok r => .ok (patSearch cx.env.isWord r text)
  else .ok (searchFrom cx v false text)

section
variable (cx : Ctx) (S : Sem)

/-- A query part as `has` sees it: is it set, its text, and is it an `Options` part, which
upper-cases the value (options.py:30-31)? -/
structure PartView where
  isSet : Bool
  text : R Str
  upper : Bool := false

/-- `querypart.has(value)` (queryparts.py:33-34, 72-73, options.py:30-31).  Text is only computed for the
search. -/
def partHas (p : PartView) (v : Obj) : R Bool := do
  let t ← forceText cx S v
  let s ← p.text
  hasText cx (if p.upper then cx.env.upper t else t) s

/-- `Query.has` (query.py:46-61) for a part that defines `is_set` and `has`. -/
def viewHas (p : PartView) (v : Obj) : R Bool :=
  if !p.isSet then .ok false
  else if v.truthy then partHas cx S p v
  else .ok true

/-- Parts of a `Select` by name (select.py:36-47), except `select_for_update`. -/
def selectPart (q : Select) (name : Str) : Option PartView :=
  if name = L!"select_options" then
    some ⟨!q.opts.words.isEmpty, .ok (optionsText q.opts.words), true⟩
  else if name = L!"columns" then some ⟨true, columnsText cx S q.columns, false⟩
  else if name = L!"tables" then
    some ⟨!q.tables.isEmpty, tablesText cx S L!"FROM" q.tables, false⟩
  else if name = L!"where" then some ⟨!q.where_.isEmpty, condsText cx S L!"WHERE" q.where_, false⟩
  else if name = L!"group_by" then
    some ⟨!q.groupBy.isEmpty, ordersText cx S L!"GROUP BY" q.groupBy, false⟩
  else if name = L!"having" then
    some ⟨!q.having.isEmpty, condsText cx S L!"HAVING" q.having, false⟩
  else if name = L!"order_by" then
    some ⟨!q.orderBy.isEmpty, ordersText cx S L!"ORDER BY" q.orderBy, false⟩
  else if name = L!"limit" then some ⟨q.limit.isSet, .ok (limitText q.limit), false⟩
  else if name = L!"into_outfile" then
    some ⟨q.outfile.file.isSome, outfileText cx S q.outfile, false⟩
  else none

/-- `SelectForUpdate.has(value)`: `hasattr(self, value)` (selectoptions.py:100-101).  The attributes
without leading underscore come from selectoptions.py:96-104 and object.py:44-48; names with one
are outside the model. -/
def forUpdateHas (v : Obj) : R Bool :=
  match v with
  | .str ('_' :: _) => .error .unmodelled
  | .str s => .ok ([L!"is_set", L!"has", L!"for_update", L!"tosql", L!"copy"].contains s)
  | _ => .error .typeError

/-- `Query.has` on a `Select` (query.py:46-61). -/
def selectHasBase (q : Select) (name : Str) (v : Obj) : R Bool :=
  if name = L!"select_for_update" then
    if !q.forUpdate then .ok false
    else if v.truthy then forUpdateHas v
    else .ok true
  else match selectPart cx S q name with
    | none => .ok false
    | some p => viewHas cx S p v

/-- `Select.has` (select.py:61-73). -/
def selectHas (q : Select) (name : Str) (v : Obj) : R Bool := do
  if ← selectHasBase cx S q name v then .ok true
  else if v.truthy then .ok false
  else selectHasBase cx S q L!"select_options" (.str name)

/-- Parts of an `Update` by name (update.py:31-36). -/
def updatePart (q : Update) (name : Str) : Option PartView :=
  if name = L!"update_options" then
    some ⟨q.ignore, .ok (optionsText (if q.ignore then [L!"IGNORE"] else [])), true⟩
  else if name = L!"tables" then some ⟨!q.tables.isEmpty, tablesText cx S [] q.tables, false⟩
  else if name = L!"values" then some ⟨!q.values.isEmpty, valuesText cx S [] q.values, false⟩
  else if name = L!"where" then some ⟨!q.where_.isEmpty, condsText cx S L!"WHERE" q.where_, false⟩
  else none

/-- `Query.has` on an `Update` (query.py:46-61). -/
def updateHas (q : Update) (name : Str) (v : Obj) : R Bool :=
  match updatePart cx S q name with
  | none => .ok false
  | some p => viewHas cx S p v

/-- Parts of a `Delete` by name (delete.py:31-36). -/
def deletePart (q : Delete) (name : Str) : Option PartView :=
  if name = L!"delete_options" then
    some ⟨q.ignore, .ok (optionsText (if q.ignore then [L!"IGNORE"] else [])), true⟩
  else if name = L!"tables" then some ⟨!q.tables.isEmpty, tablesText cx S [] q.tables, false⟩
  else if name = L!"references" then
    some ⟨!q.references.isEmpty, tablesText cx S [] q.references, false⟩
  else if name = L!"where" then some ⟨!q.where_.isEmpty, condsText cx S L!"WHERE" q.where_, false⟩
  else none

/-- `Query.has` on a `Delete` (query.py:46-61). -/
def deleteHas (q : Delete) (name : Str) (v : Obj) : R Bool :=
  match deletePart cx S q name with
  | none => .ok false
  | some p => viewHas cx S p v

/-- Parts of an `Insert` by name (insert.py:49-56), except `keyword`. -/
def insertPart (q : Insert) (name : Str) : Option PartView :=
  if name = L!"insert_options" then
    some ⟨q.ignore, .ok (optionsText (if q.ignore then [L!"IGNORE"] else [])), true⟩
  else if name = L!"tables" then some ⟨!q.tables.isEmpty, tablesText cx S [] q.tables, false⟩
  else if name = L!"values" then some ⟨!q.rows.isEmpty, rowsText cx S q.rows, false⟩
  else if name = L!"on_duplicate_key_update" then
    some ⟨!q.onDup.isEmpty, valuesText cx S L!"ON DUPLICATE KEY UPDATE" q.onDup, false⟩
  else if name = L!"on_conflict_do_update" then
    some ⟨!q.onConflict.isEmpty, valuesText cx S (conflictKeyword cx q.conflict) q.onConflict,
      false⟩
  else none

/-- `Query.has` on an `Insert` (query.py:46-61); `InsertKeyword` has no `is_set`
(insert.py:9-22). -/
def insertHas (q : Insert) (name : Str) (v : Obj) : R Bool :=
  if name = L!"keyword" then .error .attributeError
  else match insertPart cx S q name with
    | none => .ok false
    | some p => viewHas cx S p v

/-- `Query.has` on a `Union`: it has no parts (union.py:27-32, query.py:10-16). -/
def unionHas (_name : Str) (_v : Obj) : R Bool := .ok false

end

/-- `configure` (`__init__.py:54-68`) and `set_backend` (`_backends/__init__.py:19-28`):
`BACKENDS.get(database.lower())`; `get_backend` (`_backends/__init__.py:31-35`) reads the result. -/
def setBackend (env : Env) (current : Backend) (name : Str) : Backend × Option Err :=
  let n := env.lower name
  if n = L!"sql" then (.sql, none)
  else if n = L!"mysql" then (.mysql, none)
  else if n = L!"postgresql" then (.postgresql, none)
  else if n = L!"sqlite" then (.sqlite, none)
  else (current, some .exception)

end SqlPuzzle
