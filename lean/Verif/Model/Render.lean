import Verif.Model.Backend
import Verif.Model.Number

/-!
Rendering (`str(obj)`) and comparison (`a == b`) of every library object.

`str` and `==` of an object call `str` and `==` of the objects inside it.  `renderF` and `eqF` are
one step of that recursion: every call on an inner object goes through `S : Sem`.  `sem cx n` ties
the knot with a recursion budget `n`, which stands for Python's recursion limit; when the budget is
exhausted the result is `recursionError`.
-/

namespace SqlPuzzle

/-- `str` and `==` of inner objects. -/
structure Sem where
  str : Obj → R Str
  eq : Obj → Obj → R Bool

/-- `_string_representation` of the relation classes (relations.py:84-264). -/
def Rel.text : Rel → Str
  | .eq => L!"="
  | .ne => L!"!="
  | .gt => L!">"
  | .ge => L!">="
  | .lt => L!"<"
  | .le => L!"<="
  | .like => L!"LIKE"
  | .notLike => L!"NOT LIKE"
  | .regexp => L!"REGEXP"
  | .in_ => L!"IN"
  | .notIn => L!"NOT IN"
  | .is => L!"IS"
  | .isNot => L!"IS NOT"

/-- `OnCondition._revert_relation_map` (tables.py:25-32). -/
def Rel.revert : Rel → Option Rel
  | .eq => some .eq
  | .ne => some .ne
  | .gt => some .lt
  | .ge => some .le
  | .lt => some .gt
  | .le => some .ge
  | _ => none

/-- `BinaryOperationMixin.AND`, `.OR` (conditions.py:14-15). -/
def BoolOp.text : BoolOp → Str
  | .and => L!"AND"
  | .or => L!"OR"

/-- `_function_name` (functions.py:67-93). -/
def Agg.text : Agg → Str
  | .avg => L!"AVG"
  | .count => L!"COUNT"
  | .max => L!"MAX"
  | .min => L!"MIN"
  | .sum => L!"SUM"

/-- `JOIN_TYPES` (tables.py:16-21). -/
def JoinType.text : JoinType → Str
  | .inner => L!"JOIN"
  | .left => L!"LEFT JOIN"
  | .right => L!"RIGHT JOIN"
  | .full => L!"FULL JOIN"

/-- `list(v)` / `for x in v`: the items of an iterable, `none` for `TypeError`. -/
def Obj.iterate : Obj → Option (List Obj)
  | .list xs | .tuple xs | .set xs | .frozenset xs | .gen xs => some xs
  | .range xs => some (xs.map .int)
  | .str s => some (s.map fun c => .str [c])
  | .bytes bs => some (bs.map fun b => .int (Int.ofNat b.toNat))
  | .dict kvs => some (kvs.map Prod.fst)
  | _ => Option.none

/-- `_escape_value` (sqlvalue.py:13-21). -/
def escapeValue (s : Str) : Str :=
  replaceChar '\n' L!"\\n" (replaceChar '\'' L!"''" (replaceChar '\\' L!"\\\\" s))

section
variable (cx : Ctx) (S : Sem)

/-- `force_text(v)` (`_common/utils.py:8-11`); also `'{}'.format(v)`. -/
def forceText (v : Obj) : R Str :=
  if v.isSql then S.str v
  else match v with
    | .str s => .ok s
    | .int i => .ok (intText i)
    | .bool b => .ok (if b then L!"True" else L!"False")
    | .none => .ok L!"None"
    | v => .ok (cx.env.reprText v)

/-- `'({})'.format(v)`: `_subselect` (sqlvalue.py:113-114). -/
def parenText (v : Obj) : R Str := do
  let t ← S.str v
  .ok ('(' :: (t ++ [')']))

/-- `_string` (sqlvalue.py:84-88). -/
def strValueText (s : Str) : Str :=
  if isReference cx.backend.quote s then reference cx.backend.quote s
  else '\'' :: (escapeValue s ++ ['\''])

/-- `_list` (sqlvalue.py:108-111) for a non-empty list or a generator. -/
def listText (xs : List Obj) : R Str := do
  let ts ← mapR (fun x => S.str (.sqlValue x)) xs
  .ok ('(' :: (joinS L!", " ts ++ [')']))

/-- `str(SqlValue(v))` (sqlvalue.py:40-127). A generator is always true, so an empty one renders
as `()` (sqlvalue.py:109); that a generator yields its items only once is not modelled. -/
def sqlValueText (v : Obj) : R Str :=
  match v with
  | .str s => .ok (strValueText cx s)
  | .int i => .ok (intText i)
  | .float f => .ok (fltText f)
  | .decimal d => .ok (decText d)
  | .bytes b => .ok (cx.backend.bytes b)
  | .bool b => .ok (cx.backend.boolean b)
  | .date d => .ok ('\'' :: (dateText d ++ ['\'']))
  | .datetime d => .ok ('\'' :: (datetimeText d ++ ['\'']))
  | .list xs | .tuple xs | .set xs | .frozenset xs =>
    if xs.isEmpty then .error .invalidArgument else listText S xs
  | .range xs => if xs.isEmpty then .error .invalidArgument else listText S (xs.map .int)
  | .gen xs => listText S xs
  | .none => .ok L!"NULL"
  | .select _ => parenText S v
  | .union .. => parenText S v
  | v => if v.isSql then S.str v else .ok (cx.env.undefText v)

/-- `str(SqlReference(v))` (sqlvalue.py:130-156 with 62-80, 119-126). -/
def sqlRefText (v : Obj) : R Str :=
  match v with
  | .str s => .ok (reference cx.backend.quote s)
  | .int i => .ok (intText i)
  | .select _ => parenText S v
  | .union .. => parenText S v
  | v => if v.isSql then S.str v else .ok (cx.env.undefText v)

/-- `Column.__str__` (columns.py:13-19), and the text of a table without its joins
(tables.py:72-78). -/
def aliasedText (name alias : Obj) : R Str :=
  if alias.truthy then do
    let n ← sqlRefText cx S name
    let a ← sqlRefText cx S alias
    .ok (n ++ L!" AS " ++ a)
  else sqlRefText cx S name

/-- `Column.__str__` (columns.py:13-19). -/
def columnText (c : Column) : R Str := aliasedText cx S c.name c.alias

/-- `Order.__str__` (order.py:18-24). -/
def orderText (o : Order) : R Str := do
  let t ← sqlRefText cx S o.col
  .ok (if o.desc then t ++ L!" DESC" else t)

/-- `QueryParts.__str__` (queryparts.py:46-51) with `ListOfQueryParts.__str__` (93-94):
keyword, separator and default text are class attributes. -/
def partsText {α : Type} (keyword sep dflt : Str) (f : α → R Str) (ps : List α) : R Str :=
  if ps.isEmpty then .ok dflt
  else do
    let ts ← mapR f ps
    .ok (if keyword.isEmpty then joinS sep ts else keyword ++ ' ' :: joinS sep ts)

/-- `_RelationValue._format_condition` (relations.py:69-74); `vt` is `value_transformer`. -/
def plainCondText (col : Obj) (k : Rel) (vt : Obj → R Str) (v : Obj) : R Str := do
  let c ← sqlRefText cx S col
  let t ← vt v
  .ok (c ++ ' ' :: k.text ++ ' ' :: t)

/-- `IN._format_condition` (relations.py:190-208) and `NOT_IN._format_condition` (229-247):
`glue` and `nullTest` are the two places where they differ. -/
def inCondText (col : Obj) (k : Rel) (glue nullTest : Str) (vt : Obj → R Str) (v : Obj) : R Str :=
  match v.iterate with
  | none => plainCondText cx S col k vt v
  | some xs =>
    let vals := xs.filter fun x => !x.isNone
    if xs.any Obj.isNone then
      if vals.isEmpty then do
        let c ← sqlRefText cx S col
        .ok (c ++ nullTest)
      else do
        let p ← plainCondText cx S col k vt (.list vals)
        let c ← sqlRefText cx S col
        .ok ('(' :: (p ++ glue ++ c ++ nullTest ++ [')']))
    else plainCondText cx S col k vt (.list vals)

/-- `value._format_condition(SqlReference(column), value_transformer)`. -/
def formatCond (col : Obj) (k : Rel) (vt : Obj → R Str) (v : Obj) : R Str :=
  match k with
  | .in_ => inCondText cx S col k L!" OR " L!" IS NULL" vt v
  | .notIn => inCondText cx S col k L!" AND " L!" IS NOT NULL" vt v
  | k => plainCondText cx S col k vt v

/-- `Condition.__str__` (conditions.py:49-50), `OnCondition.__str__` (tables.py:55-57) or the text
of an SQL object. -/
def condText : Cond → R Str
  | .cond on col k v =>
    formatCond cx S col k (if on && v.isStr then sqlRefText cx S else sqlValueText cx S) v
  | .item o => S.str o

/-- `Conditions.__str__`: parts joined by `' AND '` (conditions.py:94), `keyword` is `''` for `Q`
and `ON` conditions, `'WHERE'` (where.py:8), `'HAVING'` (having.py:11). -/
def condsText (keyword : Str) (ps : List Cond) : R Str :=
  partsText keyword L!" AND " [] (condText cx S) ps

/-- `Value.__str__` (values.py:14-18) or the text of an SQL object. -/
def valueText : Value → R Str
  | .value col v => do
    let c ← sqlRefText cx S col
    let t ← sqlValueText cx S v
    .ok (c ++ L!" = " ++ t)
  | .item o => S.str o

/-! ### Comparison of parts -/

/-- Classes that inherit `Object.__eq__` (object.py:15-27): compared by text. -/
def Obj.textual : Obj → Bool
  | .custom _ | .sqlValue _ | .sqlRef _ | .cofc .. | .not_ _ | .func .. | .concat _
  | .groupConcat .. | .convert .. | .exists_ _ => true
  | _ => false

/-- `Column.__eq__` (columns.py:21-26). -/
def columnEq (a b : Column) : R Bool := andR (S.eq a.name b.name) (S.eq a.alias b.alias)

/-- `Order.__eq__` (order.py:26-31). -/
def orderEq (a b : Order) : R Bool := andR (S.eq a.col b.col) (.ok (a.desc == b.desc))

/-- `Condition.__eq__` (conditions.py:52-58), `OnCondition.__eq__` (tables.py:34-53) and
comparisons that involve other SQL objects. -/
def condEq : Cond → Cond → R Bool
  | .cond on c k v, .cond on' c' k' v' =>
    if on = on' then
      orR (andR (S.eq c c') (andR (S.eq v v') (.ok (k == k'))))
        (if on && v.isStr then
          andR (S.eq v c') (andR (S.eq c v') (.ok (k.revert == some k')))
         else .ok false)
    else .ok false
  | .cond .., .item _ => .ok false
  | .item o, .cond on c k v =>
    if o.textual then do
      let t ← S.str o
      let u ← condText cx S (.cond on c k v)
      .ok (t == u)
    else .ok false
  | .item o, .item p => S.eq o p

/-- `QueryParts.__eq__` on condition lists (queryparts.py:59-62). -/
def condsEq (a b : List Cond) : R Bool := eqListR (condEq cx S) a b

/-- `Value.__eq__` (values.py:20-25) and comparisons that involve other SQL objects. -/
def valueEq : Value → Value → R Bool
  | .value c v, .value c' v' => andR (S.eq c c') (S.eq v v')
  | .value .., .item _ => .ok false
  | .item o, .value c v =>
    if o.textual then do
      let t ← S.str o
      let u ← valueText cx S (.value c v)
      .ok (t == u)
    else .ok false
  | .item o, .item p => S.eq o p

/-- Same joined table and same condition (tables.py:152). -/
def sameJoin (a b : Join) : R Bool :=
  andR (andR (S.eq a.name b.name) (S.eq a.alias b.alias)) (condsEq cx S a.ons b.ons)

/-- `==` of two join records (dictionaries, tables.py:132-136). -/
def joinEq (a b : Join) : R Bool := andR (.ok (a.type == b.type)) (sameJoin cx S a b)

/-- `Table.__eq__` (tables.py:92-98). -/
def tableEq (a b : Table) : R Bool :=
  andR (andR (S.eq a.name b.name) (S.eq a.alias b.alias)) (eqListR (joinEq cx S) a.joins b.joins)

/-- `IntoOutfile.__eq__` (intooutfile.py:30-37), one field. -/
def optEq : Option Obj → Option Obj → R Bool
  | none, none => .ok true
  | some a, some b => S.eq a b
  | _, _ => .ok false

/-! ### Joins -/

/-- Inner loop of `_minimize_joins` (tables.py:149-157): put `j` into the first group whose first
join is the same, else start a new group.  A group is its first join and the others. -/
def groupInsert : List (Join × List Join) → Join → R (List (Join × List Join))
  | [], j => .ok [(j, [])]
  | (h, t) :: gs, j => do
    if ← sameJoin cx S h j then .ok ((h, t ++ [j]) :: gs)
    else do
      let r ← groupInsert gs j
      .ok ((h, t) :: r)

/-- Outer loop of `_minimize_joins` (tables.py:148-157). -/
def groupJoins : List (Join × List Join) → List Join → R (List (Join × List Join))
  | gs, [] => .ok gs
  | gs, j :: js => do
    let gs' ← groupInsert cx S gs j
    groupJoins gs' js

/-- One group of `_minimize_joins` (tables.py:160-167). -/
def collapseGroup (g : Join × List Join) : List Join :=
  let js := g.1 :: g.2
  if !g.2.isEmpty && js.any (fun j => j.type == .inner) then [{ g.1 with type := .inner }]
  else if !g.2.isEmpty && js.all (fun j => j.type == g.1.type) then [g.1]
  else js

/-- `Table._minimize_joins` (tables.py:143-167): the new value of `_joins`. -/
def minimizeJoins (js : List Join) : R (List Join) := do
  let gs ← groupJoins cx S [] js
  .ok (gs.flatMap collapseGroup)

/-- One joined table (tables.py:83-87); the joined table has no joins of its own. -/
def joinText (j : Join) : R Str := do
  let t ← aliasedText cx S j.name j.alias
  if j.ons.isEmpty then .ok (j.type.text ++ ' ' :: t)
  else do
    let o ← condsText cx S [] j.ons
    .ok (j.type.text ++ ' ' :: t ++ L!" ON " ++ o)

/-- `Table.__str__` (tables.py:71-90). The assignment to `self._joins` inside is modelled
separately, by `strTables` in `Queries.lean`. -/
def tableText (t : Table) : R Str := do
  let n ← aliasedText cx S t.name t.alias
  if t.joins.isEmpty then .ok n
  else do
    let js ← minimizeJoins cx S t.joins
    let ts ← mapR (joinText cx S) js
    .ok (n ++ ' ' :: joinS [' '] ts)

/-! ### Queries -/

/-- One entry of the context of `Query.__str__` (query.py:22-27).  `isSet` is the `is_set` of the part:
queryparts.py:30-31, 69-70, options.py:34-35, intooutfile.py:40-41, selectoptions.py:96-98. -/
def clause (isSet : Bool) (t : R Str) : R Str :=
  if isSet then do
    let s ← t
    .ok (' ' :: s)
  else .ok []

/-- `Columns.__str__`: default `*` (columns.py:48). -/
def columnsText (cs : List Column) : R Str :=
  partsText [] L!", " ['*'] (columnText cx S) cs

/-- `OrderBy.__str__` / `GroupBy.__str__` (orderby.py:5, groupby.py:7). -/
def ordersText (keyword : Str) (os : List Order) : R Str :=
  partsText keyword L!", " [] (orderText cx S) os

/-- `Tables.__str__`, `TablesForSelect.__str__` (tables.py:170, 219-220). -/
def tablesText (keyword : Str) (ts : List Table) : R Str :=
  partsText keyword L!", " [] (tableText cx S) ts

/-- `Values.__str__` (values.py:46) with the keyword of the subclass. -/
def valuesText (keyword : Str) (vs : List Value) : R Str :=
  partsText keyword L!", " [] (valueText cx S) vs

/-- `Limit.__str__` (limit.py:13-21). -/
def limitText (l : LimitS) : Str :=
  match l.limit, l.offset with
  | none, none => []
  | some n, none => L!"LIMIT " ++ intText n
  | none, some o => L!"OFFSET " ++ intText o
  | some n, some o => L!"LIMIT " ++ intText n ++ ' ' :: L!"OFFSET " ++ intText o

/-- `Limit.is_set` (limit.py:30-32). -/
def LimitS.isSet (l : LimitS) : Bool := l.limit.isSome || l.offset.isSome

/-- One optional phrase of `IntoOutfile.__str__` (intooutfile.py:22-27). -/
def outfilePhrase (keyword : Str) : Option Obj → R Str
  | none => .ok []
  | some v => do
    let t ← sqlValueText cx S v
    .ok (keyword ++ t)

/-- `IntoOutfile.__str__` (intooutfile.py:20-28). -/
def outfileText (o : Outfile) : R Str := do
  let f ← sqlValueText cx S (o.file.getD .none)
  let a ← outfilePhrase cx S L!" FIELDS TERMINATED BY " o.fields
  let b ← outfilePhrase cx S L!" LINES TERMINATED BY " o.lines
  let c ← outfilePhrase cx S L!" OPTIONALLY ENCLOSED BY " o.enclosed
  .ok (L!"INTO OUTFILE " ++ f ++ a ++ b ++ c)

/-- The options that are on, as words (selectoptions.py:8-44). -/
def SelectOptions.words (o : SelectOptions) : List Str :=
  (match o.sqlCache with
   | .off => [] | .cache => [L!"SQL_CACHE"] | .noCache => [L!"SQL_NO_CACHE"]) ++
  (match o.duplicated with
   | .off => [] | .all => [L!"ALL"] | .distinct => [L!"DISTINCT"]
   | .distinctrow => [L!"DISTINCTROW"]) ++
  (if o.sqlSmallResult then [L!"SQL_SMALL_RESULT"] else []) ++
  (if o.sqlBigResult then [L!"SQL_BIG_RESULT"] else []) ++
  (if o.sqlBufferResult then [L!"SQL_BUFFER_RESULT"] else []) ++
  (if o.sqlCalcFoundRows then [L!"SQL_CALC_FOUND_ROWS"] else []) ++
  (if o.straightJoin then [L!"STRAIGHT_JOIN"] else []) ++
  (if o.highPriority then [L!"HIGH_PRIORITY"] else [])

/-- `Options.__str__` (options.py:16-21).  An option is in the list iff its value is not `off`, so the list
is empty iff `Options.is_set` (options.py:34-35) is false. -/
def optionsText (words : List Str) : Str := joinS [' '] (sortBy strLe words)

/-- `Select.__str__` (query.py:20-28, select.py:36-52); the clauses are computed in the order of
their sorted names, then put into the template. -/
def selectText (q : Select) : R Str := do
  let columns ← clause true (columnsText cx S q.columns)
  let groupBy ← clause (!q.groupBy.isEmpty) (ordersText cx S L!"GROUP BY" q.groupBy)
  let having ← clause (!q.having.isEmpty) (condsText cx S L!"HAVING" q.having)
  let outfile ← clause q.outfile.file.isSome (outfileText cx S q.outfile)
  let limit ← clause q.limit.isSet (.ok (limitText q.limit))
  let orderBy ← clause (!q.orderBy.isEmpty) (ordersText cx S L!"ORDER BY" q.orderBy)
  let forUpdate ← clause q.forUpdate (.ok L!"FOR UPDATE")
  let opts ← clause (!q.opts.words.isEmpty) (.ok (optionsText q.opts.words))
  let tables ← clause (!q.tables.isEmpty) (tablesText cx S L!"FROM" q.tables)
  let where_ ← clause (!q.where_.isEmpty) (condsText cx S L!"WHERE" q.where_)
  .ok (strip (L!"SELECT" ++ opts ++ columns ++ tables ++ where_ ++ groupBy ++ having ++ orderBy ++
    limit ++ outfile ++ forUpdate))

/-- `MultipleValues.all_columns` (values.py:78-85), one row: `value.column_name`.  Column names
that are not strings are not modelled. -/
def rowColumns : List Value → R (List Str)
  | [] => .ok []
  | .item _ :: _ => .error .attributeError
  | .value (.str c) _ :: ps => do
    let cs ← rowColumns ps
    .ok (c :: cs)
  | .value _ _ :: _ => .error .unmodelled

/-- Set of strings as a list without duplicates. -/
def dedupS : List Str → List Str
  | [] => []
  | x :: xs => if x ∈ xs then dedupS xs else x :: dedupS xs

/-- `MultipleValues.all_columns` (values.py:78-85). -/
def allColumns (rows : List (List Value)) : R (List Str) := do
  let cs ← mapR rowColumns rows
  .ok (sortBy strLe (dedupS cs.flatten))

/-- `map_of_col_to_val.get(column, None)` then `.value` (values.py:66-68): the last value of the
column in the row, `None` if it has none. -/
def lookupValue (c : Str) : List Value → Obj
  | [] => .none
  | .value (.str c') v :: ps =>
    if (ps.any fun p => match p with
        | .value (.str d) _ => d == c
        | _ => false) then lookupValue c ps
    else if c' = c then v else lookupValue c ps
  | _ :: ps => lookupValue c ps

/-- The value of one part (values.py:68); only reached for rows without parts. -/
def partValue : Value → Obj
  | .value _ v => v
  | .item o => o

/-- `Values.values(column_order)` (values.py:63-68). -/
def rowText (cols : List Str) (row : List Value) : R Str := do
  let vals := if cols.isEmpty then row.map partValue else cols.map fun c => lookupValue c row
  let ts ← mapR (sqlValueText cx S) vals
  .ok (joinS L!", " ts)

/-- `MultipleValues.__str__` (values.py:71-92). -/
def rowsText (rows : List (List Value)) : R Str := do
  let cols ← allColumns rows
  let head := joinS L!", " (cols.map (reference cx.backend.quote))
  let ts ← mapR (rowText cx S cols) rows
  .ok ('(' :: (head ++ L!") VALUES " ++ joinS L!", " (ts.map fun t => '(' :: (t ++ [')']))))

/-- `OnConflictDoUpdate._keyword_of_parts` (onconflictdoupdate.py:13-15). -/
def conflictKeyword (c : Option Str) : Str :=
  L!"ON CONFLICT (" ++ (match c with
    | none => []
    | some s => reference cx.backend.quote s) ++ L!") DO UPDATE"

/-- `Insert.__str__` (query.py:20-28, insert.py:49-60). -/
def insertText (q : Insert) : R Str := do
  let opts ← clause q.ignore (.ok L!"IGNORE")
  let keyword ← clause true (.ok (if q.isReplace then L!"REPLACE" else L!"INSERT"))
  let onConflict ← clause (!q.onConflict.isEmpty)
    (valuesText cx S (conflictKeyword cx q.conflict) q.onConflict)
  let onDup ← clause (!q.onDup.isEmpty) (valuesText cx S L!"ON DUPLICATE KEY UPDATE" q.onDup)
  let tables ← clause (!q.tables.isEmpty) (tablesText cx S [] q.tables)
  let values ← clause (!q.rows.isEmpty) (rowsText cx S q.rows)
  .ok (strip (keyword ++ opts ++ L!" INTO" ++ tables ++ values ++ onDup ++ onConflict))

/-- `Update.__str__` (update.py:44-47, query.py:20-28). -/
def updateText (q : Update) : R Str :=
  if q.where_.isEmpty && !q.allowAll then .error .confirmUpdateAll
  else do
    let tables ← clause (!q.tables.isEmpty) (tablesText cx S [] q.tables)
    let opts ← clause q.ignore (.ok L!"IGNORE")
    let values ← clause (!q.values.isEmpty) (valuesText cx S [] q.values)
    let where_ ← clause (!q.where_.isEmpty) (condsText cx S L!"WHERE" q.where_)
    .ok (strip (L!"UPDATE" ++ opts ++ tables ++ L!" SET" ++ values ++ where_))

/-- `Delete.__str__` (delete.py:44-47, query.py:20-28). -/
def deleteText (q : Delete) : R Str :=
  if q.where_.isEmpty && !q.allowAll then .error .confirmDeleteAll
  else do
    let opts ← clause q.ignore (.ok L!"IGNORE")
    let references ← clause (!q.references.isEmpty) (tablesText cx S [] q.references)
    let tables ← clause (!q.tables.isEmpty) (tablesText cx S [] q.tables)
    let where_ ← clause (!q.where_.isEmpty) (condsText cx S L!"WHERE" q.where_)
    .ok (strip (L!"DELETE" ++ opts ++ tables ++ L!" FROM" ++ references ++ where_))

/-- `Function._get_expr_as_string` (functions.py:33-36) of `Function.expr` (39-44). -/
def exprText (e : Obj) : R Str :=
  match e with
  | .list xs | .tuple xs => do
    let ts ← mapR (sqlRefText cx S) xs
    .ok (joinS L!", " ts)
  | e => sqlRefText cx S e

/-- `FunctionWithDistinct.__str__` (functions.py:56-63), `Count._get_expr_as_string` (78-81). -/
def funcText (f : Agg) (distinct : Bool) (e : Obj) : R Str := do
  let star ← match f with
    | .count => S.eq e (.str ['*'])
    | _ => .ok false
  let t ← if star then forceText cx S e else exprText cx S e
  .ok (f.text ++ '(' :: (if distinct then L!"DISTINCT " else []) ++ t ++ [')'])

/-- `GroupConcat.__str__` (functions.py:120-136). -/
def groupConcatText (cs : List Column) (os : List Order) (sep : Obj) : R Str := do
  let c ← columnsText cx S cs
  let o ← clause (!os.isEmpty) (ordersText cx S L!"ORDER BY" os)
  let s ← if sep.truthy then do
      let t ← sqlValueText cx S sep
      .ok (L!" SEPARATOR " ++ t)
    else .ok []
  .ok (L!"GROUP_CONCAT(" ++ c ++ o ++ s ++ [')'])

/-- `ConditionsOfConditions._needs_brackets` (conditions.py:133-135) with `count_of_parts`
(queryparts.py:65-66). -/
def needsBrackets : Obj → Bool
  | .conds ps => decide (1 < ps.length)
  | _ => false

/-- One operand of `ConditionsOfConditions.__str__` (conditions.py:127-130). -/
def operandText (o : Obj) : R Str := do
  let t ← S.str o
  .ok (if needsBrackets o then '(' :: (t ++ [')']) else t)

/-- `str(o)` of a library object, one step. `str` of other values is not called by the library
except through `force_text`. -/
def renderF (o : Obj) : R Str :=
  match o with
  | .custom s => .ok s                                       -- customsql.py:25-26
  | .sqlValue v => sqlValueText cx S v                       -- sqlvalue.py:66-68
  | .sqlRef v => sqlRefText cx S v                           -- sqlvalue.py:66-68
  | .rel k v => do                                           -- relations.py:31-35
    let t ← forceText cx S v
    .ok ('"' :: (k.text ++ ' ' :: t ++ ['"']))
  | .conds ps => condsText cx S [] ps                        -- queryparts.py:46-51
  | .cofc l r op => do                                       -- conditions.py:125-131
    let a ← operandText S l
    let b ← operandText S r
    .ok ('(' :: (a ++ ' ' :: op.text ++ ' ' :: b ++ [')']))
  | .not_ ps => do                                           -- functions.py:25-36
    let t ← S.str (.conds ps)
    .ok (L!"NOT(" ++ t ++ [')'])
  | .func f d e => funcText cx S f d e                       -- functions.py:56-63
  | .concat cs => do                                         -- functions.py:105-109
    let c ← columnsText cx S cs
    .ok (L!"CONCAT(" ++ c ++ [')'])
  | .groupConcat cs os sep => groupConcatText cx S cs os sep -- functions.py:120-126
  | .convert e ty => do                                      -- functions.py:172-177
    let t ← exprText cx S e
    .ok (L!"CONVERT(" ++ t ++ L!", " ++ ty.getD L!"None" ++ [')'])
  | .exists_ e => do                                         -- where.py:16-17
    let t ← forceText cx S e
    .ok (L!"EXISTS(" ++ t ++ [')'])
  | .select q => selectText cx S q
  | .union a b all => do                                     -- union.py:33-38
    let x ← S.str a
    let y ← S.str b
    .ok (x ++ ' ' :: (if all then L!"UNION ALL" else L!"UNION") ++ ' ' :: y)
  | .insert q => insertText cx S q
  | .update q => updateText cx S q
  | .delete q => deleteText cx S q
  | _ => .error .unmodelled

/-! ### Comparison of objects -/

/-- `Query.__eq__` on `Select` (query.py:30-37): clauses in the order of their sorted names; with
`Limit.__eq__` (limit.py:23-28), `Options.__eq__` (options.py:23-28) and `SelectForUpdate.__eq__`
(selectoptions.py:90-94). -/
def selectEq (a b : Select) : R Bool :=
  andR (eqListR (columnEq S) a.columns b.columns) <|
  andR (eqListR (orderEq S) a.groupBy b.groupBy) <|
  andR (condsEq cx S a.having b.having) <|
  andR (andR (optEq S a.outfile.file b.outfile.file) <|
        andR (optEq S a.outfile.fields b.outfile.fields) <|
        andR (optEq S a.outfile.lines b.outfile.lines)
             (optEq S a.outfile.enclosed b.outfile.enclosed)) <|
  andR (.ok (a.limit == b.limit)) <|
  andR (eqListR (orderEq S) a.orderBy b.orderBy) <|
  andR (.ok (a.forUpdate == b.forUpdate)) <|
  andR (.ok (a.opts == b.opts)) <|
  andR (eqListR (tableEq cx S) a.tables b.tables)
       (condsEq cx S a.where_ b.where_)

/-- `Query.__eq__` on `Insert`; `OnConflictDoUpdate` compares as a list of parts, so the conflict
column is not compared. -/
def insertEq (a b : Insert) : R Bool :=
  andR (.ok (a.ignore == b.ignore)) <|
  andR (.ok (a.isReplace == b.isReplace)) <|
  andR (eqListR (valueEq cx S) a.onConflict b.onConflict) <|
  andR (eqListR (valueEq cx S) a.onDup b.onDup) <|
  andR (eqListR (tableEq cx S) a.tables b.tables)
       (eqListR (eqListR (valueEq cx S)) a.rows b.rows)

/-- `Query.__eq__` on `Update`; the `allow_update_all` flag is not compared. -/
def updateEq (a b : Update) : R Bool :=
  andR (eqListR (tableEq cx S) a.tables b.tables) <|
  andR (.ok (a.ignore == b.ignore)) <|
  andR (eqListR (valueEq cx S) a.values b.values)
       (condsEq cx S a.where_ b.where_)

/-- `Query.__eq__` on `Delete`; the `allow_delete_all` flag is not compared. -/
def deleteEq (a b : Delete) : R Bool :=
  andR (.ok (a.ignore == b.ignore)) <|
  andR (eqListR (tableEq cx S) a.references b.references) <|
  andR (eqListR (tableEq cx S) a.tables b.tables)
       (condsEq cx S a.where_ b.where_)

/-- Text comparison of `Object.__eq__` (object.py:23-26). -/
def textEq (a b : Obj) : R Bool := do
  let t ← renderF cx S a
  let u ← renderF cx S b
  .ok (t == u)

/-- `a == b`, one step.  Identity shortcuts of `list.__eq__` and of set/dict comparison are not
modelled; neither is `==` between sets or between dictionaries. -/
def eqF (a b : Obj) : R Bool :=
  if a.textual then
    match b with
    | .str s => do
      let t ← renderF cx S a
      .ok (t == s)
    | b => if b.isSql then textEq cx S a b else .ok false
  else
    match a, b with
    | .str s, .str t => .ok (s == t)
    | .str s, b =>
      if b.textual then do
        let t ← renderF cx S b
        .ok (t == s)
      else .ok false
    | .none, .none => .ok true
    | .bytes x, .bytes y => .ok (x == y)
    | .date x, .date y => .ok (x == y)
    | .datetime x, .datetime y => .ok (x.eq y)
    | .list xs, .list ys => eqListR S.eq xs ys
    | .tuple xs, .tuple ys => eqListR S.eq xs ys
    | .range xs, .range ys => .ok (xs == ys)
    | .set _, .set _ => .error .unmodelled
    | .set _, .frozenset _ => .error .unmodelled
    | .frozenset _, .set _ => .error .unmodelled
    | .frozenset _, .frozenset _ => .error .unmodelled
    | .dict _, .dict _ => .error .unmodelled
    | .opaque i, .opaque j => .ok (i == j)
    | .rel k v, .rel k' v' => if k = k' then S.eq v v' else .ok false
    | .conds ps, .conds qs => condsEq cx S ps qs
    | .select p, .select q => selectEq cx S p q
    | .union a1 b1 t1, .union a2 b2 t2 =>
      andR (S.eq a1 a2) (andR (S.eq b1 b2) (.ok (t1 == t2)))
    | .insert p, .insert q => insertEq cx S p q
    | .update p, .update q => updateEq cx S p q
    | .delete p, .delete q => deleteEq cx S p q
    | a, b =>
      match a.num, b.num with
      | some x, some y => .ok (x.eq y)
      | _, _ => .ok false

end

/-- `str` and `==` with a recursion budget. -/
def sem (cx : Ctx) : Nat → Sem
  | 0 => ⟨fun _ => .error .recursionError, fun _ _ => .error .recursionError⟩
  | n + 1 => ⟨renderF cx (sem cx n), eqF cx (sem cx n)⟩

end SqlPuzzle
