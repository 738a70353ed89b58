import Verif.Spec.Safe
import Verif.Proofs.Strip
import Verif.Props.Numbers
import Verif.Props.Values

/-!
The tokens of every library object, computed directly, next to the text functions of
`Model/Render.lean`.
-/

namespace SqlPuzzle

open Spec

section
variable (cx : Ctx) (S : Sem) (d : Dialect) (T : Obj → List Tok)

/-- Tokens of a numeral with an optional sign. -/
def signedToks (neg : Bool) (t : Str) : List Tok := fixedToks neg (if neg then t.drop 1 else t)

def listToks (xs : List Obj) : List Tok := paren (commas (xs.map fun x => T (.sqlValue x)))

def valToks (v : Obj) : List Tok :=
  match v with
  | .str s => [.str (litValue d s)]
  | .int i => intToks i
  | .float (.fin neg m e) => signedToks neg (fltText (.fin neg m e))
  | .decimal (.fin neg m e) => signedToks neg (decText (.fin neg m e))
  | .bytes b => [bytesTok cx.backend b]
  | .bool b => [boolTok cx.backend b]
  | .date v => [.str (dateText v)]
  | .datetime v => [.str (datetimeText v)]
  | .list xs | .tuple xs | .set xs | .frozenset xs | .gen xs => listToks T xs
  | .range xs => listToks T (xs.map .int)
  | .none => [.word L!"NULL"]
  | .select _ => paren (T v)
  | .union .. => paren (T v)
  | v => T v

def refToksOf (v : Obj) : List Tok :=
  match v with
  | .str s => refToks (refParts cx.backend.quote s)
  | .int i => intToks i
  | .select _ => paren (T v)
  | .union .. => paren (T v)
  | v => T v

def optToks (isSet : Bool) (ts : List Tok) : List Tok := if isSet then ts else []

def aliasedToks (name as_ : Obj) : List Tok :=
  refToksOf cx T name ++ optToks as_.truthy (words [L!"AS"] ++ refToksOf cx T as_)

def columnToks (c : Column) : List Tok := aliasedToks cx T c.name c.alias

def orderToks (o : Order) : List Tok :=
  refToksOf cx T o.col ++ optToks o.desc (words [L!"DESC"])

def relToks : Rel → List Tok
  | .eq => [.op L!"="]
  | .ne => [.op L!"!="]
  | .gt => [.op L!">"]
  | .ge => [.op L!">="]
  | .lt => [.op L!"<"]
  | .le => [.op L!"<="]
  | .like => words [L!"LIKE"]
  | .notLike => words [L!"NOT", L!"LIKE"]
  | .regexp => words [L!"REGEXP"]
  | .in_ => words [L!"IN"]
  | .notIn => words [L!"NOT", L!"IN"]
  | .is => words [L!"IS"]
  | .isNot => words [L!"IS", L!"NOT"]

def plainCondToks (col : Obj) (k : Rel) (vt : Obj → List Tok) (v : Obj) : List Tok :=
  refToksOf cx T col ++ (relToks k ++ vt v)

def inCondToks (col : Obj) (k nk : Rel) (glue : Str) (vt : Obj → List Tok) (v : Obj) : List Tok :=
  match v.iterate with
  | none => plainCondToks cx T col k vt v
  | some xs =>
    let vals := xs.filter fun x => !x.isNone
    if xs.any Obj.isNone then
      if vals.isEmpty then refToksOf cx T col ++ (relToks nk ++ [.word L!"NULL"])
      else paren (plainCondToks cx T col k vt (.list vals) ++
        (.word glue :: (refToksOf cx T col ++ (relToks nk ++ [.word L!"NULL"]))))
    else plainCondToks cx T col k vt (.list vals)

def condToks : Cond → List Tok
  | .cond on col k v =>
    let vt := if on && v.isStr then refToksOf cx T else valToks cx d T
    match k with
    | .in_ => inCondToks cx T col k .is L!"OR" vt v
    | .notIn => inCondToks cx T col k .isNot L!"AND" vt v
    | k => plainCondToks cx T col k vt v
  | .item o => T o

def conjToks (ps : List Cond) : List Tok := joinT [.word L!"AND"] (ps.map (condToks cx d T))

def assignToks : Value → List Tok
  | .value col v => refToksOf cx T col ++ (.op L!"=" :: valToks cx d T v)
  | .item o => T o

def joinTypeToks : JoinType → List Tok
  | .inner => words [L!"JOIN"]
  | .left => words [L!"LEFT", L!"JOIN"]
  | .right => words [L!"RIGHT", L!"JOIN"]
  | .full => words [L!"FULL", L!"JOIN"]

def joinToks (j : Join) : List Tok :=
  joinTypeToks j.type ++ (aliasedToks cx T j.name j.alias ++
    optToks (!j.ons.isEmpty) (words [L!"ON"] ++ conjToks cx d T j.ons))

/-- The joins that are rendered. -/
def keptJoins (t : Table) : List Join :=
  match minimizeJoins cx S t.joins with
  | .ok js => js
  | .error _ => []

def tableToks (t : Table) : List Tok :=
  aliasedToks cx T t.name t.alias ++ ((keptJoins cx S t).map (joinToks cx d T)).flatten

def columnsToks (cs : List Column) : List Tok :=
  if cs.isEmpty then [.sym '*'] else commas (cs.map (columnToks cx T))

def ordersToks (kw : List Str) (os : List Order) : List Tok :=
  optToks (!os.isEmpty) (words kw ++ commas (os.map (orderToks cx T)))

def condsToks (kw : List Str) (ps : List Cond) : List Tok :=
  optToks (!ps.isEmpty) (words kw ++ conjToks cx d T ps)

def tablesToks (kw : List Str) (ts : List Table) : List Tok :=
  optToks (!ts.isEmpty) (words kw ++ commas (ts.map (tableToks cx S d T)))

def assignsToks (kw : List Tok) (vs : List Value) : List Tok :=
  optToks (!vs.isEmpty) (kw ++ commas (vs.map (assignToks cx d T)))

def intOptToks (kw : List Str) : Option Int → List Tok
  | none => []
  | some i => words kw ++ intToks i

def phraseToks (kw : List Str) : Option Obj → List Tok
  | none => []
  | some v => words kw ++ valToks cx d T v

def outfileToks (o : Outfile) : List Tok :=
  optToks o.file.isSome
    (phraseToks cx d T [L!"INTO", L!"OUTFILE"] o.file ++
     (phraseToks cx d T [L!"FIELDS", L!"TERMINATED", L!"BY"] o.fields ++
     (phraseToks cx d T [L!"LINES", L!"TERMINATED", L!"BY"] o.lines ++
      phraseToks cx d T [L!"OPTIONALLY", L!"ENCLOSED", L!"BY"] o.enclosed)))

def selectToks (q : Select) : List Tok :=
  .word L!"SELECT" :: (words (sortBy strLe q.opts.words) ++ (columnsToks cx T q.columns ++
    (tablesToks cx S d T [L!"FROM"] q.tables ++ (condsToks cx d T [L!"WHERE"] q.where_ ++
    (ordersToks cx T [L!"GROUP", L!"BY"] q.groupBy ++ (condsToks cx d T [L!"HAVING"] q.having ++
    (ordersToks cx T [L!"ORDER", L!"BY"] q.orderBy ++ (intOptToks [L!"LIMIT"] q.limit.limit ++
    (intOptToks [L!"OFFSET"] q.limit.offset ++ (outfileToks cx d T q.outfile ++
    optToks q.forUpdate (words [L!"FOR", L!"UPDATE"])))))))))))

def rowToks (cols : List Str) (row : List Value) : List Tok :=
  paren (commas (cols.map fun c => valToks cx d T (lookupValue c row)))

/-- The columns of the rows, in the order they are written. -/
def insertColumns (rows : List (List Value)) : List Str :=
  match allColumns rows with
  | .ok cs => cs
  | .error _ => []

def rowsToks (rows : List (List Value)) : List Tok :=
  let cols := insertColumns rows
  optToks (!rows.isEmpty)
    (paren (commas (cols.map fun c => refToks (refParts cx.backend.quote c))) ++
      (.word L!"VALUES" :: commas (rows.map (rowToks cx d T cols))))

def insertToks (q : Insert) : List Tok :=
  .word (if q.isReplace then L!"REPLACE" else L!"INSERT") ::
    (optToks q.ignore (words [L!"IGNORE"]) ++ (.word L!"INTO" :: (tablesToks cx S d T [] q.tables ++
      (rowsToks cx d T q.rows ++
      (assignsToks cx d T (words [L!"ON", L!"DUPLICATE", L!"KEY", L!"UPDATE"]) q.onDup ++
       assignsToks cx d T (words [L!"ON", L!"CONFLICT"] ++
        (paren (refToks (refParts cx.backend.quote (q.conflict.getD []))) ++
         words [L!"DO", L!"UPDATE"])) q.onConflict)))))

def updateToks (q : Update) : List Tok :=
  .word L!"UPDATE" :: (optToks q.ignore (words [L!"IGNORE"]) ++ (tablesToks cx S d T [] q.tables ++
    (.word L!"SET" :: (assignsToks cx d T [] q.values ++ condsToks cx d T [L!"WHERE"] q.where_))))

def deleteToks (q : Delete) : List Tok :=
  .word L!"DELETE" :: (optToks q.ignore (words [L!"IGNORE"]) ++ (tablesToks cx S d T [] q.tables ++
    (.word L!"FROM" :: (tablesToks cx S d T [] q.references ++
      condsToks cx d T [L!"WHERE"] q.where_))))

def argToks (e : Obj) : List Tok :=
  match e with
  | .list xs | .tuple xs => commas (xs.map (refToksOf cx T))
  | e => refToksOf cx T e

def operandToks (o : Obj) : List Tok := if needsBrackets o then paren (T o) else T o

def boolOpToks : BoolOp → Tok
  | .and => .word L!"AND"
  | .or => .word L!"OR"

/-- One step, like `renderF`. -/
def toksF (o : Obj) : List Tok :=
  match o with
  | .sqlValue v => valToks cx d T v
  | .sqlRef v => refToksOf cx T v
  | .conds ps => conjToks cx d T ps
  | .cofc l r op => paren (operandToks T l ++ (boolOpToks op :: operandToks T r))
  | .not_ ps => .word L!"NOT" :: paren (T (.conds ps))
  | .func f dist e => .word f.text :: paren (optToks dist (words [L!"DISTINCT"]) ++ argToks cx T e)
  | .concat cs => .word L!"CONCAT" :: paren (columnsToks cx T cs)
  | .groupConcat cs os sep =>
    .word L!"GROUP_CONCAT" :: paren (columnsToks cx T cs ++
      (ordersToks cx T [L!"ORDER", L!"BY"] os ++
       optToks sep.truthy (words [L!"SEPARATOR"] ++ valToks cx d T sep)))
  | .convert e ty =>
    .word L!"CONVERT" :: paren (argToks cx T e ++ [.sym ',', .word (ty.getD [])])
  | .exists_ e => .word L!"EXISTS" :: paren (T e)
  | .select q => selectToks cx S d T q
  | .union a b all =>
    T a ++ ((if all then words [L!"UNION", L!"ALL"] else words [L!"UNION"]) ++ T b)
  | .insert q => insertToks cx S d T q
  | .update q => updateToks cx S d T q
  | .delete q => deleteToks cx S d T q
  | _ => []

end

/-- The tokens of an object, with the same recursion budget as its text. -/
def toks (cx : Ctx) (d : Dialect) : Nat → Obj → List Tok
  | 0 => fun _ => []
  | n + 1 => toksF cx (sem cx n) d (toks cx d n)

end SqlPuzzle
