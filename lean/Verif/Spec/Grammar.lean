import Verif.Spec.Names

/-!
Specification: the SQL statements the library is meant to write, as a grammar over tokens.

Nothing here mentions the model of the library.  `G c ts` says that the tokens `ts` form a phrase of
category `c`.  Identifiers and literals stand for themselves; every other token is one of the fixed
words, operators and punctuation marks written in the rules.
-/

namespace SqlPuzzle.Spec

/-- A parenthesised phrase. -/
def paren (ts : List Tok) : List Tok := .sym '(' :: (ts ++ [.sym ')'])

/-- The tokens of fixed words. -/
def words (ws : List Str) : List Tok := ws.map .word

/-- Phrases with separator tokens between them. -/
def joinT (sep : List Tok) : List (List Tok) → List Tok
  | [] => []
  | [x] => x
  | x :: xs => x ++ (sep ++ joinT sep xs)

/-- Phrases separated by commas. -/
def commas (xs : List (List Tok)) : List Tok := joinT [.sym ','] xs

/-- Literals that are one token. -/
inductive Literal : Tok → Prop where
  | str (s : Str) : Literal (.str s)
  | num (s : Str) : Literal (.num s)
  | hex (s : Str) : Literal (.hex s)
  | null : Literal (.word L!"NULL")
  | true : Literal (.word L!"true")
  | false : Literal (.word L!"false")

/-- Functions of a list of expressions. -/
def aggregates : List Str := [L!"AVG", L!"COUNT", L!"MAX", L!"MIN", L!"SUM"]

/-- Target types of `CONVERT`. -/
def castTypes : List Str :=
  [L!"BINARY", L!"CHAR", L!"DATE", L!"DATETIME", L!"DECIMAL", L!"SIGNED", L!"TIME", L!"UNSIGNED"]

/-- Relations between two expressions. -/
def relations : List (List Tok) :=
  [[.op L!"="], [.op L!"!="], [.op L!">"], [.op L!">="], [.op L!"<"], [.op L!"<="],
   words [L!"LIKE"], words [L!"NOT", L!"LIKE"], words [L!"REGEXP"], words [L!"IN"],
   words [L!"NOT", L!"IN"], words [L!"IS"], words [L!"IS", L!"NOT"]]

/-- Join keywords. -/
def joinWords : List (List Tok) :=
  [words [L!"JOIN"], words [L!"LEFT", L!"JOIN"], words [L!"RIGHT", L!"JOIN"],
   words [L!"FULL", L!"JOIN"]]

/-- Options of `SELECT`. -/
def selectWords : List Str :=
  [L!"ALL", L!"DISTINCT", L!"DISTINCTROW", L!"HIGH_PRIORITY", L!"SQL_BIG_RESULT",
   L!"SQL_BUFFER_RESULT", L!"SQL_CACHE", L!"SQL_CALC_FOUND_ROWS", L!"SQL_NO_CACHE",
   L!"SQL_SMALL_RESULT", L!"STRAIGHT_JOIN"]

/-- Categories of phrases. -/
inductive Cat where
  | expr                                  -- expression
  | int                                   -- integer
  | list (c : Cat)                        -- one or more, separated by commas
  | opt (kw : List Tok) (c : Cat)         -- nothing, or `kw` followed by a phrase
  | flag (kw : List Tok)                  -- nothing, or `kw`
  | columns | column | order
  | conj                                  -- conditions connected by AND
  | cond
  | table | joins
  | select | query
  | assign | row | rows | stmt

/-- `G c ts`: the tokens `ts` form a phrase of category `c`. -/
inductive G : Cat → List Tok → Prop where
  -- expressions
  | name {ps : List Str} : ps ≠ [] → G .expr (refToks ps)
  | lit {t : Tok} : Literal t → G .expr [t]
  | neg {s : Str} : G .expr [.sym '-', .num s]
  | tuple {ts} : G (.list .expr) ts → G .expr (paren ts)
  | subquery {ts} : G .query ts → G .expr (paren ts)
  | aggregate {f ts} : f ∈ aggregates → G (.list .expr) ts → G .expr (.word f :: paren ts)
  | aggregateDistinct {f ts} : f ∈ aggregates → G (.list .expr) ts →
      G .expr (.word f :: paren (.word L!"DISTINCT" :: ts))
  | concat {ts} : G .columns ts → G .expr (.word L!"CONCAT" :: paren ts)
  | groupConcat {ts us vs} : G .columns ts →
      G (.opt (words [L!"ORDER", L!"BY"]) (.list .order)) us →
      G (.opt (words [L!"SEPARATOR"]) .expr) vs →
      G .expr (.word L!"GROUP_CONCAT" :: paren (ts ++ (us ++ vs)))
  | convert {w ts} : w ∈ castTypes → G (.list .expr) ts →
      G .expr (.word L!"CONVERT" :: paren (ts ++ [.sym ',', .word w]))
  | exists_ {ts} : G .query ts → G .expr (.word L!"EXISTS" :: paren ts)
  -- integers
  | nat {s} : G .int [.num s]
  | negInt {s} : G .int [.sym '-', .num s]
  -- repetition and options
  | one {c ts} : G c ts → G (.list c) ts
  | more {c ts us} : G c ts → G (.list c) us → G (.list c) (ts ++ ([.sym ','] ++ us))
  | absent {kw c} : G (.opt kw c) []
  | present {kw c ts} : G c ts → G (.opt kw c) (kw ++ ts)
  | off {kw} : G (.flag kw) []
  | on {kw} : G (.flag kw) kw
  -- columns and orders
  | star : G .columns [.sym '*']
  | columns {ts} : G (.list .column) ts → G .columns ts
  | column {ts us} : G .expr ts → G (.opt (words [L!"AS"]) .expr) us → G .column (ts ++ us)
  | order {ts us} : G .expr ts → G (.flag (words [L!"DESC"])) us → G .order (ts ++ us)
  -- conditions
  | compare {ts r us} : G .expr ts → r ∈ relations → G .expr us → G .cond (ts ++ (r ++ us))
  | test {ts} : G .expr ts → G .cond ts
  | group {ts} : G .conj ts → G .cond (paren ts)
  | both {ts us} : G .conj ts → G .conj us → G .cond (paren (ts ++ (.word L!"AND" :: us)))
  | either {ts us} : G .conj ts → G .conj us → G .cond (paren (ts ++ (.word L!"OR" :: us)))
  | not {ts} : G .conj ts → G .cond (.word L!"NOT" :: paren ts)
  | conjOne {ts} : G .cond ts → G .conj ts
  | conjMore {ts us} : G .cond ts → G .conj us → G .conj (ts ++ ([.word L!"AND"] ++ us))
  -- tables
  | table {ts us} : G .column ts → G .joins us → G .table (ts ++ us)
  | noJoin : G .joins []
  | join {kw ts us vs} : kw ∈ joinWords → G .column ts → G (.opt (words [L!"ON"]) .conj) us →
      G .joins vs → G .joins (kw ++ (ts ++ (us ++ vs)))
  -- queries
  | select {opts cols from_ where_ group having order limit offset outfile fields lines enclosed
      lock} :
      (∀ w ∈ opts, w ∈ selectWords) → opts.Nodup →
      G .columns cols →
      G (.opt (words [L!"FROM"]) (.list .table)) from_ →
      G (.opt (words [L!"WHERE"]) .conj) where_ →
      G (.opt (words [L!"GROUP", L!"BY"]) (.list .order)) group →
      G (.opt (words [L!"HAVING"]) .conj) having →
      G (.opt (words [L!"ORDER", L!"BY"]) (.list .order)) order →
      G (.opt (words [L!"LIMIT"]) .int) limit →
      G (.opt (words [L!"OFFSET"]) .int) offset →
      G (.opt (words [L!"INTO", L!"OUTFILE"]) .expr) outfile →
      G (.opt (words [L!"FIELDS", L!"TERMINATED", L!"BY"]) .expr) fields →
      G (.opt (words [L!"LINES", L!"TERMINATED", L!"BY"]) .expr) lines →
      G (.opt (words [L!"OPTIONALLY", L!"ENCLOSED", L!"BY"]) .expr) enclosed →
      G (.flag (words [L!"FOR", L!"UPDATE"])) lock →
      G .select (.word L!"SELECT" :: (words opts ++ (cols ++ (from_ ++ (where_ ++ (group ++ (having ++
        (order ++ (limit ++ (offset ++ (outfile ++ (fields ++ (lines ++ (enclosed ++ lock))))))))))))))
  | single {ts} : G .select ts → G .query ts
  | union {ts us} : G .query ts → G .query us → G .query (ts ++ (.word L!"UNION" :: us))
  | unionAll {ts us} : G .query ts → G .query us →
      G .query (ts ++ (words [L!"UNION", L!"ALL"] ++ us))
  -- statements
  | assign {ts us} : G .expr ts → G .expr us → G .assign (ts ++ (.op L!"=" :: us))
  | row {ts} : G (.list .expr) ts → G .row (paren ts)
  | rows {ts us} : G (.list .expr) ts → G (.list .row) us →
      G .rows (paren ts ++ (.word L!"VALUES" :: us))
  | query {ts} : G .query ts → G .stmt ts
  | insert {ig tables rows dup} :
      G (.flag (words [L!"IGNORE"])) ig → G (.opt [] (.list .table)) tables →
      G (.opt [] .rows) rows →
      G (.opt (words [L!"ON", L!"DUPLICATE", L!"KEY", L!"UPDATE"]) (.list .assign)) dup →
      G .stmt (.word L!"INSERT" :: (ig ++ (.word L!"INTO" :: (tables ++ (rows ++ dup)))))
  | insertConflict {ig tables rows target upd} :
      G (.flag (words [L!"IGNORE"])) ig → G (.opt [] (.list .table)) tables →
      G (.opt [] .rows) rows → G .expr target → G (.list .assign) upd →
      G .stmt (.word L!"INSERT" :: (ig ++ (.word L!"INTO" :: (tables ++ (rows ++
        (words [L!"ON", L!"CONFLICT"] ++ (paren target ++ (words [L!"DO", L!"UPDATE"] ++ upd))))))))
  | replace {ig tables rows} :
      G (.flag (words [L!"IGNORE"])) ig → G (.opt [] (.list .table)) tables →
      G (.opt [] .rows) rows →
      G .stmt (.word L!"REPLACE" :: (ig ++ (.word L!"INTO" :: (tables ++ rows))))
  | update {ig tables vals where_} :
      G (.flag (words [L!"IGNORE"])) ig → G (.opt [] (.list .table)) tables →
      G (.opt [] (.list .assign)) vals → G (.opt (words [L!"WHERE"]) .conj) where_ →
      G .stmt (.word L!"UPDATE" :: (ig ++ (tables ++ (.word L!"SET" :: (vals ++ where_)))))
  | delete {ig tables refs where_} :
      G (.flag (words [L!"IGNORE"])) ig → G (.opt [] (.list .table)) tables →
      G (.opt [] (.list .table)) refs → G (.opt (words [L!"WHERE"]) .conj) where_ →
      G .stmt (.word L!"DELETE" :: (ig ++ (tables ++ (.word L!"FROM" :: (refs ++ where_)))))

/-! ### What can be read off the tokens alone -/

/-- The fixed words. -/
def vocabulary : List Str :=
  aggregates ++ castTypes ++ selectWords ++
  [L!"NULL", L!"true", L!"false", L!"CONCAT", L!"GROUP_CONCAT", L!"CONVERT", L!"EXISTS",
   L!"SEPARATOR", L!"AS", L!"DESC", L!"AND", L!"OR", L!"NOT", L!"LIKE", L!"REGEXP", L!"IN", L!"IS",
   L!"JOIN", L!"LEFT", L!"RIGHT", L!"FULL", L!"ON", L!"SELECT", L!"FROM", L!"WHERE", L!"GROUP",
   L!"BY", L!"HAVING", L!"ORDER", L!"LIMIT", L!"OFFSET", L!"INTO", L!"OUTFILE", L!"FIELDS",
   L!"TERMINATED", L!"LINES", L!"OPTIONALLY", L!"ENCLOSED", L!"FOR", L!"UPDATE", L!"UNION",
   L!"INSERT", L!"REPLACE", L!"IGNORE", L!"VALUES", L!"DUPLICATE", L!"KEY", L!"CONFLICT", L!"DO",
   L!"SET", L!"DELETE"]

/-- The tokens a statement may consist of. -/
def Expected : Tok → Prop
  | .str _ | .num _ | .hex _ | .ident _ => True
  | .word w => w ∈ vocabulary
  | .op o => o ∈ [L!"=", L!"!=", L!">", L!">=", L!"<", L!"<="]
  | .sym c => c ∈ ['(', ')', ',', '.', '*', '-']
  | .comment | .bad => False

/-- Depth of open parentheses after reading the tokens; `none` if one is closed too early. -/
def depth : Nat → List Tok → Option Nat
  | n, [] => some n
  | n, .sym '(' :: ts => depth (n + 1) ts
  | 0, .sym ')' :: _ => none
  | n + 1, .sym ')' :: ts => depth n ts
  | n, _ :: ts => depth n ts

/-- Parentheses match. -/
def Balanced (ts : List Tok) : Prop := depth 0 ts = some 0

/-- Every `SELECT` opens the statement, opens a parenthesis or continues a union. -/
def SelectPlaced (ts : List Tok) : Prop :=
  ∀ a b, ts = a ++ .word L!"SELECT" :: b →
    a = [] ∨ a.getLast? = some (.sym '(') ∨ a.getLast? = some (.word L!"UNION") ∨
      a.getLast? = some (.word L!"ALL")

/-- A token with the contents of a literal left out. -/
def Tok.blank : Tok → Tok
  | .str _ | .num _ | .hex _ => .str []
  | .word w => if w = L!"true" ∨ w = L!"false" then .str [] else .word w
  | t => t

end SqlPuzzle.Spec
