import Verif.Spec.Grammar

/-!
Specification: the clauses of a statement, read off its tokens.
-/

namespace SqlPuzzle.Spec

/-- The words of `ws` that stand outside parentheses, in order, when `n` parentheses are open. -/
def clausesAt (ws : List Str) : Nat → List Tok → List Str
  | _, [] => []
  | n, .sym '(' :: ts => clausesAt ws (n + 1) ts
  | n, .sym ')' :: ts => clausesAt ws (n - 1) ts
  | 0, .word w :: ts => if w ∈ ws then w :: clausesAt ws 0 ts else clausesAt ws 0 ts
  | n, _ :: ts => clausesAt ws n ts

/-- The words of `ws` that stand outside parentheses, in order. -/
def clauses (ws : List Str) (ts : List Tok) : List Str := clausesAt ws 0 ts

/-- First words of the clauses of `SELECT`. -/
def selectClauses : List Str :=
  [L!"SELECT", L!"FROM", L!"WHERE", L!"GROUP", L!"HAVING", L!"ORDER", L!"LIMIT", L!"OFFSET", L!"INTO",
   L!"FOR"]

/-- First words of the clauses of `UPDATE`. -/
def updateClauses : List Str := [L!"UPDATE", L!"SET", L!"WHERE"]

/-- First words of the clauses of `DELETE`. -/
def deleteClauses : List Str := [L!"DELETE", L!"FROM", L!"WHERE"]

/-- The tokens before the first word of `ws` outside parentheses, when `n` parentheses are open. -/
def beforeAt (ws : List Str) : Nat → List Tok → List Tok
  | _, [] => []
  | n, t :: ts =>
    if t = .sym '(' then t :: beforeAt ws (n + 1) ts
    else if t = .sym ')' then t :: beforeAt ws (n - 1) ts
    else if n = 0 ∧ (∃ w ∈ ws, t = .word w) then []
    else t :: beforeAt ws n ts

/-- The tokens after the first word `w` outside parentheses, when `n` parentheses are open. -/
def afterAt (w : Str) : Nat → List Tok → List Tok
  | _, [] => []
  | n, t :: ts =>
    if t = .sym '(' then afterAt w (n + 1) ts
    else if t = .sym ')' then afterAt w (n - 1) ts
    else if n = 0 ∧ t = .word w then ts
    else afterAt w n ts

/-- The contents of the clause that begins with the word `w`. -/
def clauseBody (ws : List Str) (w : Str) (ts : List Tok) : List Tok := beforeAt ws 0 (afterAt w 0 ts)

/-- A clause word that is written if something was given for the clause. -/
def clauseIf (b : Bool) (w : Str) : List Str := if b then [w] else []

end SqlPuzzle.Spec
