import Verif.Spec.Lexer

/-!
Specification: how a database server evaluates a condition.

Nothing here mentions the model of the library.  A condition is a list of tokens.  `OR` binds weaker
than `AND`, `AND` weaker than `NOT`, `NOT` weaker than a predicate; parentheses group.  `truth pred`
computes the truth value of a condition in three-valued logic from the truth values `pred` gives to
the predicates (`"a" = 1`, `"a" LIKE 'x'`, `EXISTS (…)`) in the row at hand.
-/

namespace SqlPuzzle.Spec

/-- Truth values of SQL. -/
inductive Tri where
  | t | f | u
deriving DecidableEq, Repr

def Tri.not : Tri → Tri
  | .t => .f
  | .f => .t
  | .u => .u

def Tri.and : Tri → Tri → Tri
  | .f, _ | _, .f => .f
  | .t, .t => .t
  | _, _ => .u

def Tri.or : Tri → Tri → Tri
  | .t, _ | _, .t => .t
  | .f, .f => .f
  | _, _ => .u

/-- `v1 AND v2 AND …` -/
def Tri.all (vs : List Tri) : Tri := vs.foldr Tri.and .t

/-- `v1 OR v2 OR …` -/
def Tri.any (vs : List Tri) : Tri := vs.foldr Tri.or .f

/-- Put a token before the first piece. -/
def front (t : Tok) : List (List Tok) → List (List Tok)
  | [] => [[t]]
  | p :: ps => (t :: p) :: ps

/-- The pieces of a token list between the occurrences of `s` outside parentheses, when `n`
parentheses are open. -/
def splitAt (s : Tok) : Nat → List Tok → List (List Tok)
  | _, [] => [[]]
  | n, t :: ts =>
    if t = .sym '(' then front t (splitAt s (n + 1) ts)
    else if t = .sym ')' then front t (splitAt s (n - 1) ts)
    else if n = 0 ∧ t = s then [] :: splitAt s n ts
    else front t (splitAt s n ts)

/-- The pieces of a token list between the occurrences of `s` outside parentheses. -/
def pieces (s : Tok) (ts : List Tok) : List (List Tok) := splitAt s 0 ts

/-- The tokens up to the parenthesis that closes the innermost of `n + 1` open ones but `n`, and the
tokens after it. -/
def closing : Nat → List Tok → Option (List Tok × List Tok)
  | _, [] => none
  | n, t :: ts =>
    if t = .sym '(' then (closing (n + 1) ts).map fun p => (t :: p.1, p.2)
    else if t = .sym ')' then
      match n with
      | 0 => some ([], ts)
      | n + 1 => (closing n ts).map fun p => (t :: p.1, p.2)
    else (closing n ts).map fun p => (t :: p.1, p.2)

/-- The contents of a pair of parentheses that spans all tokens. -/
def inside : List Tok → Option (List Tok)
  | .sym '(' :: ts =>
    match closing 0 ts with
    | some (r, []) => some r
    | _ => none
  | _ => none

/-- Does a query begin here? -/
def isSubquery (ts : List Tok) : Bool := ts.head? == some (.word L!"SELECT")

/-- Truth value of a condition; `n` bounds the number of steps. -/
def truthF (pred : List Tok → Tri) : Nat → List Tok → Tri
  | 0, ts => pred ts
  | n + 1, ts =>
    if 1 < (pieces (.word L!"OR") ts).length then
      Tri.any ((pieces (.word L!"OR") ts).map (truthF pred n))
    else if 1 < (pieces (.word L!"AND") ts).length then
      Tri.all ((pieces (.word L!"AND") ts).map (truthF pred n))
    else if ts.head? = some (.word L!"NOT") then (truthF pred n ts.tail).not
    else match inside ts with
      | some r => if isSubquery r then pred ts else truthF pred n r
      | none => pred ts

/-- Truth value of a condition. -/
def truth (pred : List Tok → Tri) (ts : List Tok) : Tri := truthF pred ts.length ts

/-! ### Predicates on lists and `NULL` -/

section
variable {V : Type} [DecidableEq V]

/-- `a = b` for values of SQL; `none` is `NULL`. -/
def sqlEq : Option V → Option V → Tri
  | some a, some b => if a = b then .t else .f
  | _, _ => .u

/-- `c IN r` for a list `r` of values. -/
def inList (val : List Tok → Option V) (c r : List Tok) : Option Tri :=
  match inside r with
  | some ts =>
    if isSubquery ts then none
    else some (Tri.any ((pieces (.sym ',') ts).map fun x => sqlEq (val c) (val x)))
  | none => none

/-- Predicates: `IN` and `NOT IN` with a list, `IS NULL` and `IS NOT NULL` as in SQL, every other
predicate as `other` says.  `val` gives the values of the column and of the literals in the row. -/
def predicate (val : List Tok → Option V) (other : List Tok → Tri) (ts : List Tok) : Tri :=
  match pieces (.word L!"IN") ts with
  | [c, r] =>
    if c.getLast? = some (.word L!"NOT") then ((inList val c.dropLast r).map Tri.not).getD (other ts)
    else (inList val c r).getD (other ts)
  | _ =>
    match pieces (.word L!"IS") ts with
    | [c, r] =>
      if r = [.word L!"NULL"] then (if (val c).isNone then .t else .f)
      else if r = [.word L!"NOT", .word L!"NULL"] then (if (val c).isNone then .f else .t)
      else other ts
    | _ => other ts

end

end SqlPuzzle.Spec
