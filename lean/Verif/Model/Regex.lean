import Verif.Model.Base

/-!
A small model of Python's `re`, just enough for the two patterns of `_backends/sql.py`:
language membership for a pattern anchored by `^…$`, and `re.split`.
-/

namespace SqlPuzzle

/-- Regular expressions over characters. -/
inductive Re where
  | fail
  | eps
  | cls (p : Char → Bool)
  | seq (a b : Re)
  | alt (a b : Re)
  | star (a : Re)

namespace Re

/-- The language of a regular expression: declarative semantics. -/
inductive Lang : Re → Str → Prop where
  | eps : Lang .eps []
  | cls {p : Char → Bool} {c : Char} : p c = true → Lang (.cls p) [c]
  | seq {a b : Re} {s t : Str} : Lang a s → Lang b t → Lang (.seq a b) (s ++ t)
  | altL {a b : Re} {s : Str} : Lang a s → Lang (.alt a b) s
  | altR {a b : Re} {s : Str} : Lang b s → Lang (.alt a b) s
  | starNil {a : Re} : Lang (.star a) []
  | starCons {a : Re} {s t : Str} : Lang a s → Lang (.star a) t → Lang (.star a) (s ++ t)

/-- `r+` -/
def plus (r : Re) : Re := .seq r (.star r)
/-- `r?` -/
def opt (r : Re) : Re := .alt .eps r
/-- `r{0,2}` -/
def upTo2 (r : Re) : Re := opt (.seq r (opt r))
/-- the single character `c` -/
def chr (c : Char) : Re := .cls (· == c)

/-- Does the expression match the empty string? -/
def nullable : Re → Bool
  | .fail => false
  | .eps => true
  | .cls _ => false
  | .seq a b => a.nullable && b.nullable
  | .alt a b => a.nullable || b.nullable
  | .star _ => true

/-- Brzozowski derivative. -/
def deriv (c : Char) : Re → Re
  | .fail => .fail
  | .eps => .fail
  | .cls p => if p c then .eps else .fail
  | .seq a b => if a.nullable then .alt (.seq (a.deriv c) b) (b.deriv c) else .seq (a.deriv c) b
  | .alt a b => .alt (a.deriv c) (b.deriv c)
  | .star a => .seq (a.deriv c) (.star a)

/-- `bool(re.match('^r$', s))` for an `s` that does not end in a newline
(`$` would also match before a final newline; the only caller passes a stripped string). -/
def fullmatch (r : Re) (s : Str) : Bool := (s.foldl (fun r c => r.deriv c) r).nullable

end Re

/-- `re.split(pattern, s)` with the `None` groups dropped, for a pattern that never matches the
empty string.  `m s` is the match of the pattern at the start of `s`: the captured group, if any,
and the rest of the input.  `acc` is the text since the previous match. -/
def reSplit (m : Str → Option (Option Str × Str)) : Nat → Str → Str → List Str
  | 0, acc, s => [acc ++ s]
  | _ + 1, acc, [] => [acc]
  | n + 1, acc, c :: cs =>
    match m (c :: cs) with
    | some (g, rest) => acc :: (g.toList ++ reSplit m n [] rest)
    | none => reSplit m n (acc ++ [c]) cs

end SqlPuzzle
