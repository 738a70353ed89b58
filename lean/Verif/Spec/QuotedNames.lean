import Verif.Spec.Names

/-!
Specification: names in which segments are written between quotes.
-/

namespace SqlPuzzle.Spec

/-- A segment of a name as a user may write it: as it is, or between quote characters. -/
inductive NameSegment where
  | bare (p : Str)
  | quoted (p : Str)

/-- The name of the segment. -/
def NameSegment.name : NameSegment → Str
  | .bare p | .quoted p => p

/-- What the user writes. -/
def NameSegment.written (q : Char) : NameSegment → Str
  | .bare p => p
  | .quoted p => q :: (p ++ [q])

/-- The name is not empty and does not contain the quote character; a dot only between quotes. -/
def NameSegment.Proper (q : Char) : NameSegment → Prop
  | .bare p => p ≠ [] ∧ q ∉ p ∧ '.' ∉ p
  | .quoted p => p ≠ [] ∧ q ∉ p

/-- What the user means: what is between quotes is always a name, a bare asterisk stands for all columns. -/
def NameSegment.meant : NameSegment → Tok
  | .bare p => if p = ['*'] then .sym '*' else .ident p
  | .quoted p => .ident p

/-- Tokens with dots between them. -/
def withDots : List Tok → List Tok
  | [] => []
  | [t] => [t]
  | t :: ts => t :: .sym '.' :: withDots ts

end SqlPuzzle.Spec
