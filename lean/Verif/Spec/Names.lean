import Verif.Spec.Lexer

/-!
Specification: names and references.

Nothing here mentions the model of the library.
-/

namespace SqlPuzzle.Spec

/-- The segments of a dotted name: `a.b` has segments `a` and `b`, `a..b` has `a`, ``, `b`. -/
def splitDot : Str → List Str
  | [] => [[]]
  | c :: cs =>
    if c = '.' then [] :: splitDot cs
    else match splitDot cs with
      | [] => [[c]]
      | h :: t => (c :: h) :: t

/-- The segments of a dotted name that are not empty. -/
def segments (s : Str) : List Str := (splitDot s).filter (fun p => !p.isEmpty)

/-- A segment as it is written in SQL: quoted, except a lone asterisk. -/
def writeSegment (q : Char) (p : Str) : Str := if p = ['*'] then ['*'] else q :: (p ++ [q])

/-- Segments with dots between them. -/
def dotted : List Str → Str
  | [] => []
  | [p] => p
  | p :: ps => p ++ '.' :: dotted ps

/-- The token a server reads for a segment. -/
def segmentTok (p : Str) : Tok := if p = ['*'] then .sym '*' else .ident p

/-- The tokens a server reads for a dotted sequence of segments. -/
def refToks : List Str → List Tok
  | [] => []
  | [p] => [segmentTok p]
  | p :: ps => segmentTok p :: .sym '.' :: refToks ps

/-- Tokens of references: quoted identifiers, dots and asterisks. -/
def RefTok : Tok → Prop
  | .ident _ => True
  | .sym c => c = '.' ∨ c = '*'
  | _ => False

/-- The inside of a quoted segment: at least one character, quotes only doubled. -/
inductive QuotedBody (q : Char) : Str → Prop where
  | one {c : Char} : c ≠ q → QuotedBody q [c]
  | two : QuotedBody q [q, q]
  | chr {c : Char} {s : Str} : c ≠ q → QuotedBody q s → QuotedBody q (c :: s)
  | dbl {s : Str} : QuotedBody q s → QuotedBody q (q :: q :: s)

/-- `"…"` with a non-empty body in which quotes are doubled. -/
def QuotedSegment (q : Char) (s : Str) : Prop := ∃ b, QuotedBody q b ∧ s = q :: (b ++ [q])

/-- A non-empty segment without quotes, dots and blanks. -/
def BareSegment (q : Char) (s : Str) : Prop := s ≠ [] ∧ ∀ c ∈ s, c ≠ q ∧ c ≠ '.' ∧ c ≠ ' '

/-- A later segment of a reference, with the dot before it. -/
def TailSegment (q : Char) (s : Str) : Prop :=
  ∃ p, (QuotedSegment q p ∨ BareSegment q p) ∧ s = '.' :: p

/-- Text written in the form of a reference: one quoted segment, then at most two further
segments. -/
def RefForm (q : Char) (s : Str) : Prop :=
  ∃ a b c, s = a ++ b ++ c ∧ QuotedSegment q a ∧ (b = [] ∨ TailSegment q b) ∧
    (c = [] ∨ b ≠ [] ∧ TailSegment q c)

/-- White space, as Python's `str.strip` understands it: tab, line feed, vertical tab, form feed, carriage
return; the separators FS, GS, RS and US; the space; next line; no-break space; ogham space mark; en quad
to hair space; line and paragraph separator; narrow no-break, medium mathematical and ideographic space. -/
def isWhite (c : Char) : Bool :=
  [9, 10, 11, 12, 13, 28, 29, 30, 31, 32, 133, 160, 5760, 8192, 8193, 8194, 8195, 8196, 8197, 8198, 8199,
   8200, 8201, 8202, 8232, 8233, 8239, 8287, 12288].contains c.toNat

/-- `s` without surrounding white space is `r`. -/
def Trimmed (space : Char → Bool) (s r : Str) : Prop :=
  ∃ pre post, s = pre ++ r ++ post ∧ (∀ c ∈ pre, space c = true) ∧ (∀ c ∈ post, space c = true) ∧
    (∀ c, r.head? = some c → space c = false) ∧ (∀ c, r.getLast? = some c → space c = false)

/-- Text in which every quote character belongs to a quoted run without quotes inside. -/
inductive WellQuoted (q : Char) : Str → Prop where
  | nil : WellQuoted q []
  | chr {c : Char} {s : Str} : c ≠ q → WellQuoted q s → WellQuoted q (c :: s)
  | quoted {b s : Str} : b ≠ [] → q ∉ b → WellQuoted q s → WellQuoted q (q :: (b ++ q :: s))

/-- Two quote characters next to each other. -/
def HasDoubled (q : Char) (s : Str) : Prop := ∃ a b, s = a ++ q :: q :: b

end SqlPuzzle.Spec
