import Verif.Model.Base

/-!
The regular expressions `has()` builds (queryparts.py:20-25): the part of Python's `re` that the
value can use, except escapes with a letter or a digit other than those below, extensions `(?…)` and
possessive repetition.  A value that uses one of those is outside the model.
-/

namespace SqlPuzzle

/-- What a character set lists. -/
inductive SetItem where
  | chr (c : Char)
  | range (lo hi : Char)
  | word            -- `\w`
  | nonWord         -- `\W`
deriving DecidableEq, Repr

/-- One character of the text. -/
inductive CharPat where
  | chr (c : Char)
  | any             -- `.`: every character but the newline
  | nonWord         -- `\W`
  | word            -- `\w`
  | set (negated : Bool) (items : List SetItem)
deriving DecidableEq, Repr

/-- Regular expressions.  `bol` is `^` and `\A`, `eol` is `$`, `eos` is `\Z`. -/
inductive Pat where
  | eps
  | one (p : CharPat)
  | bol
  | eol
  | eos
  | seq (a b : Pat)
  | alt (a b : Pat)
  | star (a : Pat)
deriving DecidableEq, Repr

/-! ### Syntax -/

/-- What the characters of a pattern stand for.  `count m n` is `{m,n}`. -/
inductive PatTok where
  | one (p : CharPat) | bol | eol | eos | bar | open_ | close | star | plus | quest
  | count (m : Nat) (n : Option Nat)
deriving DecidableEq, Repr

/-- A character of a pattern that starts nothing longer.  `]`, `}` and a `{` that starts no count
are ordinary characters. -/
def patTok : Char → PatTok
  | '(' => .open_
  | ')' => .close
  | '|' => .bar
  | '.' => .one .any
  | '^' => .bol
  | '$' => .eol
  | '*' => .star
  | '+' => .plus
  | '?' => .quest
  | c => .one (.chr c)

/-- A digit or a letter of ASCII. -/
def asciiAlnum (c : Char) : Bool :=
  ('0' ≤ c && c ≤ '9') || ('a' ≤ c && c ≤ 'z') || ('A' ≤ c && c ≤ 'Z')

/-- The character a backslash and `c` stand for, `none` if that is outside the model. -/
def reEscape : Char → Option Char
  | 'a' => some '\x07'
  | 'f' => some '\x0c'
  | 'n' => some '\n'
  | 'r' => some '\r'
  | 't' => some '\t'
  | 'v' => some '\x0b'
  | c => if asciiAlnum c then none else some c

/-- Letters that mean nothing after a backslash, for which `re` raises an error (since Python 3.6). -/
def badEscapes : Str := L!"ceghijklmopqyCEFGHIJKLMOPQRTVXY"

/-- What an escape gives that stands for no character. -/
def escapeError (c : Char) : Err := if c ∈ badEscapes then .patternError else .unmodelled

/-- The rest of an escape outside of a character set. -/
def lexEscape : Str → R (PatTok × Str)
  | [] => .error .patternError
  | c :: cs =>
    if c = 'w' then .ok (.one .word, cs)
    else if c = 'W' then .ok (.one .nonWord, cs)
    else if c = 'A' then .ok (.bol, cs)
    else if c = 'Z' then .ok (.eos, cs)
    else match reEscape c with
      | none => .error (escapeError c)
      | some d => .ok (.one (.chr d), cs)

/-- One item of a character set that starts with `c`; `\b` is a backspace there. -/
def setItem (c : Char) (cs : Str) : R (SetItem × Str) :=
  if c = '\\' then
    match cs with
    | [] => .error .patternError
    | d :: r =>
      if d = 'w' then .ok (.word, r)
      else if d = 'W' then .ok (.nonWord, r)
      else if d = 'b' then .ok (.chr '\x08', r)
      else match reEscape d with
        | none => .error (escapeError d)
        | some e => .ok (.chr e, r)
  else .ok (.chr c, cs)

/-- `lo-hi` in a character set. -/
def setRange : SetItem → SetItem → R SetItem
  | .chr lo, .chr hi => if hi < lo then .error .patternError else .ok (.range lo hi)
  | _, _ => .error .patternError                  -- bad character range

/-- The items of a character set up to its `]`, which is an ordinary character if it comes first.
The number bounds the number of items. -/
def setItems : Nat → List SetItem → Str → R (List SetItem × Str)
  | 0, _, _ => .error .patternError               -- unterminated character set
  | _ + 1, _, [] => .error .patternError
  | n + 1, items, c :: cs =>
    if c = ']' ∧ items ≠ [] then .ok (items, cs)
    else match setItem c cs with
      | .error e => .error e
      | .ok (a, '-' :: ']' :: r) => .ok (items ++ [a, .chr '-'], r)
      | .ok (a, '-' :: d :: r) =>
        match setItem d r with
        | .error e => .error e
        | .ok (b, r) =>
          match setRange a b with
          | .error e => .error e
          | .ok i => setItems n (items ++ [i]) r
      | .ok (_, ['-']) => .error .patternError
      | .ok (a, r) => setItems n (items ++ [a]) r

/-- The rest of a character set after `[`. -/
def lexSet (cs : Str) : R (PatTok × Str) :=
  let negated := cs.head? = some '^'
  let cs := if negated then cs.tail else cs
  match setItems cs.length [] cs with
  | .error e => .error e
  | .ok (items, r) => .ok (.one (.set negated items), r)

/-- The number written by some digits. -/
def countOf (ds : Str) : Nat := ds.foldl (fun n d => 10 * n + (d.toNat - '0'.toNat)) 0

/-- The rest of `{m}`, `{m,}`, `{,n}` or `{m,n}` after `{`; a `{` that starts none of them is an
ordinary character.  `re` raises OverflowError for numbers from 4294967295 on. -/
def lexCount (cs : Str) : R (PatTok × Str) :=
  let digit := fun c : Char => decide ('0' ≤ c) && decide (c ≤ '9')
  let lo := cs.takeWhile digit
  let r := cs.dropWhile digit
  let comma := r.head? = some ','
  let hi := if comma then r.tail.takeWhile digit else lo
  let r := if comma then r.tail.dropWhile digit else r
  if cs.head? = some '}' ∨ r.head? ≠ some '}' then .ok (.one (.chr '{'), cs)
  else if countOf lo ≥ 4294967295 ∨ countOf hi ≥ 4294967295 then .error .unmodelled
  else if hi = [] then .ok (.count (countOf lo) none, r.tail)
  else if countOf hi < countOf lo then .error .patternError
  else .ok (.count (countOf lo) (some (countOf hi)), r.tail)

/-- What a pattern starts with, and the rest of it. -/
def lexOne (c : Char) (cs : Str) : R (PatTok × Str) :=
  if c = '\\' then lexEscape cs
  else if c = '[' then lexSet cs
  else if c = '{' then lexCount cs
  else .ok (patTok c, cs)

/-- The parts of a pattern, at most as many as the number says. -/
def patLex : Nat → Str → List (R PatTok)
  | _, [] => []
  | 0, _ :: _ => [.error .unmodelled]
  | n + 1, c :: cs =>
    match lexOne c cs with
    | .error e => [.error e]
    | .ok (t, r) => .ok t :: patLex n r

/-- What can be repeated: `re` rejects the repetition of `^` and `$`, and of a repetition. -/
inductive PatKind where
  | item | anchor | repeated | lazy
deriving DecidableEq, Repr

/-- An open group: the alternatives read so far, and the items of the current one, last item
first. -/
structure PatFrame where
  alts : List Pat := []
  cur : List (PatKind × Pat) := []

/-- The sequence of the items of an alternative. -/
def seqOf (cur : List (PatKind × Pat)) : Pat := cur.foldl (fun r x => .seq x.2 r) .eps

/-- The expression of a group. -/
def framePat (f : PatFrame) : Pat := f.alts.foldr .alt (seqOf f.cur)

/-- The expression as often as the number says. -/
def powPat (r : Pat) : Nat → Pat
  | 0 => .eps
  | n + 1 => .seq r (powPat r n)

/-- `e*`, `e+`, `e{m,}`, `e{m,n}` and `e?`. -/
def repeatPat : PatTok → Pat → Pat
  | .star, r => .star r
  | .plus, r => .seq r (.star r)
  | .count m none, r => .seq (powPat r m) (.star r)
  | .count m (some n), r => .seq (powPat r m) (powPat (.alt r .eps) (n - m))
  | _, r => .alt r .eps

/-- Reads one character of the pattern; `stack` are the groups around the current one. -/
def patStep (f : PatFrame) (stack : List PatFrame) : PatTok → R (PatFrame × List PatFrame)
  | .one p => .ok ({ f with cur := (.item, .one p) :: f.cur }, stack)
  | .bol => .ok ({ f with cur := (.anchor, .bol) :: f.cur }, stack)
  | .eol => .ok ({ f with cur := (.anchor, .eol) :: f.cur }, stack)
  | .eos => .ok ({ f with cur := (.anchor, .eos) :: f.cur }, stack)
  | .bar => .ok (⟨f.alts ++ [seqOf f.cur], []⟩, stack)
  | .open_ => .ok ({}, f :: stack)
  | .close =>
    match stack with
    | [] => .error .patternError                  -- unbalanced parenthesis
    | g :: stack => .ok ({ g with cur := (.item, framePat f) :: g.cur }, stack)
  | q =>
    match f.cur with
    | [] =>
      if q = .quest ∧ f.alts = [] ∧ stack ≠ [] then .error .unmodelled     -- `(?`
      else .error .patternError                   -- nothing to repeat
    | (.item, r) :: cur => .ok ({ f with cur := (.repeated, repeatPat q r) :: cur }, stack)
    | (.anchor, _) :: _ => .error .patternError   -- nothing to repeat
    | (.repeated, r) :: cur =>
      if q = .quest then .ok ({ f with cur := (.lazy, r) :: cur }, stack)
      else if q = .plus then .error .unmodelled   -- possessive
      else .error .patternError                   -- multiple repeat
    | (.lazy, _) :: _ => .error .patternError     -- multiple repeat

/-- Reads a pattern. -/
def patRead (f : PatFrame) (stack : List PatFrame) : List (R PatTok) → R Pat
  | [] =>
    match stack with
    | [] => .ok (framePat f)
    | _ :: _ => .error .patternError              -- missing )
  | .error e :: _ => .error e
  | .ok t :: ts =>
    match patStep f stack t with
    | .error e => .error e
    | .ok (f, stack) => patRead f stack ts

/-- `re.compile('([^\w]|^)VALUE([^\w]|$)')` (queryparts.py:24). -/
def hasPattern (v : Str) : R Pat :=
  let pattern := L!"([^\\w]|^)" ++ (v ++ L!"([^\\w]|$)")
  patRead {} [] (patLex pattern.length pattern)

/-! ### Search -/

section
variable (isWord : Char → Bool)

/-- Does the set list the character? -/
def SetItem.fits : SetItem → Char → Bool
  | .chr d, c => d == c
  | .range lo hi, c => decide (lo ≤ c) && decide (c ≤ hi)
  | .word, c => isWord c
  | .nonWord, c => !isWord c

/-- Does the character match? -/
def CharPat.fits : CharPat → Char → Bool
  | .chr d, c => d == c
  | .any, c => c != '\n'
  | .nonWord, c => !isWord c
  | .word, c => isWord c
  | .set neg items, c => neg != items.any fun i => i.fits isWord c

/-- A position in a text: is it the start of the text, and what follows. -/
abbrev TextPos := Bool × Str

/-- All positions reached from `p` by any number of rounds of `f` that each use up some text; at
most `n` rounds. -/
def starEnds (f : TextPos → List TextPos) : Nat → TextPos → List TextPos
  | 0, p => [p]
  | n + 1, p => p :: (f p).flatMap fun p' =>
      if p'.2.length < p.2.length then starEnds f n p' else []

/-- The positions where a match that starts at `p` can end.  `$` also matches before a newline at
the end of the text. -/
def Pat.ends : Pat → TextPos → List TextPos
  | .eps, p => [p]
  | .one _, (_, []) => []
  | .one k, (_, c :: cs) => if k.fits isWord c then [(false, cs)] else []
  | .bol, p => if p.1 then [p] else []
  | .eol, p => if p.2 = [] ∨ p.2 = ['\n'] then [p] else []
  | .eos, p => if p.2 = [] then [p] else []
  | .seq a b, p => (a.ends p).flatMap b.ends
  | .alt a b, p => a.ends p ++ b.ends p
  | .star a, p => starEnds a.ends p.2.length p

/-- The positions of a text. -/
def positions : Bool → Str → List TextPos
  | b, [] => [(b, [])]
  | b, c :: cs => (b, c :: cs) :: positions false cs

/-- `bool(re.search(pattern, text))`. -/
def patSearch (r : Pat) (text : Str) : Bool :=
  (positions true text).any fun p => !(r.ends isWord p).isEmpty

end

end SqlPuzzle
