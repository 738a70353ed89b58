import Verif.Spec.Numeral
import Verif.Model.Types

/-!
Specification: reading ISO 8601 dates, `YYYY-MM-DD` and `YYYY-MM-DDTHH:MM:SS[.ffffff][±HH:MM[:SS[.ffffff]]]`.
-/

namespace SqlPuzzle.Spec

/-- Exactly `w` digits, then the rest of the text. -/
def readField (w : Nat) (s : Str) : Option (Nat × Str) :=
  if (s.take w).length = w then (readNat (s.take w)).map fun n => (n, s.drop w) else none

/-- The character `c`, then the rest of the text. -/
def readChar (c : Char) : Str → Option Str
  | [] => none
  | x :: xs => if x = c then some xs else none

/-- `YYYY-MM-DD`, then the rest of the text. -/
def readDatePart (s : Str) : Option (DateV × Str) := do
  let (y, s) ← readField 4 s
  let s ← readChar '-' s
  let (m, s) ← readField 2 s
  let s ← readChar '-' s
  let (d, s) ← readField 2 s
  some (⟨y, m, d⟩, s)

/-- The date denoted by a text. -/
def readDate (s : Str) : Option DateV := do
  let (d, s) ← readDatePart s
  if s.isEmpty then some d else none

/-- An optional fraction `.ffffff`; zero if there is none. -/
def readFraction (s : Str) : Option (Nat × Str) :=
  match s with
  | '.' :: cs => readField 6 cs
  | s => some (0, s)

/-- Optional seconds of an offset. -/
def readSeconds (s : Str) : Option (Nat × Str) :=
  match s with
  | ':' :: cs => readField 2 cs
  | s => some (0, s)

/-- An offset after its sign. -/
def readOffset (neg : Bool) (s : Str) : Option (TzV × Str) := do
  let (h, s) ← readField 2 s
  let s ← readChar ':' s
  let (m, s) ← readField 2 s
  let (sec, s) ← readSeconds s
  let (us, s) ← readFraction s
  some (⟨neg, h, m, sec, us⟩, s)

/-- An optional offset. -/
def readTz (s : Str) : Option (Option TzV × Str) :=
  match s with
  | '+' :: cs => (readOffset false cs).map fun r => (some r.1, r.2)
  | '-' :: cs => (readOffset true cs).map fun r => (some r.1, r.2)
  | s => some (none, s)

/-- The moment denoted by a text. -/
def readDateTime (s : Str) : Option DateTimeV := do
  let (d, s) ← readDatePart s
  let s ← readChar 'T' s
  let (h, s) ← readField 2 s
  let s ← readChar ':' s
  let (m, s) ← readField 2 s
  let s ← readChar ':' s
  let (sec, s) ← readField 2 s
  let (us, s) ← readFraction s
  let (tz, s) ← readTz s
  if s.isEmpty then some ⟨d, h, m, sec, us, tz⟩ else none

/-- Field ranges of Python's `datetime.date`. -/
def ValidDate (d : DateV) : Prop :=
  1 ≤ d.year ∧ d.year ≤ 9999 ∧ 1 ≤ d.month ∧ d.month ≤ 12 ∧ 1 ≤ d.day ∧ d.day ≤ 31

/-- Field ranges of UTC offsets. -/
def ValidTz (t : TzV) : Prop := t.hours < 24 ∧ t.minutes < 60 ∧ t.seconds < 60 ∧ t.micros < 1000000

/-- Field ranges of Python's `datetime.datetime`. -/
def ValidDateTime (d : DateTimeV) : Prop :=
  ValidDate d.date ∧ d.hour < 24 ∧ d.minute < 60 ∧ d.second < 60 ∧ d.micro < 1000000 ∧
    ∀ t, d.tz = some t → ValidTz t

end SqlPuzzle.Spec
