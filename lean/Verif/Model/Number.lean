import Verif.Model.Types

/-!
Text of numbers and dates: `'{:.5f}'.format(...)` (sqlvalue.py:96-97) and `.isoformat()`
(sqlvalue.py:102-106).
-/

namespace SqlPuzzle

/-- `num / den` rounded to the nearest integer, ties to even. -/
def roundHalfEven (num den : Nat) : Nat :=
  let q := num / den
  let r := num % den
  if 2 * r < den then q
  else if den < 2 * r then q + 1
  else if q % 2 = 0 then q else q + 1

/-- `'{:.5f}'` of `±num/den`: rounded to five decimals, ties to even. -/
def fmt5 (neg : Bool) (num den : Nat) : Str :=
  let k := roundHalfEven (num * 100000) den
  (if neg then ['-'] else []) ++ natText (k / 100000) ++ '.' :: padText 5 (k % 100000)

/-- Numerator and denominator of `m·b^e`. -/
def ratio (b m : Nat) : Int → Nat × Nat
  | .ofNat k => (m * b ^ k, 1)
  | .negSucc k => (m, b ^ (k + 1))

/-- `'{:.5f}'.format(f)` for a `float`. -/
def fltText : Flt → Str
  | .fin neg m e => fmt5 neg (ratio 2 m e).1 (ratio 2 m e).2
  | .inf neg => if neg then L!"-inf" else L!"inf"
  | .nan => L!"nan"

/-- `'{:.5f}'.format(d)` for a `decimal.Decimal`, in the default decimal context
(`ROUND_HALF_EVEN`). -/
def decText : Dec → Str
  | .fin neg c e => fmt5 neg (ratio 10 c e).1 (ratio 10 c e).2
  | .inf neg => if neg then L!"-Infinity" else L!"Infinity"
  | .nan => L!"NaN"

/-- `datetime.date.isoformat()`. -/
def dateText (d : DateV) : Str :=
  padText 4 d.year ++ '-' :: padText 2 d.month ++ '-' :: padText 2 d.day

/-- The UTC offset suffix of `isoformat()`. -/
def tzText (t : TzV) : Str :=
  (if t.neg then '-' else '+') :: padText 2 t.hours ++ ':' :: padText 2 t.minutes ++
  (if t.seconds ≠ 0 ∨ t.micros ≠ 0 then ':' :: padText 2 t.seconds else []) ++
  (if t.micros ≠ 0 then '.' :: padText 6 t.micros else [])

/-- `datetime.datetime.isoformat()`. -/
def datetimeText (d : DateTimeV) : Str :=
  dateText d.date ++ 'T' :: padText 2 d.hour ++ ':' :: padText 2 d.minute ++
  ':' :: padText 2 d.second ++
  (if d.micro ≠ 0 then '.' :: padText 6 d.micro else []) ++
  (match d.tz with
   | some t => tzText t
   | none => [])

/-- Leap years, `_is_leap` of Python's `datetime` module. -/
def isLeap (y : Nat) : Bool := y % 4 == 0 && (y % 100 != 0 || y % 400 == 0)

/-- Days of the year before the first day of a month, `_days_before_month` of Python's `datetime`
module. -/
def daysBeforeMonth (y m : Nat) : Nat :=
  ([31, 28, 31, 30, 31, 30, 31, 31, 30, 31, 30, 31].take (m - 1)).sum +
    (if 2 < m && isLeap y then 1 else 0)

/-- `datetime.date.toordinal()`. -/
def DateV.ordinal (d : DateV) : Nat :=
  (d.year - 1) * 365 + (d.year - 1) / 4 - (d.year - 1) / 100 + (d.year - 1) / 400 +
    daysBeforeMonth d.year d.month + d.day

/-- The UTC offset in microseconds. -/
def TzV.offset (t : TzV) : Int :=
  let n : Int := ((t.hours * 60 + t.minutes) * 60 + t.seconds) * 1000000 + t.micros
  if t.neg then -n else n

/-- Microseconds on the clock of an aware datetime, minus its UTC offset. -/
def DateTimeV.instant (d : DateTimeV) (t : TzV) : Int :=
  ((((d.date.ordinal * 24 + d.hour) * 60 + d.minute) * 60 + d.second) * 1000000 + d.micro : Int) -
    t.offset

/-- `datetime.datetime.__eq__`: naive datetimes by fields, aware ones by the instant they denote,
a naive and an aware one are different.  UTC offsets that depend on `fold` are not modelled. -/
def DateTimeV.eq (a b : DateTimeV) : Bool :=
  match a.tz, b.tz with
  | none, none => a == b
  | some s, some t => a.instant s == b.instant t
  | _, _ => false

/-- The exact mathematical value of a Python number, as far as `==` is concerned. -/
inductive NumV where
  | rat (neg : Bool) (num den : Nat)
  | inf (neg : Bool)
  | nan

/-- Numeric value of `bool`, `int`, `float` and `Decimal` objects. -/
def Obj.num : Obj → Option NumV
  | .bool b => some (.rat false (if b then 1 else 0) 1)
  | .int (.ofNat n) => some (.rat false n 1)
  | .int (.negSucc n) => some (.rat true (n + 1) 1)
  | .float (.fin neg m e) => some (.rat neg (ratio 2 m e).1 (ratio 2 m e).2)
  | .float (.inf neg) => some (.inf neg)
  | .float .nan => some .nan
  | .decimal (.fin neg c e) => some (.rat neg (ratio 10 c e).1 (ratio 10 c e).2)
  | .decimal (.inf neg) => some (.inf neg)
  | .decimal .nan => some .nan
  | _ => Option.none

/-- Python `==` between numbers of any of the four types: exact comparison. -/
def NumV.eq : NumV → NumV → Bool
  | .rat n1 a1 b1, .rat n2 a2 b2 => a1 * b2 == a2 * b1 && (n1 == n2 || a1 == 0)
  | .inf n1, .inf n2 => n1 == n2
  | _, _ => false

end SqlPuzzle
