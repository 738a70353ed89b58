/-
Python-level vocabulary used by the model of python-sqlpuzzle.

Conventions
* a Python `str` is a list of code points (`Str = List Char`; lone surrogates are not representable);
* a raised exception is a value of `Err`, a function that may raise returns `R α = Except Err α`;
* a method that mutates `self` and may raise half-way returns the new state *and* the error
  (`σ × Option Err`), because Python keeps the mutations made before the exception.
-/

namespace SqlPuzzle

/-- Python `str`: a finite sequence of code points. -/
abbrev Str := List Char

/-- `L!"text"` is the list of characters of a string literal. -/
macro:max "L!" s:str : term => `(String.toList $s)

/-- Exceptions that can escape from the library.
The first five are `sqlpuzzle/exceptions.py:1-84`; then built-in exceptions of Python.
`unmodelled` is *not* a Python exception: the model returns it for inputs that DESIGN.md lists as
outside the model. -/
inductive Err where
  | sqlPuzzle          -- exceptions.py:1   SqlPuzzleException itself
  | confirmUpdateAll   -- exceptions.py:26  ConfirmUpdateAllException
  | confirmDeleteAll   -- exceptions.py:36  ConfirmDeleteAllException
  | invalidArgument    -- exceptions.py:46  InvalidArgumentException
  | invalidQuery       -- exceptions.py:68  InvalidQueryException (subclass of InvalidArgument…)
  | exception          -- a bare `Exception(...)`
  | typeError
  | attributeError
  | assertionError
  | recursionError
  | patternError       -- `re.error`
  | unmodelled
deriving DecidableEq, Repr

/-- Is the exception a subclass of `SqlPuzzleException`?  exceptions.py:1-84 (class headers). -/
def Err.isSqlPuzzle : Err → Bool
  | .sqlPuzzle | .confirmUpdateAll | .confirmDeleteAll | .invalidArgument | .invalidQuery => true
  | _ => false

/-- Is the exception a subclass of `InvalidArgumentException`?  exceptions.py:46, 68. -/
def Err.isInvalidArgument : Err → Bool
  | .invalidArgument | .invalidQuery => true
  | _ => false

abbrev R (α : Type) := Except Err α

instance {ε α : Type} [DecidableEq ε] [DecidableEq α] : DecidableEq (Except ε α)
  | .ok a, .ok b => if h : a = b then isTrue (by rw [h]) else isFalse (by intro h'; cases h'; exact h rfl)
  | .error a, .error b => if h : a = b then isTrue (by rw [h]) else isFalse (by intro h'; cases h'; exact h rfl)
  | .ok _, .error _ => isFalse (by intro h; cases h)
  | .error _, .ok _ => isFalse (by intro h; cases h)

/-- `[f(x) for x in xs]` where `f` may raise. -/
def mapR {α β : Type} (f : α → R β) : List α → R (List β)
  | [] => .ok []
  | x :: xs => do
    let y ← f x
    let ys ← mapR f xs
    .ok (y :: ys)

/-- `a and b`, where evaluating `a` or `b` may raise. -/
def andR (a b : R Bool) : R Bool := do
  if ← a then b else .ok false

/-- `a or b`, where evaluating `a` or `b` may raise. -/
def orR (a b : R Bool) : R Bool := do
  if ← a then .ok true else b

/-- `any(f(x) for x in xs)`. -/
def anyR {α : Type} (f : α → R Bool) : List α → R Bool
  | [] => .ok false
  | x :: xs => orR (f x) (anyR f xs)

/-- `all(f(x) for x in xs)`. -/
def allR {α : Type} (f : α → R Bool) : List α → R Bool
  | [] => .ok true
  | x :: xs => andR (f x) (allR f xs)

/-- `len(xs) == len(ys) and all(eq(x, y) for x, y in zip(xs, ys))`. -/
def eqListR {α : Type} (eq : α → α → R Bool) (xs ys : List α) : R Bool :=
  if xs.length = ys.length then allR (fun p => eq p.1 p.2) (xs.zip ys) else .ok false

/-- `sep.join(xs)`. -/
def joinS (sep : Str) : List Str → Str
  | [] => []
  | [x] => x
  | x :: y :: ys => x ++ sep ++ joinS sep (y :: ys)

/-- `s.replace(old, new)` for a one-character `old`. -/
def replaceChar (old : Char) (new : Str) (s : Str) : Str :=
  s.flatMap fun c => if c = old then new else [c]

/-- The code points for which `str.isspace()` holds, hence the ones `str.strip()` removes. -/
def isSpace (c : Char) : Bool :=
  let n := c.toNat
  (0x09 ≤ n && n ≤ 0x0d) || (0x1c ≤ n && n ≤ 0x20) || n == 0x85 || n == 0xa0 || n == 0x1680 ||
  (0x2000 ≤ n && n ≤ 0x200a) || n == 0x2028 || n == 0x2029 || n == 0x202f || n == 0x205f ||
  n == 0x3000

/-- `s.strip()`. -/
def strip (s : Str) : Str := ((s.dropWhile isSpace).reverse.dropWhile isSpace).reverse

/-- Python `<=` on `str`: lexicographic by code point. -/
def strLe : Str → Str → Bool
  | [], _ => true
  | _ :: _, [] => false
  | a :: as, b :: bs => if a = b then strLe as bs else decide (a.toNat < b.toNat)

/-- Insertion into a list sorted by `le`. -/
def insertBy {α : Type} (le : α → α → Bool) (x : α) : List α → List α
  | [] => [x]
  | y :: ys => if le x y then x :: y :: ys else y :: insertBy le x ys

/-- `sorted(xs, …)`: stable sort by the order `le`. -/
def sortBy {α : Type} (le : α → α → Bool) : List α → List α
  | [] => []
  | x :: xs => insertBy le x (sortBy le xs)

/-- Decimal digit character. -/
def digitChar (n : Nat) : Char := Char.ofNat (48 + n % 10)

/-- Decimal digits of a natural number, most significant first; `fuel` bounds the digit count. -/
def natTextF : Nat → Nat → Str
  | 0, _ => []
  | fuel + 1, n => if n < 10 then [digitChar n] else natTextF fuel (n / 10) ++ [digitChar n]

/-- `'{:d}'.format(n)` for a natural number. -/
def natText (n : Nat) : Str := natTextF (n + 1) n

/-- `'{:d}'.format(i)` (sqlvalue.py:93-94, `SqlValue._integer`). -/
def intText : Int → Str
  | .ofNat n => natText n
  | .negSucc n => '-' :: natText (n + 1)

/-- `'{:0wd}'.format(n)`: zero-padded to width `w`. -/
def padText (w n : Nat) : Str := List.replicate (w - (natText n).length) '0' ++ natText n

end SqlPuzzle
