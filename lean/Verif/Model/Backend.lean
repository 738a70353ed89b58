import Verif.Model.Types
import Verif.Model.Regex

/-!
`sqlpuzzle/_backends/*.py`
-/

namespace SqlPuzzle

namespace Backend

/-- `reference_quote`: sql.py:10, mysql.py:9. -/
def quote : Backend → Char
  | .mysql => '`'
  | _ => '"'

/-- `supports_full_join`: sql.py:11, postgresql.py:11. -/
def supportsFullJoin : Backend → Bool
  | .postgresql => true
  | _ => false

/-- `supports_on_duplicate_key_update`: sql.py:12, mysql.py:10. -/
def supportsOnDuplicateKeyUpdate : Backend → Bool
  | .mysql => true
  | _ => false

/-- `supports_on_conflict_do_update`: sql.py:13, postgresql.py:12. -/
def supportsOnConflictDoUpdate : Backend → Bool
  | .postgresql => true
  | _ => false

/-- `supports_replace_into`: sql.py:14, sqlite.py:9. -/
def supportsReplaceInto : Backend → Bool
  | .sqlite => true
  | _ => false

/-- `boolean`: sql.py:16-18 (`'{:d}'.format(value)`), postgresql.py:14-16. -/
def boolean : Backend → Bool → Str
  | .postgresql, b => if b then L!"true" else L!"false"
  | _, b => if b then L!"1" else L!"0"

/-- One lower-case hexadecimal digit. -/
def hexDigit (n : Nat) : Char := if n < 10 then Char.ofNat (48 + n) else Char.ofNat (87 + n)

/-- `binascii.hexlify(value).decode('ascii')`. -/
def hexlify (bs : List UInt8) : Str :=
  bs.flatMap fun b => [hexDigit (b.toNat / 16), hexDigit (b.toNat % 16)]

/-- `bytes`: sql.py:46-48 (`x'…'`), postgresql.py:18-20 (`E'\\x…'`). -/
def bytes : Backend → List UInt8 → Str
  | .postgresql, bs => L!"E'\\\\x" ++ hexlify bs ++ L!"'"
  | _, bs => L!"x'" ++ hexlify bs ++ L!"'"

end Backend

/-- `{quote}([^{quote}]|({quote}{quote}))+{quote}`: a quoted segment (sql.py:26). -/
def reQuoted (q : Char) : Re :=
  .seq (.chr q) (.seq (.plus (.alt (.cls (· != q)) (.seq (.chr q) (.chr q)))) (.chr q))

/-- `[^{quote}. ]+`: a bare segment (sql.py:27). -/
def reBare (q : Char) : Re := .plus (.cls fun c => c != q && c != '.' && c != ' ')

/-- The whole pattern of `is_reference` (sql.py:25-28). -/
def reReference (q : Char) : Re :=
  .seq (reQuoted q) (.upTo2 (.seq (.chr '.') (.alt (reQuoted q) (reBare q))))

/-- `is_reference` for a `str` argument (sql.py:20-28). -/
def isReference (q : Char) (s : Str) : Bool := (reReference q).fullmatch (strip s)

/-- The pattern `{quote}([^{quote}]+){quote}|\.` of `reference` at the start of the input
(sql.py:42).  `[^q]+` is greedy and cannot cross a quote, so there is one candidate for the group:
everything up to the next quote. -/
def refMatch (q : Char) : Str → Option (Option Str × Str)
  | [] => none
  | c :: cs =>
    if c = q then
      match cs.takeWhile (· != q), cs.dropWhile (· != q) with
      | g :: gs, _ :: rest => some (some (g :: gs), rest)
      | _, _ => none
    else if c = '.' then some (none, cs)
    else none

/-- The parts of `re.split(...)` that survive the `if i` filter (sql.py:42-43). -/
def refParts (q : Char) (s : Str) : List Str :=
  (reSplit (refMatch q) (s.length + 1) [] s).filter (fun i => !i.isEmpty)

/-- `'{quote}{i}{quote}' if i != '*' else i` (sql.py:43). -/
def quotePart (q : Char) (i : Str) : Str := if i = ['*'] then i else q :: (i ++ [q])

/-- `reference` for a `str` argument (sql.py:30-44). -/
def reference (q : Char) (s : Str) : Str := joinS ['.'] ((refParts q s).map (quotePart q))

end SqlPuzzle
