import Verif.Model.Base

/-!
Specification: how a database server splits a statement into tokens.

This file does not mention the model of the library.  It describes the lexical rules shared by SQL
dialects, with the two points on which the supported servers differ as parameters: the character
that quotes identifiers, and whether a backslash escapes inside `'…'`.
-/

namespace SqlPuzzle.Spec

/-- Lexical differences between servers. -/
structure Dialect where
  identQuote : Char          -- `"` (standard, PostgreSQL, SQLite) or a backtick (MySQL)
  backslash : Bool           -- is `\` an escape character inside '…'?
  dqString : Bool            -- is "…" a string literal (MySQL)?
  hashComment : Bool         -- does `#` start a comment (MySQL)?
deriving DecidableEq, Repr

/-- MySQL in its default mode. -/
def mysqlDialect : Dialect := ⟨'`', true, true, true⟩
/-- MySQL with `NO_BACKSLASH_ESCAPES`. -/
def mysqlNoBackslash : Dialect := ⟨'`', false, true, true⟩
/-- Standard SQL, SQLite, and PostgreSQL with `standard_conforming_strings`. -/
def standardDialect : Dialect := ⟨'"', false, false, false⟩

/-- Tokens.  Literals and quoted identifiers carry their decoded contents. -/
inductive Tok where
  | word (s : Str)       -- keyword or unquoted name
  | num (s : Str)
  | str (s : Str)        -- '…', decoded
  | hex (s : Str)        -- x'…', contents
  | ident (s : Str)      -- quoted identifier, decoded
  | op (s : Str)         -- comparison operator
  | sym (c : Char)       -- any other character
  | comment
  | bad                  -- input ended inside a literal, an identifier or a comment
deriving DecidableEq, Repr

/-- State between two characters. -/
inductive Mode where
  | normal
  | word (acc : Str)
  | num (acc : Str)
  | op (acc : Str)
  | str (bs : Bool) (q : Char) (acc : Str)       -- inside a literal quoted by `q`
  | strEsc (q : Char) (acc : Str)                -- after a backslash in a literal
  | strEnd (bs : Bool) (q : Char) (acc : Str)    -- after `q`: end of literal unless `q` follows
  | hex (acc : Str)
  | ident (acc : Str)
  | identEnd (acc : Str)
  | dash
  | slash
  | line
  | block
  | blockStar
deriving DecidableEq, Repr

def isDigitC (c : Char) : Bool := '0' ≤ c && c ≤ '9'

/-- Characters of unquoted words. -/
def isWordC (c : Char) : Bool :=
  ('a' ≤ c && c ≤ 'z') || ('A' ≤ c && c ≤ 'Z') || c == '_' || decide (128 ≤ c.toNat)

def isOpC (c : Char) : Bool := c == '<' || c == '>' || c == '=' || c == '!'

def isBlank (c : Char) : Bool := c == ' ' || c == '\t' || c == '\n' || c == '\r'

/-- Value of a backslash sequence inside a literal. -/
def unescape (c : Char) : Str :=
  if c = 'n' then ['\n']
  else if c = 't' then ['\t']
  else if c = 'r' then ['\r']
  else if c = '0' then [Char.ofNat 0]
  else if c = 'b' then [Char.ofNat 8]
  else if c = 'Z' then [Char.ofNat 26]
  else if c = '%' then ['\\', '%']
  else if c = '_' then ['\\', '_']
  else [c]

/-- A character outside every token. -/
def start (d : Dialect) (c : Char) : List Tok × Mode :=
  if isBlank c then ([], .normal)
  else if c = d.identQuote then ([], .ident [])
  else if c = '\'' then ([], .str d.backslash '\'' [])
  else if c = '"' && d.dqString then ([], .str d.backslash '"' [])
  else if c = '#' && d.hashComment then ([], .line)
  else if c = '-' then ([], .dash)
  else if c = '/' then ([], .slash)
  else if isDigitC c then ([], .num [c])
  else if isWordC c then ([], .word [c])
  else if isOpC c then ([], .op [c])
  else ([.sym c], .normal)

/-- Emit `ts`, then read `c` outside every token. -/
def emit (d : Dialect) (ts : List Tok) (c : Char) : List Tok × Mode :=
  (ts ++ (start d c).1, (start d c).2)

/-- One character. -/
def step (d : Dialect) : Mode → Char → List Tok × Mode
  | .normal, c => start d c
  | .word acc, c =>
    if isWordC c || isDigitC c || c == '$' then ([], .word (acc ++ [c]))
    else if c = '\'' && (acc == ['x'] || acc == ['X']) then ([], .hex [])
    else if c = '\'' && (acc == ['e'] || acc == ['E']) then ([], .str true '\'' [])
    else emit d [.word acc] c
  | .num acc, c =>
    if isDigitC c || isWordC c || c == '.' then ([], .num (acc ++ [c]))
    else emit d [.num acc] c
  | .op acc, c => if isOpC c then ([], .op (acc ++ [c])) else emit d [.op acc] c
  | .str bs q acc, c =>
    if c = q then ([], .strEnd bs q acc)
    else if c = '\\' && bs then ([], .strEsc q acc)
    else ([], .str bs q (acc ++ [c]))
  | .strEsc q acc, c => ([], .str true q (acc ++ unescape c))
  | .strEnd bs q acc, c => if c = q then ([], .str bs q (acc ++ [c])) else emit d [.str acc] c
  | .hex acc, c => if c = '\'' then ([.hex acc], .normal) else ([], .hex (acc ++ [c]))
  | .ident acc, c => if c = d.identQuote then ([], .identEnd acc) else ([], .ident (acc ++ [c]))
  | .identEnd acc, c =>
    if c = d.identQuote then ([], .ident (acc ++ [c])) else emit d [.ident acc] c
  | .dash, c => if c = '-' then ([], .line) else emit d [.sym '-'] c
  | .slash, c => if c = '*' then ([], .block) else emit d [.sym '/'] c
  | .line, c => if c = '\n' then ([.comment], .normal) else ([], .line)
  | .block, c => if c = '*' then ([], .blockStar) else ([], .block)
  | .blockStar, c =>
    if c = '/' then ([.comment], .normal) else if c = '*' then ([], .blockStar) else ([], .block)

/-- End of input. -/
def finish : Mode → List Tok
  | .normal => []
  | .word acc => [.word acc]
  | .num acc => [.num acc]
  | .op acc => [.op acc]
  | .strEnd _ _ acc => [.str acc]
  | .identEnd acc => [.ident acc]
  | .dash => [.sym '-']
  | .slash => [.sym '/']
  | .line => [.comment]
  | .str .. | .strEsc .. | .hex _ | .ident _ | .block | .blockStar => [.bad]

/-- Tokens of `s`, read from the middle of the input in mode `m`. -/
def lexFrom (d : Dialect) : Mode → Str → List Tok
  | m, [] => finish m
  | m, c :: cs => (step d m c).1 ++ lexFrom d (step d m c).2 cs

/-- Tokens of a statement. -/
def lex (d : Dialect) (s : Str) : List Tok := lexFrom d .normal s

/-- Text that can follow a complete token without being part of it: nothing, a blank, a comma or a
closing parenthesis. -/
def Sep (rest : Str) : Prop :=
  rest = [] ∨ ∃ c cs, rest = c :: cs ∧ (c = ' ' ∨ c = ',' ∨ c = ')')

/-- `f` is read as exactly the tokens `ts`, whatever follows it after a separator. -/
def Reads (d : Dialect) (f : Str) (ts : List Tok) : Prop :=
  ∀ rest, Sep rest → lex d (f ++ rest) = ts ++ lex d rest

/-- `f` is read as exactly the tokens `ts`, whatever follows it immediately. -/
def ReadsAny (d : Dialect) (f : Str) (ts : List Tok) : Prop :=
  ∀ rest, lex d (f ++ rest) = ts ++ lex d rest

end SqlPuzzle.Spec
