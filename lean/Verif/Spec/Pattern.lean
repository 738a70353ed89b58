import Verif.Model.Pattern
import Verif.Spec.Has

/-!
What a value means when `has()` takes it as a regular expression: matching as a relation, and the
values made of ordinary characters, dots and parentheses.
-/

namespace SqlPuzzle.Spec

section
variable (isWord : Char → Bool)

/-- The item of a character set lists the character. -/
inductive Lists : SetItem → Char → Prop
  | chr {c} : Lists (.chr c) c
  | range {lo hi c} : lo ≤ c → c ≤ hi → Lists (.range lo hi) c
  | word {c} : isWord c = true → Lists .word c
  | nonWord {c} : isWord c = false → Lists .nonWord c

/-- `Matches r p p'`: the expression matches the text between the two positions. -/
inductive Matches : Pat → TextPos → TextPos → Prop
  | eps {p} : Matches .eps p p
  | chr {b c cs} : Matches (.one (.chr c)) (b, c :: cs) (false, cs)
  | any {b c cs} : c ≠ '\n' → Matches (.one .any) (b, c :: cs) (false, cs)
  | nonWord {b c cs} : isWord c = false → Matches (.one .nonWord) (b, c :: cs) (false, cs)
  | word {b c cs} : isWord c = true → Matches (.one .word) (b, c :: cs) (false, cs)
  | inSet {items b c cs} : (∃ i ∈ items, Lists isWord i c) →
      Matches (.one (.set false items)) (b, c :: cs) (false, cs)
  | notInSet {items b c cs} : (∀ i ∈ items, ¬Lists isWord i c) →
      Matches (.one (.set true items)) (b, c :: cs) (false, cs)
  | bol {t} : Matches .bol (true, t) (true, t)
  | eol {b} : Matches .eol (b, []) (b, [])
  | eolNewline {b} : Matches .eol (b, ['\n']) (b, ['\n'])
  | eos {b} : Matches .eos (b, []) (b, [])
  | seq {r r' p m p'} : Matches r p m → Matches r' m p' → Matches (.seq r r') p p'
  | left {r r' p p'} : Matches r p p' → Matches (.alt r r') p p'
  | right {r r' p p'} : Matches r' p p' → Matches (.alt r r') p p'
  | done {r p} : Matches (.star r) p p
  | more {r p m p'} : Matches r p m → Matches (.star r) m p' → Matches (.star r) p p'

end

/-- The characters that are neither special in a regular expression, nor a dot or a parenthesis. -/
def Ordinary (c : Char) : Prop := c ∉ L!"\\^$.|?*+()[]{}"

/-- A value of ordinary characters, dots and parentheses, such as `table.column` or `F(x)`. -/
def Simple (v : Str) : Prop := ∀ c ∈ v, Ordinary c ∨ c = '.' ∨ c = '(' ∨ c = ')'

/-- Every parenthesis has its partner. -/
def ParensMatch (v : Str) : Prop :=
  (∀ a b, v = a ++ b → a.count ')' ≤ a.count '(') ∧ v.count ')' = v.count '('

/-- The value without its parentheses. -/
def withoutParens (v : Str) : Str := v.filter fun c => c != '(' && c != ')'

/-- `w` is `v` with any characters but newlines in the places of the dots. -/
def DotsFor (v w : Str) : Prop := List.Forall₂ (fun d c => d = c ∨ d = '.' ∧ c ≠ '\n') v w

/-- A backslash and the first character of a pair stand for the second. -/
def controls : List (Char × Char) :=
  [('a', '\x07'), ('f', '\x0c'), ('n', '\n'), ('r', '\r'), ('t', '\t'), ('v', '\x0b')]

/-- A character of a character set: it is written as it is, unless it means something there, or
behind a backslash. -/
inductive SetChar : Str → Char → Prop
  | plain {c} : c ∉ L!"\\]-" → SetChar [c] c
  | escaped {c} : c.isAlphanum = false → SetChar ['\\', c] c
  | control {c d} : (c, d) ∈ controls → SetChar ['\\', c] d
  | backspace : SetChar ['\\', 'b'] '\x08'

/-- What a character set lists, such as `a-zX\w`. -/
inductive SetText : Str → List SetItem → Prop
  | nil : SetText [] []
  | chr {s c t is} : SetChar s c → SetText t is → SetText (s ++ t) (.chr c :: is)
  | range {s s' lo hi t is} : SetChar s lo → SetChar s' hi → lo ≤ hi → SetText t is →
      SetText (s ++ '-' :: (s' ++ t)) (.range lo hi :: is)
  | word {t is} : SetText t is → SetText ('\\' :: 'w' :: t) (.word :: is)
  | nonWord {t is} : SetText t is → SetText ('\\' :: 'W' :: t) (.nonWord :: is)
  | dash : SetText ['-'] [.chr '-']

/-- The text between the brackets of a character set; the first character may also be `]` or `-`. -/
inductive SetBody : Str → List SetItem → Prop
  | items {s is} : SetText s is → s ≠ [] → SetBody s is
  | bracket {s is} : SetText s is → SetBody (']' :: s) (.chr ']' :: is)
  | dash {s is} : SetText s is → SetBody ('-' :: s) (.chr '-' :: is)

/-- A part of a pattern that stands for one character. -/
inductive CharPart : Str → CharPat → Prop
  | plain {c} : Ordinary c ∨ c = ']' ∨ c = '}' → CharPart [c] (.chr c)
  | dot : CharPart ['.'] .any
  | escaped {c} : c.isAlphanum = false → CharPart ['\\', c] (.chr c)
  | control {c d} : (c, d) ∈ controls → CharPart ['\\', c] (.chr d)
  | word : CharPart ['\\', 'w'] .word
  | nonWord : CharPart ['\\', 'W'] .nonWord
  | set {s is} : SetBody s is → s.head? ≠ some '^' →
      CharPart ('[' :: (s ++ [']'])) (.set false is)
  | notSet {s is} : SetBody s is → CharPart ('[' :: '^' :: (s ++ [']'])) (.set true is)

/-- A value whose parts each stand for one character. -/
inductive CharParts : Str → List CharPat → Prop
  | nil : CharParts [] []
  | cons {s k v ks} : CharPart s k → CharParts v ks → CharParts (s ++ v) (k :: ks)

/-- The number the digits write. -/
inductive Decimal : Str → Nat → Prop
  | one {d} : '0' ≤ d → d ≤ '9' → Decimal [d] (d.toNat - '0'.toNat)
  | more {ds n d} : Decimal ds n → '0' ≤ d → d ≤ '9' →
      Decimal (ds ++ [d]) (10 * n + (d.toNat - '0'.toNat))

/-- The expression so many times. -/
def times (r : Pat) : Nat → Pat
  | 0 => .eps
  | n + 1 => .seq r (times r n)

/-- `r'` is the expression `r` with the repetition behind it. -/
inductive RepText : Str → Pat → Pat → Prop
  | star {r} : RepText ['*'] r (.star r)
  | plus {r} : RepText ['+'] r (.seq r (.star r))
  | quest {r} : RepText ['?'] r (.alt r .eps)
  | exactly {r ds m} : Decimal ds m → m < 4294967295 →
      RepText ('{' :: (ds ++ ['}'])) r (.seq (times r m) .eps)
  | atLeast {r ds m} : Decimal ds m → m < 4294967295 →
      RepText ('{' :: (ds ++ [',', '}'])) r (.seq (times r m) (.star r))
  | any {r} : RepText L!"{,}" r (.seq (times r 0) (.star r))
  | atMost {r ds n} : Decimal ds n → n < 4294967295 →
      RepText ('{' :: ',' :: (ds ++ ['}'])) r (.seq (times r 0) (times (.alt r .eps) n))
  | between {r ds es m n} : Decimal ds m → Decimal es n → m ≤ n → n < 4294967295 →
      RepText ('{' :: (ds ++ ',' :: (es ++ ['}']))) r
        (.seq (times r m) (times (.alt r .eps) (n - m)))

/-- The parts of the grammar: what can be repeated, with its repetition, one after the other,
alternatives. -/
inductive Level where
  | atom | item | seq | alt

/-- The grammar of regular expressions.  A `{` that starts no count is an ordinary character. -/
inductive RegexText : Level → Str → Pat → Prop
  | part {s k} : CharPart s k → RegexText .atom s (.one k)
  | group {s r} : RegexText .alt s r → RegexText .atom ('(' :: (s ++ [')'])) r
  | bol : RegexText .item ['^'] .bol
  | eol : RegexText .item ['$'] .eol
  | start : RegexText .item ['\\', 'A'] .bol
  | end_ : RegexText .item ['\\', 'Z'] .eos
  | once {s r} : RegexText .atom s r → RegexText .item s r
  | rep {s r t r'} : RegexText .atom s r → RepText t r r' → RegexText .item (s ++ t) r'
  | lazy {s r t r'} : RegexText .atom s r → RepText t r r' →
      RegexText .item (s ++ (t ++ ['?'])) r'
  | nil : RegexText .seq [] .eps
  | cons {s r t r'} : RegexText .item s r → RegexText .seq t r' →
      RegexText .seq (s ++ t) (.seq r r')
  | brace {c t r} : RegexText .seq (c :: t) r → c ∉ L!",0123456789" →
      RegexText .seq ('{' :: c :: t) (.seq (.one (.chr '{')) r)
  | only {s r} : RegexText .seq s r → RegexText .alt s r
  | or {s r t r'} : RegexText .seq s r → RegexText .alt t r' →
      RegexText .alt (s ++ '|' :: t) (.alt r r')

/-- Texts that are no regular expressions: a letter means nothing after a backslash, a repetition is repeated, there is nothing to repeat, a
range or a count goes backwards, a parenthesis has no partner.  `y` is what follows. -/
inductive BadRegex : Str → Prop
  | multiple {u r a r' t r'' y} : RegexText .alt u r → RegexText .atom a r' → RepText t r' r'' →
      BadRegex (u ++ (a ++ (t ++ '*' :: y)))
  | multipleLazy {u r a r' t r'' x y} : RegexText .alt u r → RegexText .atom a r' →
      RepText t r' r'' → x ∈ ['*', '+', '?'] → BadRegex (u ++ (a ++ (t ++ '?' :: x :: y)))
  | anchor {u r c x y} : RegexText .alt u r → c = '^' ∨ c = '$' → x ∈ ['*', '+', '?'] →
      BadRegex (u ++ c :: x :: y)
  | escape {u r c y} : RegexText .alt u r → c ∈ L!"ceghijklmopqyCEFGHIJKLMOPQRTVXY" →
      BadRegex (u ++ '\\' :: c :: y)
  | setEscape {u r c y} : RegexText .alt u r → c ∈ L!"ceghijklmopqyCEFGHIJKLMOPQRTVXY" →
      BadRegex (u ++ '[' :: '\\' :: c :: y)
  | escapedAnchor {u r c x y} : RegexText .alt u r → c = 'A' ∨ c = 'Z' → x ∈ ['*', '+', '?'] →
      BadRegex (u ++ '\\' :: c :: x :: y)
  | nothing {u r x y} : RegexText .alt u r → x ∈ ['*', '+', '?'] → BadRegex (u ++ '|' :: x :: y)
  | range {u r s s' lo hi y} : RegexText .alt u r → SetChar s lo → SetChar s' hi → hi < lo →
      s.head? ≠ some '^' → BadRegex (u ++ '[' :: (s ++ '-' :: (s' ++ y)))
  | classRange {u r c s hi y} : RegexText .alt u r → c = 'w' ∨ c = 'W' → SetChar s hi →
      BadRegex (u ++ '[' :: '\\' :: c :: '-' :: (s ++ y))
  | count {u r ds es m n y} : RegexText .alt u r → Decimal ds m → Decimal es n → n < m →
      m < 4294967295 → BadRegex (u ++ '{' :: (ds ++ ',' :: (es ++ '}' :: y)))
  | close {u r y} : RegexText .alt u r → BadRegex (u ++ ')' :: y)
  | open_ {u r t r'} : RegexText .alt u r → RegexText .alt t r' → BadRegex (u ++ '(' :: t)

/-- The part stands for the character. -/
def StandsFor (isWord : Char → Bool) (k : CharPat) (c : Char) : Prop :=
  Matches isWord (.one k) (false, [c]) (false, [])

/-- `e` is `v` with a backslash before every special character, and maybe before other characters
that are no letters and digits.  `re.escape(v)` is such a text. -/
inductive Escaped : Str → Str → Prop
  | nil : Escaped [] []
  | plain {c v e} : Ordinary c → Escaped v e → Escaped (c :: v) (c :: e)
  | escaped {c v e} : c.isAlphanum = false → Escaped v e → Escaped (c :: v) ('\\' :: c :: e)

end SqlPuzzle.Spec
