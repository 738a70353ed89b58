import Verif.Proofs.Pattern

/-!
The reader of patterns follows the grammar of regular expressions.
-/

namespace SqlPuzzle.PatternFacts

open SqlPuzzle Spec

/-! ### Counted repetition -/

/-- A digit, as the reader sees it. -/
def isDig (c : Char) : Bool := decide ('0' ≤ c) && decide (c ≤ '9')

theorem decimal_digits {ds : Str} {n : Nat} (h : Decimal ds n) : ∀ c ∈ ds, isDig c = true := by
  induction h with
  | one h1 h2 => intro c hc; rw [List.mem_singleton.mp hc]; simp [isDig, h1, h2]
  | more _ h1 h2 ih =>
    intro c hc
    rcases List.mem_append.mp hc with hc | hc
    · exact ih c hc
    · rw [List.mem_singleton.mp hc]; simp [isDig, h1, h2]

theorem decimal_count {ds : Str} {n : Nat} (h : Decimal ds n) : countOf ds = n := by
  induction h with
  | one h1 h2 => simp [countOf]
  | more _ h1 h2 ih =>
    unfold countOf at ih ⊢
    rw [List.foldl_append, ih]
    rfl

theorem decimal_ne {ds : Str} {n : Nat} (h : Decimal ds n) : ds ≠ [] := by
  cases h <;> simp

theorem take_digits {ds : Str} (h : ∀ c ∈ ds, isDig c = true) {x : Char} (hx : isDig x = false)
    (r : Str) : (ds ++ x :: r).takeWhile isDig = ds ∧ (ds ++ x :: r).dropWhile isDig = x :: r := by
  induction ds with
  | nil => simp [hx]
  | cons d ds ih =>
    have h1 := h d (by simp)
    have := ih fun c hc => h c (by simp [hc])
    simp only [List.cons_append, List.takeWhile_cons, List.dropWhile_cons, h1, if_true, this,
      and_self]

theorem head_digits {ds : Str} (h : ∀ c ∈ ds, isDig c = true) (hn : ds ≠ []) (r : Str) :
    ¬(ds ++ r).head? = some '}' := by
  cases ds with
  | nil => exact absurd rfl hn
  | cons d ds =>
    intro e
    have : d = '}' := by simpa using e
    have h1 := h d (by simp)
    rw [this] at h1
    revert h1
    decide

theorem lexCount_eq (cs : Str) : lexCount cs =
    (let lo := cs.takeWhile isDig
     let r := cs.dropWhile isDig
     let comma := r.head? = some ','
     let hi := if comma then r.tail.takeWhile isDig else lo
     let r := if comma then r.tail.dropWhile isDig else r
     if cs.head? = some '}' ∨ r.head? ≠ some '}' then .ok (.one (.chr '{'), cs)
     else if countOf lo ≥ 4294967295 ∨ countOf hi ≥ 4294967295 then .error .unmodelled
     else if hi = [] then .ok (.count (countOf lo) none, r.tail)
     else if countOf hi < countOf lo then .error .patternError
     else .ok (.count (countOf lo) (some (countOf hi)), r.tail)) := rfl

theorem lex_exactly {ds : Str} {m : Nat} (h : Decimal ds m) (hm : m < 4294967295) (r : Str) :
    lexOne '{' ((ds ++ ['}']) ++ r) = .ok (.count m (some m), r) := by
  have h1 := decimal_digits h
  obtain ⟨t1, t2⟩ := take_digits h1 (x := '}') (by decide) r
  have t3 := head_digits h1 (decimal_ne h) ('}' :: r)
  show lexCount _ = _
  rw [lexCount_eq, List.append_assoc, List.singleton_append]
  have c0 : ¬(some '}' = some ',') := by decide
  simp only [t1, t2, List.head?_cons, c0, if_false, decimal_count h, List.tail_cons]
  rw [if_neg (by simpa using t3), if_neg (by omega), if_neg (decimal_ne h), if_neg (by omega)]

theorem lex_atLeast {ds : Str} {m : Nat} (h : Decimal ds m) (hm : m < 4294967295) (r : Str) :
    lexOne '{' ((ds ++ [',', '}']) ++ r) = .ok (.count m none, r) := by
  have h1 := decimal_digits h
  obtain ⟨t1, t2⟩ := take_digits h1 (x := ',') (by decide) ('}' :: r)
  have t3 := head_digits h1 (decimal_ne h) (',' :: '}' :: r)
  have t4 : ('}' :: r).takeWhile isDig = [] ∧ ('}' :: r).dropWhile isDig = '}' :: r :=
    take_digits (ds := []) (fun c hc => by cases hc) (by decide) r
  have t5 : countOf [] = 0 := rfl
  show lexCount _ = _
  rw [lexCount_eq, List.append_assoc, List.cons_append, List.singleton_append]
  simp only [t1, t2, t4, t5, List.head?_cons, if_true, decimal_count h, List.tail_cons]
  rw [if_neg (by simpa using t3), if_neg (by omega)]

theorem lex_between {ds es : Str} {m n : Nat} (h : Decimal ds m) (h' : Decimal es n)
    (hm : m ≤ n) (hn : n < 4294967295) (r : Str) :
    lexOne '{' ((ds ++ ',' :: (es ++ ['}'])) ++ r) = .ok (.count m (some n), r) := by
  have h1 := decimal_digits h
  obtain ⟨t1, t2⟩ := take_digits h1 (x := ',') (by decide) (es ++ '}' :: r)
  obtain ⟨u1, u2⟩ := take_digits (decimal_digits h') (x := '}') (by decide) r
  have t3 := head_digits h1 (decimal_ne h) (',' :: (es ++ '}' :: r))
  show lexCount _ = _
  rw [lexCount_eq, List.append_assoc, List.cons_append, List.append_assoc, List.singleton_append]
  simp only [t1, t2, u1, u2, List.head?_cons, if_true, decimal_count h, decimal_count h',
    List.tail_cons]
  rw [if_neg (by simpa using t3), if_neg (by omega), if_neg (decimal_ne h'), if_neg (by omega)]

theorem lex_backwards {ds es : Str} {m n : Nat} (h : Decimal ds m) (h' : Decimal es n)
    (hm : n < m) (hn : m < 4294967295) (r : Str) :
    lexOne '{' (ds ++ ',' :: (es ++ '}' :: r)) = .error .patternError := by
  have h1 := decimal_digits h
  obtain ⟨t1, t2⟩ := take_digits h1 (x := ',') (by decide) (es ++ '}' :: r)
  obtain ⟨u1, u2⟩ := take_digits (decimal_digits h') (x := '}') (by decide) r
  have t3 := head_digits h1 (decimal_ne h) (',' :: (es ++ '}' :: r))
  show lexCount _ = _
  rw [lexCount_eq]
  simp only [t1, t2, u1, u2, List.head?_cons, if_true, decimal_count h, decimal_count h',
    List.tail_cons]
  rw [if_neg (by simpa using t3), if_neg (by omega), if_neg (decimal_ne h'), if_pos hm]

theorem lex_any (r : Str) : lexOne '{' (',' :: '}' :: r) = .ok (.count 0 none, r) := by
  have t4 : ('}' :: r).takeWhile isDig = [] ∧ ('}' :: r).dropWhile isDig = '}' :: r :=
    take_digits (ds := []) (fun c hc => by cases hc) (by decide) r
  obtain ⟨t1, t2⟩ := take_digits (ds := []) (fun c hc => by cases hc) (x := ',') (by decide)
    ('}' :: r)
  rw [List.nil_append] at t1 t2
  have t5 : countOf [] = 0 := rfl
  show lexCount (',' :: '}' :: r) = _
  rw [lexCount_eq]
  simp only [t1, t2, t4, t5, List.head?_cons, if_true, List.tail_cons]
  rw [if_neg (by simp), if_neg (by omega)]

theorem lex_atMost {es : Str} {n : Nat} (h' : Decimal es n) (hn : n < 4294967295) (r : Str) :
    lexOne '{' ((',' :: (es ++ ['}'])) ++ r) = .ok (.count 0 (some n), r) := by
  obtain ⟨t1, t2⟩ := take_digits (ds := []) (fun c hc => by cases hc) (x := ',') (by decide)
    (es ++ '}' :: r)
  obtain ⟨u1, u2⟩ := take_digits (decimal_digits h') (x := '}') (by decide) r
  have t5 : countOf [] = 0 := rfl
  rw [List.nil_append] at t1 t2
  show lexCount _ = _
  rw [lexCount_eq, List.cons_append, List.append_assoc, List.singleton_append]
  simp only [t1, t2, t5, u1, u2, List.head?_cons, if_true, decimal_count h', List.tail_cons]
  rw [if_neg (by simp), if_neg (by omega), if_neg (decimal_ne h'), if_neg (by omega)]

theorem digit_mem {c : Char} (h : c ∉ L!",0123456789") : isDig c = false ∧ c ≠ ',' := by
  refine ⟨?_, fun e => h (by rw [e]; decide)⟩
  cases hd : isDig c with
  | false => rfl
  | true =>
    have h1 : 48 ≤ c.toNat ∧ c.toNat ≤ 57 := by
      unfold isDig at hd
      rw [Bool.and_eq_true, decide_eq_true_eq, decide_eq_true_eq] at hd
      exact hd
    have h2 : c = Char.ofNat c.toNat := (Char.ofNat_toNat c).symm
    have h3 : ∀ k ∈ [48, 49, 50, 51, 52, 53, 54, 55, 56, 57],
        Char.ofNat k ∈ L!",0123456789" := by decide
    refine absurd ?_ h
    rw [h2]
    refine h3 _ ?_
    simp only [List.mem_cons, List.not_mem_nil, or_false]
    omega

theorem lex_brace {c : Char} (h : c ∉ L!",0123456789") (cs : Str) :
    lexOne '{' (c :: cs) = .ok (.one (.chr '{'), c :: cs) := by
  obtain ⟨h1, h2⟩ := digit_mem h
  obtain ⟨t1, t2⟩ := take_digits (ds := []) (fun c hc => by cases hc) h1 cs
  rw [List.nil_append] at t1 t2
  show lexCount (c :: cs) = _
  rw [lexCount_eq]
  have c0 : ¬(some c = some ',') := by simpa using h2
  simp only [t1, t2, List.head?_cons, c0, if_false]
  rw [if_pos (by by_cases hc : c = '}' <;> simp [hc])]

theorem times_eq (r : Pat) (n : Nat) : powPat r n = times r n := by
  induction n with
  | zero => rfl
  | succ n ih => show Pat.seq r (powPat r n) = .seq r (times r n); rw [ih]

/-- The text of a repetition. -/
theorem lexOne_rep {t : Str} {r r' : Pat} (h : RepText t r r') :
    ∃ c u q, t = c :: u ∧ (∀ x, lexOne c (u ++ x) = .ok (q, x)) ∧
      (∀ f stack cur, f.cur = (.item, r) :: cur →
        patStep f stack q = .ok ({ f with cur := (.repeated, r') :: cur }, stack)) := by
  cases h with
  | star =>
    exact ⟨'*', [], .star, rfl, fun _ => rfl, fun f stack cur h => by
      unfold patStep; rw [h]; rfl⟩
  | plus =>
    exact ⟨'+', [], .plus, rfl, fun _ => rfl, fun f stack cur h => by
      unfold patStep; rw [h]; rfl⟩
  | quest =>
    exact ⟨'?', [], .quest, rfl, fun _ => rfl, fun f stack cur h => by
      unfold patStep; rw [h]; rfl⟩
  | @exactly _ ds m h1 h2 =>
    refine ⟨'{', ds ++ ['}'], .count m (some m), rfl, fun x => lex_exactly h1 h2 x,
      fun f stack cur h => ?_⟩
    unfold patStep
    rw [h, ← times_eq]
    simp [repeatPat, powPat]
  | @atLeast _ ds m h1 h2 =>
    refine ⟨'{', ds ++ [',', '}'], .count m none, rfl, fun x => lex_atLeast h1 h2 x,
      fun f stack cur h => ?_⟩
    unfold patStep
    rw [h, ← times_eq]
    simp [repeatPat]
  | any =>
    refine ⟨'{', L!",}", .count 0 none, rfl, fun x => lex_any x, fun f stack cur h => ?_⟩
    unfold patStep
    rw [h, ← times_eq]
    simp [repeatPat]
  | @atMost _ ds m h1 h2 =>
    refine ⟨'{', ',' :: (ds ++ ['}']), .count 0 (some m), rfl, fun x => lex_atMost h1 h2 x,
      fun f stack cur h => ?_⟩
    unfold patStep
    rw [h, ← times_eq, ← times_eq]
    simp [repeatPat]
  | @between _ ds es m n h1 h2 h3 h4 =>
    refine ⟨'{', ds ++ ',' :: (es ++ ['}']), .count m (some n), rfl,
      fun x => lex_between h1 h2 h3 h4 x, fun f stack cur h => ?_⟩
    unfold patStep
    rw [h, ← times_eq, ← times_eq]
    simp [repeatPat]

/-! ### The grammar -/

theorem read_step {t : PatTok} {f f' : PatFrame} {stack stack' : List PatFrame}
    (h : patStep f stack t = .ok (f', stack')) (ts : List (R PatTok)) :
    patRead f stack (.ok t :: ts) = patRead f' stack' ts := by
  conv => lhs; unfold patRead
  rw [h]

/-- What reading a text of the grammar does. -/
def Reads : Level → Str → Pat → Prop
  | .atom, s, r => ∀ n rest f stack, ∃ k,
      patRead f stack (patLex (n + s.length) (s ++ rest)) =
        patRead { f with cur := (.item, r) :: f.cur } stack (patLex (n + k) rest)
  | .item, s, r => ∀ n rest f stack, ∃ k x,
      patRead f stack (patLex (n + s.length) (s ++ rest)) =
        patRead { f with cur := (x, r) :: f.cur } stack (patLex (n + k) rest)
  | .seq, s, r => ∀ n rest f stack, ∃ k cur, seqOf cur = r ∧
      patRead f stack (patLex (n + s.length) (s ++ rest)) =
        patRead { f with cur := cur ++ f.cur } stack (patLex (n + k) rest)
  | .alt, s, r => ∀ n rest as stack, ∃ k as' cur, framePat ⟨as', cur⟩ = r ∧
      patRead ⟨as, []⟩ stack (patLex (n + s.length) (s ++ rest)) =
        patRead ⟨as ++ as', cur⟩ stack (patLex (n + k) rest)

theorem seqOf_concat (cur : List (PatKind × Pat)) (x : PatKind) (r : Pat) :
    seqOf (cur ++ [(x, r)]) = .seq r (seqOf cur) := by
  unfold seqOf
  rw [List.foldl_append]
  rfl

theorem read_one {c : Char} {t : Str} {k : PatTok} {f f' : PatFrame}
    {stack stack' : List PatFrame} (h : ∀ r, lexOne c (t ++ r) = .ok (k, r))
    (h' : patStep f stack k = .ok (f', stack')) (n : Nat) (rest : Str) :
    patRead f stack (patLex (n + (c :: t).length) ((c :: t) ++ rest)) =
      patRead f' stack' (patLex (n + t.length) rest) := by
  rw [lex_one h, read_step h']

theorem reads {l : Level} {s : Str} {r : Pat} (h : RegexText l s r) : Reads l s r := by
  induction h with
  | @part s k h =>
    intro n rest f stack
    obtain ⟨c, t, rfl, h1⟩ := lexOne_part h
    exact ⟨t.length, read_one h1 rfl n rest⟩
  | @group s r _ ih =>
    intro n rest f stack
    obtain ⟨k, as', cur, h1, h2⟩ := ih (n + 1) (')' :: rest) [] (f :: stack)
    refine ⟨k, ?_⟩
    have e1 := read_one (c := '(') (t := []) (k := .open_) (f := f) (f' := {}) (stack := stack)
      (stack' := f :: stack) (fun _ => rfl) rfl (n + 1 + s.length) (s ++ ')' :: rest)
    have e2 := read_one (c := ')') (t := []) (k := .close) (f := ⟨as', cur⟩)
      (f' := { f with cur := (.item, r) :: f.cur }) (stack := f :: stack) (stack' := stack)
      (fun _ => rfl) (by show Except.ok _ = _; rw [h1]) (n + k) rest
    rw [show n + ('(' :: (s ++ [')'])).length = n + 1 + s.length + 1 by simp; omega,
      show '(' :: (s ++ [')']) ++ rest = '(' :: (s ++ ')' :: rest) by simp]
    refine e1.trans (h2.trans ?_)
    rw [show n + 1 + k = n + k + 1 by omega]
    exact e2
  | bol =>
    intro n rest f stack
    exact ⟨0, _, read_one (c := '^') (t := []) (fun _ => rfl) rfl n rest⟩
  | eol =>
    intro n rest f stack
    exact ⟨0, _, read_one (c := '$') (t := []) (fun _ => rfl) rfl n rest⟩
  | start =>
    intro n rest f stack
    exact ⟨1, _, read_one (c := '\\') (t := ['A']) (fun _ => rfl) rfl n rest⟩
  | end_ =>
    intro n rest f stack
    exact ⟨1, _, read_one (c := '\\') (t := ['Z']) (fun _ => rfl) rfl n rest⟩
  | once _ ih =>
    intro n rest f stack
    obtain ⟨k, h⟩ := ih n rest f stack
    exact ⟨k, _, h⟩
  | @rep s r t r' _ h ih =>
    intro n rest f stack
    obtain ⟨c, u, q, rfl, h1, h2⟩ := lexOne_rep h
    obtain ⟨k, h3⟩ := ih (n + (c :: u).length) ((c :: u) ++ rest) f stack
    refine ⟨k + u.length, .repeated, ?_⟩
    rw [List.append_assoc, List.length_append,
      show n + (s.length + (c :: u).length) = n + (c :: u).length + s.length by omega, h3,
      show n + (c :: u).length + k = n + k + (c :: u).length by omega,
      read_one h1 (h2 _ stack f.cur rfl), Nat.add_assoc n]
  | @lazy s r t r' _ h ih =>
    intro n rest f stack
    obtain ⟨c, u, q, rfl, h1, h2⟩ := lexOne_rep h
    obtain ⟨k, h3⟩ := ih (n + 1 + (c :: u).length) ((c :: u) ++ '?' :: rest) f stack
    refine ⟨k + u.length, .lazy, ?_⟩
    have e2 := read_one (c := '?') (t := []) (k := .quest)
      (f := { f with cur := (.repeated, r') :: f.cur })
      (f' := { f with cur := (.lazy, r') :: f.cur }) (stack := stack) (stack' := stack)
      (fun _ => rfl) rfl (n + (k + u.length)) rest
    rw [show s ++ (c :: u ++ ['?']) ++ rest = s ++ (c :: u ++ '?' :: rest) by simp,
      show n + (s ++ (c :: u ++ ['?'])).length = n + 1 + (c :: u).length + s.length by
        simp; omega, h3,
      show n + 1 + (c :: u).length + k = n + 1 + k + (c :: u).length by omega,
      read_one h1 (h2 _ stack f.cur rfl),
      show n + 1 + k + u.length = n + (k + u.length) + 1 by omega]
    exact e2
  | nil =>
    intro n rest f stack
    exact ⟨0, [], rfl, rfl⟩
  | @cons s r t r' _ _ ih1 ih2 =>
    intro n rest f stack
    obtain ⟨k, x, h1⟩ := ih1 (n + t.length) (t ++ rest) f stack
    obtain ⟨k', cur, h2, h3⟩ := ih2 (n + k) rest { f with cur := (x, r) :: f.cur } stack
    refine ⟨k + k', cur ++ [(x, r)], by rw [seqOf_concat, h2], ?_⟩
    rw [List.append_assoc, List.length_append,
      show n + (s.length + t.length) = n + t.length + s.length by omega, h1,
      show n + t.length + k = n + k + t.length by omega, h3, Nat.add_assoc n]
    simp
  | @brace c t r _ hc ih =>
    intro n rest f stack
    obtain ⟨k, cur, h1, h2⟩ := ih n rest { f with cur := (.item, .one (.chr '{')) :: f.cur } stack
    refine ⟨k, cur ++ [(.item, .one (.chr '{'))], by rw [seqOf_concat, h1], ?_⟩
    rw [show n + ('{' :: c :: t).length = n + (c :: t).length + 1 by simp; omega,
      List.cons_append, List.cons_append, lex_step _ (lex_brace hc (t ++ rest)), read_step rfl]
    refine h2.trans ?_
    simp
  | only _ ih =>
    intro n rest as stack
    obtain ⟨k, cur, h1, h2⟩ := ih n rest ⟨as, []⟩ stack
    refine ⟨k, [], cur, h1, ?_⟩
    rw [h2]
    simp
  | @or s r t r' _ _ ih1 ih2 =>
    intro n rest as stack
    obtain ⟨k, cur, h1, h2⟩ := ih1 (n + t.length + 1) ('|' :: (t ++ rest)) ⟨as, []⟩ stack
    obtain ⟨k', as', cur', h3, h4⟩ := ih2 (n + k) rest (as ++ [r]) stack
    refine ⟨k + k', r :: as', cur', ?_, ?_⟩
    · rw [← h3]; rfl
    · have e2 := read_one (c := '|') (t := []) (k := .bar) (f := ⟨as, cur⟩)
        (f' := ⟨as ++ [r], []⟩) (stack := stack) (stack' := stack)
        (fun _ => rfl) (by show Except.ok _ = _; rw [h1]) (n + k + t.length) (t ++ rest)
      rw [show s ++ '|' :: t ++ rest = s ++ '|' :: (t ++ rest) by simp,
        show n + (s ++ '|' :: t).length = n + t.length + 1 + s.length by simp; omega, h2,
        List.append_nil, show n + t.length + 1 + k = n + k + t.length + 1 by omega]
      refine e2.trans (h4.trans ?_)
      rw [Nat.add_assoc n]
      simp

/-- `has()` searches for the expression its pattern is by the grammar. -/
theorem pattern_regex {v : Str} {r : Pat}
    (h : RegexText .alt (L!"([^\\w]|^)" ++ (v ++ L!"([^\\w]|$)")) r) : hasPattern v = .ok r := by
  obtain ⟨k, as, cur, h1, h2⟩ := reads h 0 [] [] []
  rw [lex_nil, List.append_nil, Nat.zero_add] at h2
  show patRead {} [] _ = _
  rw [h2]
  show Except.ok (framePat ⟨[] ++ as, cur⟩) = _
  rw [List.nil_append, h1]

/-! ### Texts that are no regular expressions -/

theorem lex_cons (n : Nat) (c : Char) (t : Str) : patLex (n + (c :: t).length) (c :: t) =
    patLex (n + t.length + 1) (c :: t) := by
  rw [show n + (c :: t).length = n + t.length + 1 by simp; omega]

/-- The next part cannot be read where it stands. -/
theorem read_fails {c : Char} {cs r : Str} {k : PatTok} {f : PatFrame} {stack : List PatFrame}
    {e : Err} (h : lexOne c cs = .ok (k, r)) (h' : patStep f stack k = .error e) (n : Nat) :
    patRead f stack (patLex (n + 1) (c :: cs)) = .error e := by
  rw [lex_step n h]
  unfold patRead
  rw [h']

/-- The next part is no part. -/
theorem lex_fails {c : Char} {cs : Str} {f : PatFrame} {stack : List PatFrame}
    {e : Err} (h : lexOne c cs = .error e) (n : Nat) :
    patRead f stack (patLex (n + 1) (c :: cs)) = .error e := by
  unfold patLex
  rw [h]
  rfl

theorem rep_alone {x : Char} (hx : x ∈ ['*', '+', '?']) (cs : Str) :
    ∃ k, lexOne x cs = .ok (k, cs) ∧ ∀ f, (f.cur = [] ∧ f.alts ≠ [] ∨
      ∃ x r cur, f.cur = (x, r) :: cur ∧ (x = .anchor ∨ x = .lazy)) →
      patStep f [] k = .error .patternError := by
  have hs : ∀ k f, (k = PatTok.star ∨ k = .plus ∨ k = .quest) → (f.cur = [] ∧ f.alts ≠ [] ∨
      ∃ x r cur, f.cur = (x, r) :: cur ∧ (x = .anchor ∨ x = .lazy)) →
      patStep f [] k = .error .patternError := by
    intro k f hk hf
    rcases hf with ⟨h1, h2⟩ | ⟨x, r, cur, h1, rfl | rfl⟩ <;> rcases hk with rfl | rfl | rfl <;>
      (unfold patStep; rw [h1]; try simp)
  simp only [List.mem_cons, List.not_mem_nil, or_false] at hx
  rcases hx with rfl | rfl | rfl
  · exact ⟨.star, rfl, fun f => hs _ f (.inl rfl)⟩
  · exact ⟨.plus, rfl, fun f => hs _ f (.inr (.inl rfl))⟩
  · exact ⟨.quest, rfl, fun f => hs _ f (.inr (.inr rfl))⟩

private theorem bad_letter {c : Char} (h : c ∈ badEscapes) :
    reEscape c = none ∧ c ≠ 'w' ∧ c ≠ 'W' ∧ c ≠ 'b' ∧ c ≠ 'A' ∧ c ≠ 'Z' := by
  have : ∀ c ∈ badEscapes,
      reEscape c = none ∧ c ≠ 'w' ∧ c ≠ 'W' ∧ c ≠ 'b' ∧ c ≠ 'A' ∧ c ≠ 'Z' := by decide
  exact this c h

theorem lexOne_bad {c : Char} (h : c ∈ badEscapes) (y : Str) :
    lexOne '\\' (c :: y) = .error .patternError := by
  obtain ⟨h0, h1, h2, _, h3, h4⟩ := bad_letter h
  show lexEscape (c :: y) = _
  unfold lexEscape escapeError
  simp only [if_neg h1, if_neg h2, if_neg h3, if_neg h4, h0, if_pos h]

theorem lexSet_bad {c : Char} (h : c ∈ badEscapes) (y : Str) :
    lexOne '[' ('\\' :: c :: y) = .error .patternError := by
  obtain ⟨h0, h1, h2, h3, _⟩ := bad_letter h
  have e : setItem '\\' (c :: y) = .error .patternError := by
    unfold setItem escapeError
    simp only [if_true, if_neg h1, if_neg h2, if_neg h3, h0, if_pos h]
  show lexSet ('\\' :: c :: y) = _
  unfold lexSet
  have e1 : setItems ('\\' :: c :: y).length [] ('\\' :: c :: y) = .error .patternError := by
    show setItems ((c :: y).length + 1) [] ('\\' :: c :: y) = _
    unfold setItems
    rw [if_neg (by decide), e]
  have e2 : ¬ ('\\' :: c :: y).head? = some '^' := by simp
  simp only [e2, if_false, e1]

theorem reads_bad {s : Str} (h : BadRegex s) :
    patRead {} [] (patLex s.length s) = .error .patternError := by
  cases h with
  | @multiple u _ a r' t _ y hu ha ht =>
    obtain ⟨c, w, q, rfl, h1, h2⟩ := lexOne_rep ht
    obtain ⟨k, as, cur, _, e1⟩ := reads hu (y.length + 1 + (c :: w).length + a.length)
      (a ++ (c :: w ++ '*' :: y)) [] []
    obtain ⟨k', e2⟩ := reads ha (y.length + 1 + (c :: w).length + k) (c :: w ++ '*' :: y)
      ⟨[] ++ as, cur⟩ []
    rw [show (u ++ (a ++ (c :: w ++ '*' :: y))).length =
      y.length + 1 + (c :: w).length + a.length + u.length by simp; omega]
    refine e1.trans ?_
    rw [show y.length + 1 + (c :: w).length + a.length + k =
      y.length + 1 + (c :: w).length + k + a.length by omega, e2,
      show y.length + 1 + (c :: w).length + k + k' = y.length + 1 + k + k' + (c :: w).length by
        omega, read_one h1 (h2 _ [] _ rfl),
      show y.length + 1 + k + k' + w.length = y.length + k + k' + w.length + 1 by omega]
    exact read_fails (k := .star) (r := y) rfl rfl _
  | @multipleLazy u _ a r' t _ x y hu ha ht hx =>
    obtain ⟨c, w, q, rfl, h1, h2⟩ := lexOne_rep ht
    obtain ⟨q', h3, h4⟩ := rep_alone hx y
    obtain ⟨k, as, cur, _, e1⟩ := reads hu (y.length + 2 + (c :: w).length + a.length)
      (a ++ (c :: w ++ '?' :: x :: y)) [] []
    obtain ⟨k', e2⟩ := reads ha (y.length + 2 + (c :: w).length + k) (c :: w ++ '?' :: x :: y)
      ⟨[] ++ as, cur⟩ []
    rw [show (u ++ (a ++ (c :: w ++ '?' :: x :: y))).length =
      y.length + 2 + (c :: w).length + a.length + u.length by simp; omega]
    refine e1.trans ?_
    rw [show y.length + 2 + (c :: w).length + a.length + k =
      y.length + 2 + (c :: w).length + k + a.length by omega, e2,
      show y.length + 2 + (c :: w).length + k + k' = y.length + 2 + k + k' + (c :: w).length by
        omega, read_one h1 (h2 _ [] _ rfl),
      show y.length + 2 + k + k' + w.length = y.length + k + k' + w.length + 1 + 1 by omega,
      lex_step _ (t := .quest) (cs := x :: y) (r := x :: y) rfl, read_step rfl]
    exact read_fails h3 (h4 _ (.inr ⟨_, _, _, rfl, .inr rfl⟩)) _
  | @anchor u _ c x y hu hc hx =>
    obtain ⟨q, h1, h2⟩ := rep_alone hx y
    obtain ⟨k, as, cur, _, e1⟩ := reads hu (y.length + 2) (c :: x :: y) [] []
    rw [show (u ++ c :: x :: y).length = y.length + 2 + u.length by simp; omega]
    refine e1.trans ?_
    rw [show y.length + 2 + k = y.length + k + 1 + 1 by omega]
    rcases hc with rfl | rfl
    · rw [lex_step _ (t := .bol) (cs := x :: y) (r := x :: y) rfl, read_step rfl]
      exact read_fails h1 (h2 _ (.inr ⟨_, _, _, rfl, .inl rfl⟩)) _
    · rw [lex_step _ (t := .eol) (cs := x :: y) (r := x :: y) rfl, read_step rfl]
      exact read_fails h1 (h2 _ (.inr ⟨_, _, _, rfl, .inl rfl⟩)) _
  | @escape u _ c y hu hc =>
    obtain ⟨k, as, cur, _, e1⟩ := reads hu ((c :: y).length + 1) ('\\' :: c :: y) [] []
    rw [show (u ++ '\\' :: c :: y).length = (c :: y).length + 1 + u.length by simp; omega]
    refine e1.trans ?_
    rw [show (c :: y).length + 1 + k = (c :: y).length + k + 1 by omega]
    exact lex_fails (lexOne_bad hc y) _
  | @setEscape u _ c y hu hc =>
    obtain ⟨k, as, cur, _, e1⟩ := reads hu (('\\' :: c :: y).length + 1)
      ('[' :: '\\' :: c :: y) [] []
    rw [show (u ++ '[' :: '\\' :: c :: y).length = ('\\' :: c :: y).length + 1 + u.length by
      simp; omega]
    refine e1.trans ?_
    rw [show ('\\' :: c :: y).length + 1 + k = ('\\' :: c :: y).length + k + 1 by omega]
    exact lex_fails (lexSet_bad hc y) _
  | @escapedAnchor u _ c x y hu hc hx =>
    obtain ⟨q, h1, h2⟩ := rep_alone hx y
    obtain ⟨k, as, cur, _, e1⟩ := reads hu (y.length + 3) ('\\' :: c :: x :: y) [] []
    rw [show (u ++ '\\' :: c :: x :: y).length = y.length + 3 + u.length by simp; omega]
    refine e1.trans ?_
    rw [show y.length + 3 + k = y.length + 1 + k + 1 + 1 by omega]
    rcases hc with rfl | rfl
    · rw [lex_step _ (t := .bol) (cs := 'A' :: x :: y) (r := x :: y) rfl, read_step rfl]
      exact read_fails h1 (h2 _ (.inr ⟨_, _, _, rfl, .inl rfl⟩)) _
    · rw [lex_step _ (t := .eos) (cs := 'Z' :: x :: y) (r := x :: y) rfl, read_step rfl]
      exact read_fails h1 (h2 _ (.inr ⟨_, _, _, rfl, .inl rfl⟩)) _
  | @nothing u _ x y hu hx =>
    obtain ⟨q, h1, h2⟩ := rep_alone hx y
    obtain ⟨k, as, cur, _, e1⟩ := reads hu (y.length + 2) ('|' :: x :: y) [] []
    rw [show (u ++ '|' :: x :: y).length = y.length + 2 + u.length by simp; omega]
    refine e1.trans ?_
    rw [show y.length + 2 + k = y.length + k + 1 + 1 by omega,
      lex_step _ (t := .bar) (cs := x :: y) (r := x :: y) rfl, read_step rfl]
    exact read_fails h1 (h2 _ (.inl ⟨rfl, by simp⟩)) _
  | @range u _ s s' lo hi y hu h1 h2 h3 h4 =>
    obtain ⟨k, as, cur, _, e1⟩ := reads hu ((s ++ '-' :: (s' ++ y)).length + 1)
      ('[' :: (s ++ '-' :: (s' ++ y))) [] []
    rw [show (u ++ '[' :: (s ++ '-' :: (s' ++ y))).length =
      (s ++ '-' :: (s' ++ y)).length + 1 + u.length by simp; omega]
    refine e1.trans ?_
    rw [show (s ++ '-' :: (s' ++ y)).length + 1 + k = (s ++ '-' :: (s' ++ y)).length + k + 1 by
      omega]
    exact lex_fails (lexOne_backwards h1 h2 h3 h4 y) _
  | @classRange u _ c s hi y hu hc h2 =>
    obtain ⟨k, as, cur, _, e1⟩ := reads hu (('\\' :: c :: '-' :: (s ++ y)).length + 1)
      ('[' :: '\\' :: c :: '-' :: (s ++ y)) [] []
    rw [show (u ++ '[' :: '\\' :: c :: '-' :: (s ++ y)).length =
      ('\\' :: c :: '-' :: (s ++ y)).length + 1 + u.length by simp; omega]
    refine e1.trans ?_
    rw [show ('\\' :: c :: '-' :: (s ++ y)).length + 1 + k =
      ('\\' :: c :: '-' :: (s ++ y)).length + k + 1 by omega]
    exact lex_fails (lexOne_classRange hc h2 y) _
  | @count u _ ds es m n y hu h1 h2 h3 h4 =>
    obtain ⟨k, as, cur, _, e1⟩ := reads hu ((ds ++ ',' :: (es ++ '}' :: y)).length + 1)
      ('{' :: (ds ++ ',' :: (es ++ '}' :: y))) [] []
    rw [show (u ++ '{' :: (ds ++ ',' :: (es ++ '}' :: y))).length =
      (ds ++ ',' :: (es ++ '}' :: y)).length + 1 + u.length by simp; omega]
    refine e1.trans ?_
    rw [show (ds ++ ',' :: (es ++ '}' :: y)).length + 1 + k =
      (ds ++ ',' :: (es ++ '}' :: y)).length + k + 1 by omega]
    exact lex_fails (lex_backwards h1 h2 h3 h4 y) _
  | @close u _ y hu =>
    obtain ⟨k, as, cur, _, e1⟩ := reads hu (y.length + 1) (')' :: y) [] []
    rw [show (u ++ ')' :: y).length = y.length + 1 + u.length by simp; omega]
    refine e1.trans ?_
    rw [show y.length + 1 + k = y.length + k + 1 by omega]
    exact read_fails (k := .close) (r := y) rfl rfl _
  | @open_ u _ t _ hu ht =>
    obtain ⟨k, as, cur, _, e1⟩ := reads hu (t.length + 1) ('(' :: t) [] []
    obtain ⟨k', as', cur', _, e2⟩ := reads ht k [] [] [⟨[] ++ as, cur⟩]
    rw [show (u ++ '(' :: t).length = t.length + 1 + u.length by simp; omega]
    refine e1.trans ?_
    rw [show t.length + 1 + k = k + t.length + 1 by omega,
      lex_step _ (t := .open_) (cs := t) (r := t) rfl, read_step rfl]
    rw [List.append_nil] at e2
    refine e2.trans ?_
    rw [lex_nil]
    rfl

/-- `has()` cannot search for what is no regular expression. -/
theorem pattern_bad {v : Str} (h : BadRegex (L!"([^\\w]|^)" ++ (v ++ L!"([^\\w]|$)"))) :
    hasPattern v = .error .patternError := reads_bad h

end SqlPuzzle.PatternFacts
