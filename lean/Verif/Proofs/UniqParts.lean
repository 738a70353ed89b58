import Verif.Proofs.Uniq
import Verif.Proofs.Basic
import Verif.Proofs.Accumulate

/-!
Conditions, columns, tables and assignments whose texts can be read in one way only.
-/

namespace SqlPuzzle

open Spec

/-! ### Aggregates -/

/-- The argument of an aggregate and its text. -/
def ArgT (q : Char) (s t : Str) : Prop := (s = ['*'] ∧ t = ['*']) ∨ (s ≠ ['*'] ∧ NameT q (.str s) t)

theorem arg_uniq {q : Char} (hq : q = '"' ∨ q = '`') : Uniq (ArgT q) [] := by
  have no : ∀ {o : Obj} {t x y : Str}, NameT q o t → '*' :: x = t ++ y → False := by
    intro o t x y h e
    obtain ⟨r, rfl⟩ := name_head h
    rcases hq with rfl | rfl <;> cases e
  rintro a b s t x y (⟨rfl, rfl⟩ | ⟨_, h1⟩) (⟨rfl, rfl⟩ | ⟨_, h2⟩) hx hy e
  · exact ⟨rfl, (List.cons.inj e).2⟩
  · exact (no h2 e).elim
  · exact (no h1 e.symm).elim
  · obtain ⟨h3, e⟩ := name_uniq hq h1 h2 hx hy e
    cases h3
    exact ⟨rfl, e⟩

/-- The name of an aggregate as characters. -/
def aggChars : Agg → Str
  | .avg => ['A', 'V', 'G', '(']
  | .count => ['C', 'O', 'U', 'N', 'T', '(']
  | .max => ['M', 'A', 'X', '(']
  | .min => ['M', 'I', 'N', '(']
  | .sum => ['S', 'U', 'M', '(']

theorem agg_chars (f : Agg) : f.text ++ ['('] = aggChars f := by
  cases f <;> decide

/-- An aggregate and its text. -/
def AggT (q : Char) (o : Obj) (t : Str) : Prop :=
  ∃ f d s a, o = .func f d (.str s) ∧ ArgT q s a ∧
    t = aggChars f ++ ((if d then L!"DISTINCT " else []) ++ (a ++ [')']))

theorem ok_close {bad : List Str} (h : ∀ w ∈ bad, Unlike [')'] w) (r : Str) : Ok bad (')' :: r) :=
  ⟨.inr ⟨')', r, rfl, .inr (.inr rfl)⟩, fun w hw => (h w hw).not_prefix r⟩

theorem agg_uniq {q : Char} (hq : q = '"' ∨ q = '`') {a b : Obj} {s t x y : Str} (h1 : AggT q a s)
    (h2 : AggT q b t) (e : s ++ x = t ++ y) : a = b ∧ x = y := by
  have no : ∀ {s a u v : Str}, ArgT q s a → a ++ u = 'D' :: v → False := by
    rintro s a u v (⟨_, rfl⟩ | ⟨_, h⟩) e
    · cases e
    · obtain ⟨r, rfl⟩ := name_head h
      rcases hq with rfl | rfl <;> cases e
  obtain ⟨f, d, s, a, rfl, h1, rfl⟩ := h1
  obtain ⟨f', d', s', a', rfl, h2, rfl⟩ := h2
  have : f = f' ∧ (if d then L!"DISTINCT " else []) ++ (a ++ ')' :: x) =
      (if d' then L!"DISTINCT " else []) ++ (a' ++ ')' :: y) := by
    simp only [List.append_assoc, List.cons_append, List.nil_append] at e
    revert e
    generalize (if d then L!"DISTINCT " else []) ++ (a ++ ')' :: x) = u
    generalize (if d' then L!"DISTINCT " else []) ++ (a' ++ ')' :: y) = v
    intro e
    cases f <;> cases f' <;> simp [aggChars] at e ⊢ <;> exact e
  obtain ⟨rfl, e1⟩ := this
  clear e
  have : d = d' ∧ a ++ ')' :: x = a' ++ ')' :: y := by
    cases d <;> cases d' <;> simp only [Bool.false_eq_true, if_false, if_true, List.nil_append] at e1
    · exact ⟨rfl, e1⟩
    · exact (no h1 e1).elim
    · exact (no h2 e1.symm).elim
    · exact ⟨rfl, List.append_cancel_left e1⟩
  obtain ⟨rfl, e2⟩ := this
  obtain ⟨rfl, e3⟩ := arg_uniq hq h1 h2 (ok_close (by simp) x) (ok_close (by simp) y) e2
  exact ⟨rfl, (List.cons.inj e3).2⟩

theorem agg_ends {q : Char} {o : Obj} {t : Str} (h : AggT q o t) : Ends t := by
  obtain ⟨f, d, s, a, _, _, rfl⟩ := h
  exact ((Ends.append ⟨[], ')', rfl, by decide⟩ a).append _).append _

/-- Words that begin a function. -/
def aggWords : List Str :=
  [L!"AVG(", L!"COUNT(", L!"MAX(", L!"MIN(", L!"SUM(", L!"CONCAT(", L!"GROUP_CONCAT(", L!"CONVERT("]

theorem agg_head {q : Char} {o : Obj} {t : Str} (h : AggT q o t) : ∃ w ∈ aggWords, w <+: t := by
  obtain ⟨f, d, s, a, _, _, rfl⟩ := h
  refine ⟨aggChars f, ?_, ⟨_, rfl⟩⟩
  cases f <;> decide

theorem tidyName_star {q : Char} {s : Str} (h : TidyName q s) : s ≠ ['*'] := by
  obtain ⟨p, ps, h1, h2, rfl⟩ := h
  intro e
  have := splitDot_dotted fun x hx => (h1 x hx).2.1
  rw [e] at this
  have h3 : splitDot ['*'] = [['*']] := by decide
  rw [h3] at this
  cases this
  exact h2 rfl

theorem asterisk_text {cx : Ctx} : reference cx.backend.quote ['*'] = ['*'] := by
  cases cx.backend <;> decide

theorem agg_text {cx : Ctx} {n : Nat} {o : Obj} {t : Str} (ho : TidyAggregate cx.backend.quote o)
    (h : (sem cx n).str o = .ok t) : AggT cx.backend.quote o t := by
  obtain ⟨f, d, s, rfl, hs⟩ := ho
  cases n with
  | zero => cases h
  | succ n =>
  have plain : ∀ {a}, sqlRefText cx (sem cx n) (.str s) = .ok a → ArgT cx.backend.quote s a := by
    intro a h
    rcases hs with rfl | hs
    · left
      have h : Except.ok (reference cx.backend.quote ['*']) = Except.ok a := h
      rw [asterisk_text] at h
      cases h
      exact ⟨rfl, rfl⟩
    · exact .inr ⟨tidyName_star hs, name_text (n := n) hs h⟩
  have done : ∀ {a}, ArgT cx.backend.quote s a →
      t = (f.text ++ '(' :: (if d then L!"DISTINCT " else []) ++ a ++ [')']) → AggT cx.backend.quote (.func f d (.str s)) t := by
    rintro a ha rfl
    refine ⟨f, d, s, a, rfl, ha, ?_⟩
    rw [← agg_chars]
    simp only [List.append_assoc, List.cons_append, List.nil_append]
  have h : funcText cx (sem cx n) f d (.str s) = .ok t := h
  cases f with
  | count =>
    cases n with
    | zero => cases h
    | succ n =>
      dsimp only [funcText] at h
      obtain ⟨b, h1, h⟩ := bind_ok.mp h
      have h1 : Except.ok (s == ['*']) = Except.ok b := h1
      cases b with
      | true =>
        obtain ⟨a, h2, h⟩ := bind_ok.mp h
        cases h2
        have hs := eq_of_beq (Except.ok.inj h1)
        exact done (.inl ⟨hs, hs⟩) (Except.ok.inj h).symm
      | false =>
        obtain ⟨a, h2, h⟩ := bind_ok.mp h
        exact done (plain h2) (Except.ok.inj h).symm
  | _ =>
    dsimp only [funcText] at h
    obtain ⟨b, h1, h⟩ := bind_ok.mp h
    cases h1
    obtain ⟨a, h2, h⟩ := bind_ok.mp h
    exact done (plain h2) (Except.ok.inj h).symm

theorem forall2_tidy {α : Type} {T : α → Str → Prop} {f : α → R Str} {P : α → Prop} {xs : List α}
    {ts : List Str} (h : mapR f xs = .ok ts) (hp : ∀ x ∈ xs, P x)
    (ht : ∀ {x t}, P x → f x = .ok t → T x t) : List.Forall₂ T xs ts := by
  induction xs generalizing ts with
  | nil =>
    cases h
    exact .nil
  | cons x xs ih =>
    obtain ⟨u, h1, h⟩ := bind_ok.mp h
    obtain ⟨us, h2, h⟩ := bind_ok.mp h
    cases h
    exact .cons (ht (hp x (by simp)) h1) (ih h2 fun y hy => hp y (List.mem_cons_of_mem _ hy))

/-! ### Other functions -/

/-- A column inside of a function and its text. -/
def PlainT (q : Char) (c : Column) (t : Str) : Prop := ∃ s, c = ⟨.str s, .none⟩ ∧ NameT q (.str s) t

theorem plain_uniq {q : Char} (hq : q = '"' ∨ q = '`') : Uniq (PlainT q) [] := by
  rintro _ _ s t x y ⟨a, rfl, ha⟩ ⟨b, rfl, hb⟩ hx hy e
  obtain ⟨h3, e⟩ := name_uniq hq ha hb hx hy e
  cases h3
  exact ⟨rfl, e⟩

/-- A column that a function sorts by, and its text. -/
def SortedT (q : Char) (o : Order) (t : Str) : Prop :=
  ∃ s a, o.col = .str s ∧ NameT q (.str s) a ∧ t = a ++ (if o.desc then L!" DESC" else [])

theorem sorted_uniq {q : Char} (hq : q = '"' ∨ q = '`') : Uniq (SortedT q) [L!" DESC"] := by
  have sub : ∀ {x : Str}, Ok [L!" DESC"] x → Ok [] x := fun h => ok_sub h (by simp)
  have blank : ∀ {r : Str}, Ok [] (L!" DESC" ++ r) := ok_blank (by simp)
  rintro ⟨o, d⟩ ⟨o', d'⟩ s t x y ⟨n, a, h0, h1, rfl⟩ ⟨n', a', h0', h1', rfl⟩ hx hy h
  simp only at h0 h0'
  subst h0 h0'
  simp only [List.append_assoc] at h
  cases d <;> cases d' <;> simp only [Bool.false_eq_true, if_false, if_true, List.nil_append] at h
  · obtain ⟨h2, h3⟩ := name_uniq hq h1 h1' (sub hx) (sub hy) h
    exact ⟨by rw [h2], h3⟩
  · obtain ⟨_, h3⟩ := name_uniq hq h1 h1' (sub hx) blank h
    exact (hx.2 _ (by simp) ⟨_, h3.symm⟩).elim
  · obtain ⟨_, h3⟩ := name_uniq hq h1 h1' blank (sub hy) h
    exact (hy.2 _ (by simp) ⟨_, h3⟩).elim
  · obtain ⟨h2, h3⟩ := name_uniq hq h1 h1' blank blank h
    exact ⟨by rw [h2], List.append_cancel_left h3⟩

/-- The order inside of `group_concat` and its text. -/
def SortingT (q : Char) (os : List Order) (t : Str) : Prop :=
  (os = [] ∧ t = []) ∨ ∃ u, ListT (SortedT q) L!", " os u ∧ t = L!" ORDER BY " ++ u

/-- The separator inside of `group_concat` and its text. -/
def SeparatorT (q : Char) (sep : Obj) (t : Str) : Prop :=
  (sep = .none ∧ t = []) ∨ ∃ s u, sep = .str s ∧ ScalarT q sep u ∧ t = L!" SEPARATOR " ++ u

/-- A function of columns and its text. -/
def FunT (q : Char) (o : Obj) (t : Str) : Prop :=
  AggT q o t ∨
  (∃ cs u, o = .concat cs ∧ ListT (PlainT q) L!", " cs u ∧ t = L!"CONCAT(" ++ (u ++ [')'])) ∨
  (∃ cs os sep u v w, o = .groupConcat cs os sep ∧ ListT (PlainT q) L!", " cs u ∧ SortingT q os v ∧
    SeparatorT q sep w ∧ t = L!"GROUP_CONCAT(" ++ (u ++ (v ++ (w ++ [')'])))) ∨
  ∃ s ty a, o = .convert (.str s) (some ty) ∧ NameT q (.str s) a ∧ TidyType ty ∧
    t = L!"CONVERT(" ++ (a ++ (L!", " ++ (ty ++ [')'])))

theorem apart {u w x y : Str} (h : Unlike u w) (e : u ++ x = w ++ y) : False :=
  h.not_prefix x ⟨y, e.symm⟩

theorem type_uniq {a b x y : Str} (ha : TidyType a) (hb : TidyType b) (e : a ++ ')' :: x = b ++ ')' :: y) :
    a = b ∧ x = y := by
  have key : ∀ {u v r s : Str} {c d : Char}, '(' ∉ u → ')' ∉ u → '(' ∉ v → ')' ∉ v → (c = '(' ∨ c = ')') →
      (d = '(' ∨ d = ')') → u ++ c :: r = v ++ d :: s → u = v ∧ c = d ∧ r = s := by
    intro u v r s c d h1 h2 h3 h4 hc hd e
    induction u generalizing v with
    | nil =>
      cases v with
      | nil =>
        cases e
        exact ⟨rfl, rfl, rfl⟩
      | cons z v =>
        cases e
        rcases hc with rfl | rfl
        · exact absurd List.mem_cons_self h3
        · exact absurd List.mem_cons_self h4
    | cons z u ih =>
      cases v with
      | nil =>
        cases e
        rcases hd with rfl | rfl
        · exact absurd List.mem_cons_self h1
        · exact absurd List.mem_cons_self h2
      | cons z' v =>
        simp only [List.cons_append, List.cons.injEq] at e
        obtain ⟨rfl, e⟩ := e
        simp only [List.mem_cons, not_or] at h1 h2 h3 h4
        obtain ⟨rfl, h5, h6⟩ := ih h1.2 h2.2 h3.2 h4.2 e
        exact ⟨rfl, h5, h6⟩
  obtain ⟨w, d, h1, h2, h3, h4, ha⟩ := ha
  obtain ⟨w', d', h1', h2', h3', h4', hb⟩ := hb
  rcases ha with rfl | rfl <;> rcases hb with rfl | rfl
  · obtain ⟨rfl, _, h⟩ := key h1 h2 h1' h2' (.inr rfl) (.inr rfl) e
    exact ⟨rfl, h⟩
  · simp only [List.append_assoc, List.cons_append] at e
    obtain ⟨_, h, _⟩ := key h1 h2 h1' h2' (.inr rfl) (.inl rfl) e
    cases h
  · simp only [List.append_assoc, List.cons_append] at e
    obtain ⟨_, h, _⟩ := key h1 h2 h1' h2' (.inl rfl) (.inr rfl) e
    cases h
  · simp only [List.append_assoc, List.cons_append, List.nil_append] at e
    obtain ⟨rfl, _, h⟩ := key h1 h2 h1' h2' (.inl rfl) (.inl rfl) e
    obtain ⟨rfl, _, h⟩ := key h3 h4 h3' h4' (.inr rfl) (.inr rfl) h
    exact ⟨rfl, (List.cons.inj h).2⟩

theorem plains_uniq {q : Char} (hq : q = '"' ∨ q = '`') : Uniq (ListT (PlainT q) L!", ") [L!", "] :=
  list_uniq (plain_uniq hq) ⟨.inr ⟨',', _, rfl, .inr (.inl rfl)⟩, by decide⟩ (by simp)

theorem sorting_uniq {q : Char} (hq : q = '"' ∨ q = '`') {os os' : List Order} {s t x y : Str}
    (h1 : SortingT q os s) (h2 : SortingT q os' t) (hx : Ok [L!", ", L!" DESC", L!" ORDER BY "] x)
    (hy : Ok [L!", ", L!" DESC", L!" ORDER BY "] y) (e : s ++ x = t ++ y) : os = os' ∧ x = y := by
  have sub : ∀ {x : Str}, Ok [L!", ", L!" DESC", L!" ORDER BY "] x → Ok [L!", ", L!" DESC"] x :=
    fun h => ok_sub h (by
      intro w hw
      simp only [List.mem_cons, List.not_mem_nil, or_false] at hw ⊢
      rcases hw with rfl | rfl <;> simp)
  rcases h1 with ⟨rfl, rfl⟩ | ⟨u, h1, rfl⟩ <;> rcases h2 with ⟨rfl, rfl⟩ | ⟨v, h2, rfl⟩
  · exact ⟨rfl, e⟩
  · rw [List.append_assoc] at e
    exact (hx.2 L!" ORDER BY " (by simp) ⟨_, e.symm⟩).elim
  · rw [List.append_assoc] at e
    exact (hy.2 L!" ORDER BY " (by simp) ⟨_, e⟩).elim
  · rw [List.append_assoc, List.append_assoc] at e
    exact list_uniq (sorted_uniq hq) ⟨.inr ⟨',', _, rfl, .inr (.inl rfl)⟩, by decide⟩ (by decide) h1 h2 (sub hx)
      (sub hy) (List.append_cancel_left e)

theorem fun_uniq {q : Char} (hq : q = '"' ∨ q = '`') {a b : Obj} {s t x y : Str} (h1 : FunT q a s)
    (h2 : FunT q b t) (e : s ++ x = t ++ y) : a = b ∧ x = y := by
  have aggNo : ∀ {o s x} {w r : Str}, AggT q o s → (∀ f, Unlike (aggChars f) w) → s ++ x = w ++ r → False := by
    rintro o _ x w r ⟨f, d, s, a, _, _, rfl⟩ h e
    rw [List.append_assoc] at e
    exact apart (h f) e
  have n1 : ∀ f, Unlike (aggChars f) L!"CONCAT(" := by intro f; cases f <;> decide
  have n2 : ∀ f, Unlike (aggChars f) L!"GROUP_CONCAT(" := by intro f; cases f <;> decide
  have n3 : ∀ f, Unlike (aggChars f) L!"CONVERT(" := by intro f; cases f <;> decide
  have ok : ∀ r, Ok [L!", "] (')' :: r) := ok_close (by decide)
  have okSep : ∀ {sep : Obj} {w : Str}, SeparatorT q sep w → ∀ r,
      Ok [L!", ", L!" DESC", L!" ORDER BY "] (w ++ ')' :: r) := by
    rintro sep w (⟨_, rfl⟩ | ⟨_, u, _, _, rfl⟩) r
    · exact ok_close (by decide) r
    · rw [List.append_assoc]
      exact ok_blank fun w hw => by
        have : Unlike L!" SEPARATOR " w := by
          revert w
          decide
        exact this.not_prefix _
  have okSort : ∀ {os : List Order} {v z : Str}, SortingT q os v → Ok [L!", ", L!" DESC", L!" ORDER BY "] z →
      Ok [L!", "] (v ++ z) := by
    rintro os v z (⟨_, rfl⟩ | ⟨u, _, rfl⟩) hz
    · exact ok_sub hz (by simp)
    · rw [List.append_assoc]
      exact ok_blank fun w hw => by
        have : Unlike L!" ORDER BY " w := by
          revert w
          decide
        exact this.not_prefix _
  rcases h1 with h1 | ⟨cs, u, rfl, h1, rfl⟩ | ⟨cs, os, sep, u, v, w, rfl, h1, h3, h5, rfl⟩ | ⟨n, ty, u, rfl, h1, h3, rfl⟩ <;>
  rcases h2 with h2 | ⟨cs', u', rfl, h2, rfl⟩ | ⟨cs', os', sep', u', v', w', rfl, h2, h4, h6, rfl⟩ |
    ⟨n', ty', u', rfl, h2, h4, rfl⟩ <;>
  try simp only [List.append_assoc, List.cons_append, List.nil_append] at e
  · exact agg_uniq hq h1 h2 e
  · exact (aggNo h1 n1 e).elim
  · exact (aggNo h1 n2 e).elim
  · exact (aggNo h1 n3 e).elim
  · exact (aggNo h2 n1 e.symm).elim
  · obtain ⟨rfl, e⟩ := plains_uniq hq h1 h2 (ok x) (ok y) (List.append_cancel_left e)
    exact ⟨rfl, (List.cons.inj e).2⟩
  · exact (apart (u := L!"CONCAT(") (w := L!"GROUP_CONCAT(") (by decide) e).elim
  · exact (apart (u := L!"CONCAT(") (w := L!"CONVERT(") (by decide) e).elim
  · exact (aggNo h2 n2 e.symm).elim
  · exact (apart (u := L!"GROUP_CONCAT(") (w := L!"CONCAT(") (by decide) e).elim
  · obtain ⟨rfl, e⟩ := plains_uniq hq h1 h2 (okSort h3 (okSep h5 x)) (okSort h4 (okSep h6 y))
      (List.append_cancel_left e)
    obtain ⟨rfl, e⟩ := sorting_uniq hq h3 h4 (okSep h5 x) (okSep h6 y) e
    rcases h5 with ⟨rfl, rfl⟩ | ⟨_, z, rfl, h5, rfl⟩ <;> rcases h6 with ⟨rfl, rfl⟩ | ⟨_, z', rfl, h6, rfl⟩
    · exact ⟨rfl, (List.cons.inj e).2⟩
    · exact (apart (u := [')']) (w := L!" SEPARATOR ") (by decide) (by rw [List.append_assoc] at e; exact e)).elim
    · exact (apart (u := L!" SEPARATOR ") (w := [')']) (by decide) (by rw [List.append_assoc] at e; exact e)).elim
    · rw [List.append_assoc, List.append_assoc] at e
      obtain ⟨h7, e⟩ := scalar_uniq h5 h6 (ok_close (by simp) x) (ok_close (by simp) y) (List.append_cancel_left e)
      rw [h7]
      exact ⟨rfl, (List.cons.inj e).2⟩
  · exact (apart (u := L!"GROUP_CONCAT(") (w := L!"CONVERT(") (by decide) e).elim
  · exact (aggNo h2 n3 e.symm).elim
  · exact (apart (u := L!"CONVERT(") (w := L!"CONCAT(") (by decide) e).elim
  · exact (apart (u := L!"CONVERT(") (w := L!"GROUP_CONCAT(") (by decide) e).elim
  · have comma : ∀ r, Ok [] (L!", " ++ r) := fun r => ⟨.inr ⟨',', _, rfl, .inr (.inl rfl)⟩, by simp⟩
    obtain ⟨h5, e⟩ := name_uniq hq h1 h2 (comma _) (comma _) (List.append_cancel_left e)
    cases h5
    obtain ⟨rfl, h6⟩ := type_uniq h3 h4 (List.append_cancel_left e)
    exact ⟨rfl, h6⟩

theorem fun_ends {q : Char} {o : Obj} {t : Str} (h : FunT q o t) : Ends t := by
  have close : Ends [')'] := ⟨[], ')', rfl, by decide⟩
  rcases h with h | ⟨cs, u, _, _, rfl⟩ | ⟨cs, os, sep, u, v, w, _, _, _, _, rfl⟩ | ⟨n, ty, u, _, _, _, rfl⟩
  · exact agg_ends h
  · exact (close.append _).append _
  · exact (((close.append _).append _).append _).append _
  · exact (((close.append _).append _).append _).append _

theorem fun_head {q : Char} {o : Obj} {t : Str} (h : FunT q o t) : ∃ w ∈ aggWords, w <+: t := by
  rcases h with h | ⟨cs, u, _, _, rfl⟩ | ⟨cs, os, sep, u, v, w, _, _, _, _, rfl⟩ | ⟨n, ty, u, _, _, _, rfl⟩
  · exact agg_head h
  · exact ⟨_, by simp [aggWords], List.prefix_append _ _⟩
  · exact ⟨_, by simp [aggWords], List.prefix_append _ _⟩
  · exact ⟨_, by simp [aggWords], List.prefix_append _ _⟩

/-- The first letter of a function. -/
theorem fun_letter {q : Char} {o : Obj} {t : Str} (h : FunT q o t) :
    ∃ c r, t = c :: r ∧ (c = 'A' ∨ c = 'C' ∨ c = 'G' ∨ c = 'M' ∨ c = 'S') := by
  obtain ⟨w, hw, r, rfl⟩ := fun_head h
  have : ∀ w ∈ aggWords, ∃ c r, w = c :: r ∧ (c = 'A' ∨ c = 'C' ∨ c = 'G' ∨ c = 'M' ∨ c = 'S') := by
    intro w hw
    simp only [aggWords, List.mem_cons, List.not_mem_nil, or_false] at hw
    rcases hw with rfl | rfl | rfl | rfl | rfl | rfl | rfl | rfl <;> exact ⟨_, _, rfl, by decide⟩
  obtain ⟨c, u, rfl, hc⟩ := this w hw
  exact ⟨c, u ++ r, rfl, hc⟩

theorem plains_text {cx : Ctx} {n : Nat} {cs : List Column} {t : Str} (hne : cs ≠ [])
    (hc : ∀ c ∈ cs, TidyPlain cx.backend.quote c) (h : columnsText cx (sem cx n) cs = .ok t) :
    ListT (PlainT cx.backend.quote) L!", " cs t := by
  have he : cs.isEmpty = false := by
    cases cs with
    | nil => exact absurd rfl hne
    | cons _ _ => rfl
  simp only [columnsText, partsText, he, Bool.false_eq_true, if_false] at h
  obtain ⟨ts, h1, h⟩ := bind_ok.mp h
  simp only [List.isEmpty_nil, if_true] at h
  cases h
  refine ⟨hne, ts, forall2_tidy h1 hc ?_, rfl⟩
  rintro c u ⟨s, rfl, hs⟩ h
  exact ⟨s, rfl, name_text (n := n) hs h⟩

theorem sorting_text {cx : Ctx} {n : Nat} {os : List Order} {t : Str}
    (ho : ∀ o ∈ os, TidySorted cx.backend.quote o)
    (h : clause (!os.isEmpty) (ordersText cx (sem cx n) L!"ORDER BY" os) = .ok t) :
    SortingT cx.backend.quote os t := by
  cases os with
  | nil =>
    cases h
    exact .inl ⟨rfl, rfl⟩
  | cons o os =>
    simp only [clause, List.isEmpty_cons, Bool.not_false, if_true, ordersText, partsText, Bool.false_eq_true,
      if_false] at h
    obtain ⟨u, h1, h⟩ := bind_ok.mp h
    obtain ⟨ts, h2, h1⟩ := bind_ok.mp h1
    cases h
    cases h1
    refine .inr ⟨_, ⟨by simp, ts, forall2_tidy h2 ho ?_, rfl⟩, rfl⟩
    rintro ⟨col, d⟩ u ⟨s, hs1, hs2⟩ h
    simp only at hs1
    subst hs1
    obtain ⟨a, h3, h⟩ := bind_ok.mp h
    cases h
    refine ⟨s, a, rfl, name_text (n := n) hs2 h3, ?_⟩
    cases d <;> simp

theorem fun_text {cx : Ctx} {n : Nat} {o : Obj} {t : Str} (ho : TidyFunction cx.backend.quote o)
    (h : (sem cx n).str o = .ok t) : FunT cx.backend.quote o t := by
  rcases ho with ho | ⟨cs, rfl, hne, hc⟩ | ⟨cs, os, sep, rfl, hne, hc, hos, hsep⟩ | ⟨s, ty, rfl, hs, hty⟩
  · exact .inl (agg_text ho h)
  · cases n with
    | zero => cases h
    | succ n =>
      obtain ⟨u, h1, h⟩ := bind_ok.mp (show (columnsText cx (sem cx n) cs >>= fun c =>
        (.ok (L!"CONCAT(" ++ c ++ [')']) : R Str)) = .ok t from h)
      cases h
      exact .inr (.inl ⟨cs, u, rfl, plains_text hne hc h1, by simp only [List.append_assoc]⟩)
  · cases n with
    | zero => cases h
    | succ n =>
      have h : groupConcatText cx (sem cx n) cs os sep = .ok t := h
      unfold groupConcatText at h
      obtain ⟨u, h1, h⟩ := bind_ok.mp h
      obtain ⟨v, h2, h⟩ := bind_ok.mp h
      rcases hsep with rfl | ⟨s, hs, rfl, ht⟩
      · obtain ⟨w, h3, h⟩ := bind_ok.mp h
        cases h3
        cases h
        exact .inr (.inr (.inl ⟨cs, os, .none, u, v, [], rfl, plains_text hne hc h1, sorting_text hos h2,
          .inl ⟨rfl, rfl⟩, by simp⟩))
      · have : (Obj.str s).truthy = true := by
          cases s with
          | nil => exact absurd rfl hs
          | cons _ _ => rfl
        rw [this] at h
        obtain ⟨z, h4, h⟩ := bind_ok.mp h
        obtain ⟨w, h3, h⟩ := bind_ok.mp h
        cases h3
        cases h
        exact .inr (.inr (.inl ⟨cs, os, .str s, u, v, _, rfl, plains_text hne hc h1, sorting_text hos h2,
          .inr ⟨s, z, rfl, scalar_text (n := n) ht h4, rfl⟩, by simp only [List.append_assoc]⟩))
  · cases n with
    | zero => cases h
    | succ n =>
      obtain ⟨u, h1, h⟩ := bind_ok.mp (show (exprText cx (sem cx n) (.str s) >>= fun t =>
        (.ok (L!"CONVERT(" ++ t ++ L!", " ++ ty ++ [')']) : R Str)) = .ok t from h)
      cases h
      exact .inr (.inr (.inr ⟨s, ty, u, rfl, name_text (n := n) hs h1, hty, by simp only [List.append_assoc]⟩))

/-! ### Values with lists -/

/-- A value and its text. -/
def ValueT (q : Char) (o : Obj) (t : Str) : Prop :=
  ScalarT q o t ∨ (∃ xs u, o = .list xs ∧ ListT (ScalarT q) L!", " xs u ∧ t = '(' :: (u ++ [')'])) ∨
    (∃ s, o = .sqlRef (.str s) ∧ NameT q (.str s) t) ∨ FunT q o t

theorem scalar_head {q : Char} {o : Obj} {s : Str} (h : ScalarT q o s) :
    ∃ c r, s = c :: r ∧ (c = '\'' ∨ c = '-' ∨ isDigitC c = true ∨ (c = 'N' ∧ ∃ r', r = 'U' :: r')) := by
  rcases h.2 with ⟨u, _, rfl⟩ | ⟨i, _, rfl⟩ | ⟨_, rfl⟩
  · exact ⟨_, _, rfl, .inl rfl⟩
  · obtain ⟨h1, h2⟩ := intText_chars i
    cases hi : intText i with
    | nil => exact absurd hi h1
    | cons d ds =>
      rw [hi] at h2
      exact ⟨d, ds, rfl, (h2 d (by simp)).elim (fun h => .inr (.inl h)) fun h => .inr (.inr (.inl h))⟩
  · exact ⟨_, _, rfl, .inr (.inr (.inr ⟨rfl, _, rfl⟩))⟩

/-- A text that no scalar begins with. -/
theorem scalar_other {q : Char} {o : Obj} {s x r : Str} {c : Char} (h : ScalarT q o s) (e : s ++ x = c :: r)
    (hc : c ≠ '\'' ∧ c ≠ '-' ∧ isDigitC c = false ∧ c ≠ 'N') : False := by
  obtain ⟨d, u, rfl, hd⟩ := scalar_head h
  cases (List.cons.inj e).1
  rcases hd with h | h | h | h
  · exact hc.1 h
  · exact hc.2.1 h
  · rw [hc.2.2.1] at h
    cases h
  · exact hc.2.2.2 h.1

theorem value_uniq {q : Char} (hq : q = '"' ∨ q = '`') : Uniq (ValueT q) [] := by
  have ok : ∀ r, Ok [L!", "] (')' :: r) := ok_close (by decide)
  have noScalar : ∀ {o s x r} {c : Char}, ScalarT q o s → s ++ x = c :: r → c = '(' ∨ c = q ∨ c = 'A' ∨ c = 'C' ∨ c = 'G' ∨ c = 'M' ∨ c = 'S' →
      False := by
    intro o s x r c h e hc
    refine scalar_other h e ?_
    rcases hc with rfl | rfl | rfl | rfl | rfl | rfl | rfl <;> first
      | decide
      | (rcases hq with rfl | rfl <;> decide)
  have aggHead : ∀ {o s}, FunT q o s → ∃ c r, s = c :: r ∧ (c = 'A' ∨ c = 'C' ∨ c = 'G' ∨ c = 'M' ∨ c = 'S') :=
    fun h => fun_letter h
  have aggOther : ∀ {o s x r} {c : Char}, FunT q o s → s ++ x = c :: r → c = '(' ∨ c = q → False := by
    intro o s x r c h e hc
    obtain ⟨d, u, rfl, hd⟩ := aggHead h
    cases (List.cons.inj e).1
    rcases hc with rfl | rfl
    · revert hd
      decide
    · rcases hq with rfl | rfl <;> revert hd <;> decide
  have scalarName : ∀ {o p s t x y}, ScalarT q o s → NameT q p t → s ++ x = t ++ y → False := by
    intro o p s t x y h1 h2 e
    obtain ⟨r, rfl⟩ := name_head h2
    exact noScalar h1 e (.inr (.inl rfl))
  have scalarAgg : ∀ {o p s t x y}, ScalarT q o s → FunT q p t → s ++ x = t ++ y → False := by
    intro o p s t x y h1 h2 e
    obtain ⟨c, r, rfl, hc⟩ := aggHead h2
    exact noScalar h1 e (.inr (.inr hc))
  have nameOther : ∀ {p t y r}, NameT q p t → t ++ y = '(' :: r → False := by
    intro p t y r h e
    obtain ⟨r, rfl⟩ := name_head h
    rcases hq with rfl | rfl <;> cases e
  have nameAgg : ∀ {o p s t x y}, NameT q o s → FunT q p t → s ++ x = t ++ y → False := by
    intro o p s t x y h1 h2 e
    obtain ⟨r, rfl⟩ := name_head h1
    exact aggOther h2 e.symm (.inr rfl)
  rintro a b s t x y (ha | ⟨xs, u, rfl, ha, rfl⟩ | ⟨n, rfl, ha⟩ | ha)
    (hb | ⟨ys, v, rfl, hb, rfl⟩ | ⟨m, rfl, hb⟩ | hb) hx hy h
  · exact scalar_uniq ha hb hx hy h
  · exact (noScalar ha h (.inl rfl)).elim
  · exact (scalarName ha hb h).elim
  · exact (scalarAgg ha hb h).elim
  · exact (noScalar hb h.symm (.inl rfl)).elim
  · simp only [List.cons_append, List.append_assoc, List.cons.injEq, true_and, List.nil_append] at h
    obtain ⟨rfl, h'⟩ := list_uniq (scalar_uniq (q := q)) (sep := L!", ")
      ⟨.inr ⟨',', _, rfl, .inr (.inl rfl)⟩, by decide⟩ (by simp) ha hb (ok x) (ok y) h
    exact ⟨rfl, (List.cons.inj h').2⟩
  · exact (nameOther hb h.symm).elim
  · exact (aggOther hb h.symm (.inl rfl)).elim
  · exact (scalarName hb ha h.symm).elim
  · exact (nameOther ha h).elim
  · obtain ⟨h3, h'⟩ := name_uniq hq ha hb hx hy h
    cases h3
    exact ⟨rfl, h'⟩
  · exact (nameAgg ha hb h).elim
  · exact (scalarAgg hb ha h.symm).elim
  · exact (aggOther ha h (.inl rfl)).elim
  · exact (nameAgg hb ha h.symm).elim
  · exact fun_uniq hq ha hb h

theorem value_ends {q : Char} (hq : q = '"' ∨ q = '`') {o : Obj} {t : Str} (h : ValueT q o t) : Ends t := by
  rcases h with h | ⟨xs, u, _, _, rfl⟩ | ⟨s, _, h⟩ | h
  · exact scalar_ends h
  · exact ⟨'(' :: u, ')', rfl, by decide⟩
  · exact name_ends hq h
  · exact fun_ends h

/-- No value begins like `NOT`. -/
theorem value_not {q : Char} (hq : q = '"' ∨ q = '`') {o : Obj} {s x r : Str} (h : ValueT q o s)
    (e : s ++ x = 'N' :: 'O' :: r) : False := by
  rcases h with h | ⟨xs, u, _, _, rfl⟩ | ⟨s, _, h⟩ | h
  · rcases h.2 with ⟨u, _, rfl⟩ | ⟨i, _, rfl⟩ | ⟨_, rfl⟩
    · cases e
    · exact int_head e (by decide)
    · cases e
  · cases e
  · obtain ⟨r, rfl⟩ := name_head h
    rcases hq with rfl | rfl <;> cases e
  · obtain ⟨c, r, rfl, hc⟩ := fun_letter h
    cases (List.cons.inj e).1
    revert hc
    decide

/-- No value begins like `(SELECT`. -/
theorem value_sub {q : Char} (hq : q = '"' ∨ q = '`') {o : Obj} {s x r : Str} (h : ValueT q o s)
    (e : s ++ x = '(' :: 'S' :: r) : False := by
  rcases h with h | ⟨xs, u, _, ⟨hne, ts, h1, rfl⟩, rfl⟩ | ⟨s, _, h⟩ | h
  · exact scalar_other h e (by decide)
  · cases h1 with
    | nil => exact hne rfl
    | cons h2 h3 =>
      rw [joinS_cons] at e
      simp only [List.cons_append, List.append_assoc, List.cons.injEq, true_and] at e
      exact scalar_other h2 e (by decide)
  · obtain ⟨r, rfl⟩ := name_head h
    rcases hq with rfl | rfl <;> cases e
  · obtain ⟨c, r, rfl, hc⟩ := fun_letter h
    cases (List.cons.inj e).1
    revert hc
    decide

theorem value_text {cx : Ctx} {n : Nat} {o : Obj} {t : Str} (ho : TidyValue cx.backend.quote o)
    (h : sqlValueText cx (sem cx n) o = .ok t) : ValueT cx.backend.quote o t := by
  rcases ho with ho | ⟨xs, rfl, ho⟩ | ⟨s, rfl, ho⟩ | ho
  · exact .inl (scalar_text (n := n) ho h)
  · have hne : xs.isEmpty = false := by
      cases xs with
      | nil => exact absurd rfl ho.1
      | cons _ _ => rfl
    simp only [sqlValueText, hne, Bool.false_eq_true, if_false, listText] at h
    obtain ⟨ts, h1, h⟩ := bind_ok.mp h
    cases h
    refine .inr (.inl ⟨xs, _, rfl, ⟨ho.1, ts, ?_, rfl⟩, rfl⟩)
    cases n with
    | zero =>
      cases xs with
      | nil => exact absurd rfl ho.1
      | cons x xs =>
        obtain ⟨u, h2, _⟩ := bind_ok.mp h1
        cases h2
    | succ m => exact forall2_tidy h1 (fun x hx => (ho.2 x hx).1) scalar_text
  · cases n with
    | zero => cases h
    | succ m => exact .inr (.inr (.inl ⟨s, rfl, name_text (n := m) ho h⟩))
  · refine .inr (.inr (.inr (fun_text (n := n) ho ?_)))
    rcases ho with ⟨f, d, s, rfl, _⟩ | ⟨cs, rfl, _⟩ | ⟨cs, os, sep, rfl, _⟩ | ⟨s, ty, rfl, _⟩ <;> exact h

/-- A column or a function of columns and its text. -/
def ColumnT (q : Char) (o : Obj) (t : Str) : Prop := NameT q o t ∨ FunT q o t

theorem column_uniq {q : Char} (hq : q = '"' ∨ q = '`') : Uniq (ColumnT q) [] := by
  have nameAgg : ∀ {o p s t x y}, NameT q o s → FunT q p t → s ++ x = t ++ y → False := by
    intro o p s t x y h1 h2 e
    obtain ⟨r, rfl⟩ := name_head h1
    obtain ⟨c, r, rfl, hc⟩ := fun_letter h2
    cases (List.cons.inj e).1
    rcases hq with rfl | rfl <;> revert hc <;> decide
  rintro a b s t x y (ha | ha) (hb | hb) hx hy h
  · exact name_uniq hq ha hb hx hy h
  · exact (nameAgg ha hb h).elim
  · exact (nameAgg hb ha h.symm).elim
  · exact fun_uniq hq ha hb h

theorem column_ends {q : Char} (hq : q = '"' ∨ q = '`') {o : Obj} {t : Str} (h : ColumnT q o t) : Ends t :=
  h.elim (name_ends hq) fun_ends

theorem column_text {cx : Ctx} {n : Nat} {o : Obj} {t : Str} (ho : TidyColumn cx.backend.quote o)
    (h : sqlRefText cx (sem cx n) o = .ok t) : ColumnT cx.backend.quote o t := by
  rcases ho with ⟨s, rfl, ho⟩ | ho
  · exact .inl (name_text (n := n) ho h)
  · refine .inr (fun_text (n := n) ho ?_)
    rcases ho with ⟨f, d, s, rfl, _⟩ | ⟨cs, rfl, _⟩ | ⟨cs, os, sep, rfl, _⟩ | ⟨s, ty, rfl, _⟩ <;> exact h

/-! ### Conditions -/

/-- The texts of what is nested in a query. -/
structure Texts where
  name : Obj → Str → Prop
  value : Obj → Str → Prop
  item : Obj → Str → Prop
  group : List Cond → Str → Prop
  single : Cond → Str → Prop
  sub : Select → Str → Prop

/-- Words that begin a column or table. -/
def nameWords (q : Char) : List Str := [q] :: L!"(SELECT" :: aggWords

/-- Words that begin a condition object. -/
def itemWords (q : Char) : List Str :=
  [L!"NOT(", L!"EXISTS(", L!"((", L!"(NOT(", L!"(EXISTS(", ['(', q]] ++ aggWords.map fun w => '(' :: w

/-- The text begins with one of the words. -/
def Begins (ws : List Str) (t : Str) : Prop := ∃ w ∈ ws, w <+: t

theorem Begins.append {ws : List Str} {t : Str} (h : Begins ws t) (r : Str) : Begins ws (t ++ r) := by
  obtain ⟨w, hw, u, rfl⟩ := h
  exact ⟨w, hw, u ++ r, by simp⟩

theorem Begins.sub {ws ws' : List Str} {t : Str} (h : Begins ws t) (hs : ∀ w ∈ ws, ∃ v ∈ ws', v <+: w) :
    Begins ws' t := by
  obtain ⟨w, hw, hp⟩ := h
  obtain ⟨v, hv, hp'⟩ := hs w hw
  exact ⟨v, hv, hp'.trans hp⟩

theorem Begins.cons {ws : List Str} {t : Str} (h : Begins ws t) (c : Char) :
    Begins (ws.map fun w => c :: w) (c :: t) := by
  obtain ⟨w, hw, u, rfl⟩ := h
  exact ⟨c :: w, List.mem_map.mpr ⟨w, hw, rfl⟩, u, rfl⟩

theorem Begins.differ {ws ws' : List Str} {s t x y : Str} (h1 : Begins ws s) (h2 : Begins ws' t)
    (hd : ∀ w ∈ ws, ∀ v ∈ ws', Unlike w v) (e : s ++ x = t ++ y) : False := by
  obtain ⟨w, hw, u, rfl⟩ := h1
  obtain ⟨v, hv, u', rfl⟩ := h2
  refine (hd w hw v hv).not_prefix (u ++ x) ⟨u' ++ y, ?_⟩
  rw [← List.append_assoc, ← List.append_assoc]
  exact e.symm

theorem Begins.char {ws : List Str} {t : Str} (h : Begins ws t) {c : Char} {r : Str} (e : t = c :: r)
    (hd : ∀ w ∈ ws, Unlike w [c]) : False := by
  subst e
  exact Begins.differ (ws' := [[c]]) (x := []) (y := []) h ⟨[c], by simp, ⟨r, rfl⟩⟩
    (fun w hw v hv => by rw [List.mem_singleton.mp hv]; exact hd w hw) rfl

/-- Texts that can be read in one way only. -/
structure Good (q : Char) (T : Texts) : Prop where
  name : Uniq T.name []
  nameEnds : ∀ {o t}, T.name o t → Ends t
  nameHead : ∀ {o t}, T.name o t → Begins (nameWords q) t
  value : Uniq T.value []
  valueEnds : ∀ {o t}, T.value o t → Ends t
  valueNot : ∀ {o s x r}, T.value o s → s ++ x = 'N' :: 'O' :: r → False
  item : Uniq T.item []
  itemEnds : ∀ {o t}, T.item o t → Ends t
  itemHead : ∀ {o t}, T.item o t → Begins (itemWords q) t
  group : ∀ {a b s t x y}, T.group a s → T.group b t → s ++ ')' :: x = t ++ ')' :: y → a = b ∧ x = y
  single : Uniq T.single []
  singleHead : ∀ {c t}, T.single c t → Begins (nameWords q) t
  sub : ∀ {a b s t x y}, T.sub a s → T.sub b t → s ++ ')' :: x = t ++ ')' :: y → a = b ∧ x = y

/-- What is nested has the texts. -/
structure Read (S : Shapes) (cx : Ctx) (n : Nat) (T : Texts) : Prop where
  name : ∀ {o t}, S.name o → sqlRefText cx (sem cx n) o = .ok t → T.name o t
  value : ∀ {o t}, S.value o → sqlValueText cx (sem cx n) o = .ok t → T.value o t
  item : ∀ {o t}, S.item o → (sem cx n).str o = .ok t → T.item o t
  group : ∀ {ps t}, S.group ps → (sem cx n).str (.conds ps) = .ok t → T.group ps t
  single : ∀ {c t}, S.single c → (sem cx n).str (.conds [c]) = .ok t → T.single c t
  sub : ∀ {q t}, S.sub q → (sem cx n).str (.select q) = .ok t → T.sub q t
  iter : ∀ {v}, S.value v → v.iterate = none ∨ (∃ s, v = .str s) ∨ ∃ xs, v = .list xs ∧ ∀ x ∈ xs, x ≠ .none

/-- The text of a relation as characters. -/
def relChars : Rel → Str
  | .eq => ['=']
  | .ne => ['!', '=']
  | .gt => ['>']
  | .ge => ['>', '=']
  | .lt => ['<']
  | .le => ['<', '=']
  | .like => ['L', 'I', 'K', 'E']
  | .notLike => ['N', 'O', 'T', ' ', 'L', 'I', 'K', 'E']
  | .regexp => ['R', 'E', 'G', 'E', 'X', 'P']
  | .in_ => ['I', 'N']
  | .notIn => ['N', 'O', 'T', ' ', 'I', 'N']
  | .is => ['I', 'S']
  | .isNot => ['I', 'S', ' ', 'N', 'O', 'T']

theorem rel_chars (k : Rel) : k.text = relChars k := by
  cases k <;> decide

theorem rel_uniq {q : Char} {T : Texts} (G : Good q T) {k l : Rel} {a b : Obj} {s t x y : Str}
    (ha : T.value a s) (hb : T.value b t)
    (h : k.text ++ ' ' :: (s ++ x) = l.text ++ ' ' :: (t ++ y)) : k = l ∧ s ++ x = t ++ y := by
  rw [rel_chars, rel_chars] at h
  cases k <;> cases l <;> simp [relChars] at h ⊢ <;> first
    | exact h
    | exact (G.valueNot ha h).elim
    | exact (G.valueNot hb h.symm).elim

/-- A condition of a column, a relation and a value, and its text. -/
def PairT (T : Texts) (c : Cond) (t : Str) : Prop :=
  ∃ o k v a b, c = .cond false o k v ∧ T.name o a ∧ T.value v b ∧ t = a ++ ' ' :: (k.text ++ ' ' :: b)

theorem pair_uniq {q : Char} {T : Texts} (G : Good q T) : Uniq (PairT T) [] := by
  rintro _ _ _ _ x y ⟨o, k, v, a, b, rfl, h1, h2, rfl⟩ ⟨o', k', v', a', b', rfl, h1', h2', rfl⟩ hx hy h
  simp only [List.append_assoc, List.cons_append] at h
  obtain ⟨rfl, h3⟩ := G.name h1 h1' (ok_blank (by simp)) (ok_blank (by simp)) h
  obtain ⟨rfl, h4⟩ := rel_uniq G h2 h2' (List.cons.inj h3).2
  obtain ⟨rfl, h5⟩ := G.value h2 h2' hx hy h4
  exact ⟨rfl, h5⟩

theorem pair_ends {q : Char} {T : Texts} (G : Good q T) {c : Cond} {t : Str} (h : PairT T c t) : Ends t := by
  obtain ⟨o, k, v, a, b, _, _, h, rfl⟩ := h
  exact (((G.valueEnds h).cons _).append _).cons _ |>.append _

theorem pair_head {q : Char} {T : Texts} (G : Good q T) {c : Cond} {t : Str} (h : PairT T c t) :
    Begins (nameWords q) t := by
  obtain ⟨o, k, v, a, b, _, h, _, rfl⟩ := h
  exact (G.nameHead h).append _

/-- A condition and its text. -/
def CondT (T : Texts) (c : Cond) (t : Str) : Prop := PairT T c t ∨ ∃ o, c = .item o ∧ T.item o t

theorem words_differ {q : Char} (hq : q = '"' ∨ q = '`') :
    ∀ w ∈ nameWords q, ∀ v ∈ itemWords q, Unlike w v := by
  rcases hq with rfl | rfl <;> decide

theorem cond_uniq {q : Char} (hq : q = '"' ∨ q = '`') {T : Texts} (G : Good q T) : Uniq (CondT T) [] := by
  rintro a b s t x y (ha | ⟨o, rfl, ha⟩) (hb | ⟨p, rfl, hb⟩) hx hy h
  · exact pair_uniq G ha hb hx hy h
  · exact ((pair_head G ha).differ (G.itemHead hb) (words_differ hq) h).elim
  · exact ((pair_head G hb).differ (G.itemHead ha) (words_differ hq) h.symm).elim
  · obtain ⟨rfl, h⟩ := G.item ha hb hx hy h
    exact ⟨rfl, h⟩

theorem cond_ends {q : Char} {T : Texts} (G : Good q T) {c : Cond} {t : Str} (h : CondT T c t) : Ends t := by
  rcases h with h | ⟨o, _, h⟩
  · exact pair_ends G h
  · exact G.itemEnds h

theorem conds_single {cx : Ctx} {n : Nat} {c : Cond} {t : Str}
    (h : (sem cx (n + 1)).str (.conds [c]) = .ok t) : condText cx (sem cx n) c = .ok t := by
  have h : condsText cx (sem cx n) [] [c] = .ok t := h
  simp only [condsText, partsText, List.isEmpty_cons, Bool.false_eq_true, if_false] at h
  obtain ⟨ts, h1, h⟩ := bind_ok.mp h
  obtain ⟨u, h2, h1⟩ := bind_ok.mp h1
  obtain ⟨us, h3, h1⟩ := bind_ok.mp h1
  cases h3
  cases h1
  cases h
  exact h2

theorem plainCond_parts {cx : Ctx} {S : Sem} {col v : Obj} {k : Rel} {vt : Obj → R Str} {t : Str}
    (h : plainCondText cx S col k vt v = .ok t) :
    ∃ a b, sqlRefText cx S col = .ok a ∧ vt v = .ok b ∧ t = a ++ ' ' :: (k.text ++ ' ' :: b) := by
  unfold plainCondText at h
  obtain ⟨a, h1, h⟩ := bind_ok.mp h
  obtain ⟨b, h2, h⟩ := bind_ok.mp h
  cases h
  exact ⟨a, b, h1, h2, by simp⟩

theorem pair_text {S : Shapes} {cx : Ctx} {n : Nat} {T : Texts} (hR : Read S cx n T) {c : Cond} {t : Str}
    (hc : TidyPair S c) (h : condText cx (sem cx n) c = .ok t) : PairT T c t := by
  obtain ⟨o, k, v, rfl, h1, h2, h3⟩ := hc
  have key : plainCondText cx (sem cx n) o k (sqlValueText cx (sem cx n)) v = .ok t := by
    have inCase : ∀ {g u : Str}, (∀ s, v ≠ .str s) →
        inCondText cx (sem cx n) o k g u (sqlValueText cx (sem cx n)) v = .ok t →
        plainCondText cx (sem cx n) o k (sqlValueText cx (sem cx n)) v = .ok t := by
      intro g u hv h
      rcases hR.iter h2 with hi | ⟨s, hi⟩ | ⟨xs, rfl, hx⟩
      · simpa only [inCondText, hi] using h
      · exact absurd hi (hv s)
      · have hn : ∀ x ∈ xs, x.isNone = false := by
          intro x hx'
          have := hx x hx'
          cases x <;> first | rfl | exact absurd rfl this
        have hf : (xs.filter fun x => !x.isNone) = xs := by
          rw [List.filter_eq_self]
          intro x hx
          simp [hn x hx]
        have ha : xs.any Obj.isNone = false := by
          rw [List.any_eq_false]
          intro x hx
          simp [hn x hx]
        simpa only [inCondText, Obj.iterate, hf, ha, Bool.false_eq_true, if_false] using h
    simp only [condText, Bool.false_and, Bool.false_eq_true, if_false, formatCond] at h
    cases k with
    | in_ => exact inCase (h3 (.inl rfl)) h
    | notIn => exact inCase (h3 (.inr rfl)) h
    | _ => exact h
  obtain ⟨a, b, h4, h5, rfl⟩ := plainCond_parts key
  exact ⟨_, k, v, a, b, rfl, hR.name h1 h4, hR.value h2 h5, rfl⟩

theorem condition_text {S : Shapes} {cx : Ctx} {n : Nat} {T : Texts} (hR : Read S cx n T) {c : Cond} {t : Str}
    (hc : TidyCond S c) (h : condText cx (sem cx n) c = .ok t) : CondT T c t := by
  rcases hc with hc | ⟨o, rfl, ho⟩
  · exact .inl (pair_text hR hc h)
  · exact .inr ⟨o, rfl, hR.item ho h⟩

theorem cond_text {S : Shapes} {cx : Ctx} {n : Nat} {T : Texts} (hR : Read S cx n T) {c : Cond} {t : Str}
    (hc : TidyCond S c) (h : ConditionText cx n c t) : CondT T c t := condition_text hR hc (conds_single h)

/-- A join condition and its text. -/
def OnT (q : Char) (c : Cond) (t : Str) : Prop :=
  ∃ o k v a b, c = .cond true o k v ∧ NameT q o a ∧ NameT q v b ∧ t = a ++ ' ' :: (k.text ++ ' ' :: b)

theorem on_uniq {q : Char} (hq : q = '"' ∨ q = '`') : Uniq (OnT q) [] := by
  rintro _ _ _ _ x y ⟨o, k, v, a, b, rfl, h1, h2, rfl⟩ ⟨o', k', v', a', b', rfl, h1', h2', rfl⟩ hx hy h
  simp only [List.append_assoc, List.cons_append] at h
  obtain ⟨rfl, h3⟩ := name_uniq hq h1 h1' (ok_blank (by simp)) (ok_blank (by simp)) h
  have h3 := (List.cons.inj h3).2
  have : k = k' ∧ b ++ x = b' ++ y := by
    obtain ⟨r, rfl⟩ := name_head h2
    obtain ⟨r', rfl⟩ := name_head h2'
    rw [rel_chars, rel_chars] at h3
    rcases hq with rfl | rfl <;> cases k <;> cases k' <;> simp [relChars] at h3 ⊢ <;> exact h3
  obtain ⟨rfl, h4⟩ := this
  obtain ⟨rfl, h5⟩ := name_uniq hq h2 h2' hx hy h4
  exact ⟨rfl, h5⟩

theorem on_ends {q : Char} (hq : q = '"' ∨ q = '`') {c : Cond} {t : Str} (h : OnT q c t) : Ends t := by
  obtain ⟨o, k, v, a, b, _, _, h, rfl⟩ := h
  exact (((name_ends hq h).cons _).append _).cons _ |>.append _

theorem on_text {cx : Ctx} {n : Nat} {c : Cond} {t : Str} (hc : TidyOn cx.backend.quote c)
    (h : condText cx (sem cx n) c = .ok t) : OnT cx.backend.quote c t := by
  obtain ⟨s, k, u, rfl, h1, h2, h3, h4⟩ := hc
  have key : plainCondText cx (sem cx n) (.str s) k (sqlRefText cx (sem cx n)) (.str u) = .ok t := by
    simp only [condText, Obj.isStr, Bool.and_self, if_true, formatCond] at h
    cases k with
    | in_ => exact absurd rfl h3
    | notIn => exact absurd rfl h4
    | _ => exact h
  obtain ⟨a, b, h5, h6, rfl⟩ := plainCond_parts key
  exact ⟨_, k, _, a, b, rfl, name_text (n := n) h1 h5, name_text (n := n) h2 h6, rfl⟩

/-! ### Columns, orders, assignments -/

/-- A name and an alias, and their text. -/
def AliasT (q : Char) (T : Texts) (p : Obj × Obj) (t : Str) : Prop :=
  ∃ a, T.name p.1 a ∧ ((p.2 = .none ∧ t = a) ∨ ∃ b, NameT q p.2 b ∧ t = a ++ L!" AS " ++ b)

theorem alias_uniq {q : Char} (hq : q = '"' ∨ q = '`') {T : Texts} (G : Good q T) :
    Uniq (AliasT q T) [L!" AS "] := by
  have as : ∀ {r x : Str}, Ok [L!" AS "] x → x = L!" AS " ++ r → False :=
    fun hx e => hx.2 _ (by simp) ⟨_, e.symm⟩
  have sub : ∀ {x : Str}, Ok [L!" AS "] x → Ok [] x := fun h => ok_sub h (by simp)
  have blank : ∀ {r : Str}, Ok [] (L!" AS " ++ r) := ok_blank (by simp)
  rintro ⟨o, p⟩ ⟨o', p'⟩ s t x y ⟨a, h1, h2⟩ ⟨a', h1', h2'⟩ hx hy h
  simp only at h1 h2 h1' h2'
  rcases h2 with ⟨rfl, rfl⟩ | ⟨b, h2, rfl⟩ <;> rcases h2' with ⟨rfl, rfl⟩ | ⟨b', h2', rfl⟩
  · obtain ⟨rfl, h3⟩ := G.name h1 h1' (sub hx) (sub hy) h
    exact ⟨rfl, h3⟩
  · rw [List.append_assoc, List.append_assoc] at h
    obtain ⟨_, h3⟩ := G.name h1 h1' (sub hx) blank h
    exact (as hx h3).elim
  · rw [List.append_assoc, List.append_assoc] at h
    obtain ⟨_, h3⟩ := G.name h1 h1' blank (sub hy) h
    exact (as hy h3.symm).elim
  · simp only [List.append_assoc] at h
    obtain ⟨rfl, h3⟩ := G.name h1 h1' blank blank h
    obtain ⟨rfl, h4⟩ := name_uniq hq h2 h2' (sub hx) (sub hy) (List.append_cancel_left h3)
    exact ⟨rfl, h4⟩

theorem alias_ends {q : Char} (hq : q = '"' ∨ q = '`') {T : Texts} (G : Good q T) {p : Obj × Obj} {t : Str}
    (h : AliasT q T p t) : Ends t := by
  obtain ⟨a, h1, ⟨_, rfl⟩ | ⟨b, h2, rfl⟩⟩ := h
  · exact G.nameEnds h1
  · exact (name_ends hq h2).append _

theorem alias_head {q : Char} {T : Texts} (G : Good q T) {p : Obj × Obj} {t : Str} (h : AliasT q T p t) :
    Begins (nameWords q) t := by
  obtain ⟨a, h1, ⟨_, rfl⟩ | ⟨b, h2, rfl⟩⟩ := h
  · exact G.nameHead h1
  · exact ((G.nameHead h1).append _).append _

theorem alias_text {S : Shapes} {cx : Ctx} {n : Nat} {T : Texts} (hR : Read S cx n T) {o p : Obj} {t : Str}
    (hp : TidyAliased S cx o p) (h : AliasedText cx n o p t) : AliasT cx.backend.quote T (o, p) t := by
  obtain ⟨hs, hp⟩ := hp
  obtain ⟨a, h1, h2⟩ := h
  refine ⟨a, hR.name hs h1, ?_⟩
  rcases hp with rfl | ⟨u, rfl, hu⟩
  · rcases h2 with ⟨_, rfl⟩ | ⟨h2, _⟩
    · exact .inl ⟨rfl, rfl⟩
    · cases h2
  · rcases h2 with ⟨h2, _⟩ | ⟨_, b, h3, rfl⟩
    · obtain ⟨p, ps, h3, _, rfl⟩ := hu
      have : dotted (p :: ps) ≠ [] := by
        rw [dotted_cons]
        intro e
        exact (h3 p (by simp)).1 (List.append_eq_nil_iff.mp e).1
      cases hd : dotted (p :: ps) with
      | nil => exact absurd hd this
      | cons c cs =>
        rw [hd] at h2
        cases h2
    · exact .inr ⟨b, name_text hu h3, rfl⟩

/-- A column of ORDER BY or GROUP BY and its text. -/
def OrderT (T : Texts) (o : Order) (t : Str) : Prop :=
  ∃ a, T.name o.col a ∧ t = a ++ (if o.desc then L!" DESC" else [])

theorem order_uniq {q : Char} {T : Texts} (G : Good q T) : Uniq (OrderT T) [L!" DESC"] := by
  have sub : ∀ {x : Str}, Ok [L!" DESC"] x → Ok [] x := fun h => ok_sub h (by simp)
  have blank : ∀ {r : Str}, Ok [] (L!" DESC" ++ r) := ok_blank (by simp)
  rintro ⟨o, d⟩ ⟨o', d'⟩ s t x y ⟨a, h1, rfl⟩ ⟨a', h1', rfl⟩ hx hy h
  simp only [List.append_assoc] at h1 h1' h
  cases d <;> cases d' <;> simp only [Bool.false_eq_true, if_false, if_true, List.nil_append] at h
  · obtain ⟨rfl, h3⟩ := G.name h1 h1' (sub hx) (sub hy) h
    exact ⟨rfl, h3⟩
  · obtain ⟨_, h3⟩ := G.name h1 h1' (sub hx) blank h
    exact (hx.2 _ (by simp) ⟨_, h3.symm⟩).elim
  · obtain ⟨_, h3⟩ := G.name h1 h1' blank (sub hy) h
    exact (hy.2 _ (by simp) ⟨_, h3⟩).elim
  · obtain ⟨rfl, h3⟩ := G.name h1 h1' blank blank h
    exact ⟨rfl, List.append_cancel_left h3⟩

theorem order_ends {q : Char} {T : Texts} (G : Good q T) {o : Order} {t : Str} (h : OrderT T o t) : Ends t := by
  obtain ⟨a, h1, rfl⟩ := h
  split
  · exact ⟨a ++ L!" DES", 'C', by simp, by decide⟩
  · rw [List.append_nil]
    exact G.nameEnds h1

theorem order_text {S : Shapes} {cx : Ctx} {n : Nat} {T : Texts} (hR : Read S cx n T) {o : Order} {t : Str}
    (ho : TidyOrder S o) (h : OrderText cx n o t) : OrderT T o t := by
  obtain ⟨a, h2, rfl⟩ := h
  exact ⟨a, hR.name ho h2, rfl⟩

/-- An assignment and its text. -/
def AssignT (q : Char) (T : Texts) (v : Value) (t : Str) : Prop :=
  ∃ o w a b, v = .value o w ∧ NameT q o a ∧ T.value w b ∧ t = a ++ (L!" = " ++ b)

theorem assign_uniq {q : Char} (hq : q = '"' ∨ q = '`') {T : Texts} (G : Good q T) : Uniq (AssignT q T) [] := by
  rintro _ _ _ _ x y ⟨o, w, a, b, rfl, h1, h2, rfl⟩ ⟨o', w', a', b', rfl, h1', h2', rfl⟩ hx hy h
  simp only [List.append_assoc] at h
  obtain ⟨rfl, h3⟩ := name_uniq hq h1 h1' (ok_blank (by simp)) (ok_blank (by simp)) h
  obtain ⟨rfl, h5⟩ := G.value h2 h2' hx hy (List.append_cancel_left (as := L!" = ") h3)
  exact ⟨rfl, h5⟩

theorem assign_ends {q : Char} {T : Texts} (G : Good q T) {v : Value} {t : Str} (h : AssignT q T v t) : Ends t := by
  obtain ⟨o, w, a, b, _, _, h, rfl⟩ := h
  exact ((G.valueEnds h).append _).append _

theorem assign_text {S : Shapes} {cx : Ctx} {n : Nat} {T : Texts} (hR : Read S cx n T) {v : Value} {t : Str}
    (hv : TidyAssignment S cx v) (h : AssignmentText cx n v t) : AssignT cx.backend.quote T v t := by
  obtain ⟨s, w, rfl, h1, h2⟩ := hv
  obtain ⟨a, b, h3, h4, rfl⟩ := h
  exact ⟨_, w, a, b, rfl, name_text h1 h3, hR.value h2 h4, by simp⟩

end SqlPuzzle
