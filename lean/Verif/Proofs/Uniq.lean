import Verif.Spec.Tidy
import Verif.Props.Strings
import Verif.Props.Numbers

/-!
Texts that can be read in one way only.
-/

namespace SqlPuzzle

open Spec

/-- What may follow: a separator, but none of some words. -/
def Ok (bad : List Str) (x : Str) : Prop := Sep x ∧ ∀ w ∈ bad, ¬ w <+: x

/-- Different things have texts of which none begins another one. -/
def Uniq {α : Type} (T : α → Str → Prop) (bad : List Str) : Prop :=
  ∀ ⦃a b s t x y⦄, T a s → T b t → Ok bad x → Ok bad y → s ++ x = t ++ y → a = b ∧ x = y

/-- Neither begins with the other. -/
def Unlike (u w : Str) : Prop := ¬ u <+: w ∧ ¬ w <+: u

instance (u w : Str) : Decidable (Unlike u w) := inferInstanceAs (Decidable (_ ∧ _))

theorem Unlike.not_prefix {u w : Str} (h : Unlike u w) (r : Str) : ¬ w <+: u ++ r := by
  intro hw
  rcases List.prefix_or_prefix_of_prefix hw (List.prefix_append u r) with h1 | h1
  · exact h.2 h1
  · exact h.1 h1

theorem sep_blank (x : Str) : Sep (' ' :: x) := .inr ⟨' ', x, rfl, .inl rfl⟩

theorem ok_blank {bad : List Str} {x : Str} (h : ∀ w ∈ bad, ¬ w <+: ' ' :: x) : Ok bad (' ' :: x) :=
  ⟨sep_blank x, h⟩

theorem ok_sub {bad bad' : List Str} {x : Str} (h : Ok bad x) (hs : ∀ w ∈ bad', w ∈ bad) : Ok bad' x :=
  ⟨h.1, fun w hw => h.2 w (hs w hw)⟩

theorem ok_nil : Ok [] [] := ⟨.inl rfl, by simp⟩

/-! ### Words without separators -/

def notSep (c : Char) : Bool := !(c == ' ' || c == ',' || c == ')')

theorem word_uniq {s t x y : Str} (hs : ∀ c ∈ s, notSep c = true) (ht : ∀ c ∈ t, notSep c = true)
    (hx : Sep x) (hy : Sep y) (h : s ++ x = t ++ y) : s = t ∧ x = y := by
  have key : ∀ {c : Char} {u v w : Str}, notSep c = true → Sep v → v = c :: w → False := by
    rintro c u v w hc (rfl | ⟨d, ds, rfl, hd⟩) e
    · cases e
    · cases e
      rcases hd with rfl | rfl | rfl <;> revert hc <;> decide
  induction s generalizing t with
  | nil =>
    cases t with
    | nil => exact ⟨rfl, h⟩
    | cons c t => exact (key (u := []) (ht c (by simp)) hx h).elim
  | cons c s ih =>
    cases t with
    | nil => exact (key (u := []) (hs c (by simp)) hy h.symm).elim
    | cons d t =>
      simp only [List.cons_append, List.cons.injEq] at h
      obtain ⟨rfl, h⟩ := h
      obtain ⟨h1, h2⟩ := ih (fun c hc => hs c (List.mem_cons_of_mem _ hc))
        (fun c hc => ht c (List.mem_cons_of_mem _ hc)) h
      exact ⟨by rw [h1], h2⟩

/-! ### Names -/

theorem dotted_cons (p : Str) (ps : List Str) :
    dotted (p :: ps) = p ++ ps.flatMap fun x => '.' :: x := by
  induction ps generalizing p with
  | nil => simp [dotted]
  | cons r rs ih => rw [dotted, ih] <;> simp

theorem splitDot_append {p : Str} (hp : '.' ∉ p) (r : Str) :
    splitDot (p ++ r) = match splitDot r with
      | [] => [p]
      | h :: t => (p ++ h) :: t := by
  induction p with
  | nil =>
    simp only [List.nil_append]
    cases hr : splitDot r with
    | nil => exact absurd hr (splitDot_ne r)
    | cons h t => rfl
  | cons c p ih =>
    simp only [List.mem_cons, not_or] at hp
    rw [List.cons_append, splitDot, if_neg (Ne.symm hp.1), ih hp.2]
    cases hr : splitDot r with
    | nil => exact absurd hr (splitDot_ne r)
    | cons h t => rfl

theorem splitDot_dotted {p : Str} {ps : List Str} (h : ∀ x ∈ p :: ps, '.' ∉ x) :
    splitDot (dotted (p :: ps)) = p :: ps := by
  induction ps generalizing p with
  | nil =>
    have := splitDot_append (h p (by simp)) []
    simpa [dotted, splitDot] using this
  | cons r rs ih =>
    rw [dotted, splitDot_append (h p (by simp)), splitDot, if_pos rfl,
      ih fun x hx => h x (List.mem_cons_of_mem _ hx)] <;> simp

/-- A name and its text. -/
def NameT (q : Char) (o : Obj) (t : Str) : Prop :=
  ∃ p ps, (∀ x ∈ p :: ps, x ≠ [] ∧ '.' ∉ x ∧ q ∉ x) ∧ p ≠ ['*'] ∧ o = .str (dotted (p :: ps)) ∧
    t = dotted ((p :: ps).map (writeSegment q))

theorem quote_cases (cx : Ctx) : cx.backend.quote = '"' ∨ cx.backend.quote = '`' := by
  cases cx.backend <;> simp [Backend.quote]

theorem segments_dotted {q : Char} {p : Str} {ps : List Str}
    (h : ∀ x ∈ p :: ps, x ≠ [] ∧ '.' ∉ x ∧ q ∉ x) : segments (dotted (p :: ps)) = p :: ps := by
  unfold segments
  rw [splitDot_dotted fun x hx => (h x hx).2.1, List.filter_eq_self]
  intro x hx
  have := (h x hx).1
  cases x with
  | nil => exact absurd rfl this
  | cons _ _ => rfl

theorem notMem_dotted {q : Char} (hq : q ≠ '.') {p : Str} {ps : List Str}
    (h : ∀ x ∈ p :: ps, x ≠ [] ∧ '.' ∉ x ∧ q ∉ x) : q ∉ dotted (p :: ps) := by
  rw [dotted_cons]
  intro hm
  rcases List.mem_append.mp hm with hm | hm
  · exact (h p (by simp)).2.2 hm
  · obtain ⟨x, hx, hm⟩ := List.mem_flatMap.mp hm
    rcases List.mem_cons.mp hm with hm | hm
    · exact hq hm
    · exact (h x (List.mem_cons_of_mem _ hx)).2.2 hm

theorem name_text {cx : Ctx} {n : Nat} {s t : Str} (hs : TidyName cx.backend.quote s)
    (h : (sem cx (n + 1)).str (.sqlRef (.str s)) = .ok t) : NameT cx.backend.quote (.str s) t := by
  obtain ⟨p, ps, h1, h2, rfl⟩ := hs
  have hq : cx.backend.quote ≠ '.' := by rcases quote_cases cx with h | h <;> rw [h] <;> decide
  obtain ⟨u, h3, h4, _⟩ := C04_plain_name cx n ⟨cx.backend.quote, false, false, false⟩ rfl _ (notMem_dotted hq h1)
  rw [h3] at h
  cases h
  refine ⟨p, ps, h1, h2, rfl, ?_⟩
  rw [h4, segments_dotted h1]

/-- One segment. -/
theorem segment_uniq {q : Char} {p r x y : Str} (hp : p ≠ [] ∧ '.' ∉ p ∧ q ∉ p)
    (hr : r ≠ [] ∧ '.' ∉ r ∧ q ∉ r) (hq : q ≠ '*')
    (h : writeSegment q p ++ x = writeSegment q r ++ y) : p = r ∧ x = y := by
  have key : ∀ {p r x y : Str}, q ∉ p → q ∉ r → p ++ q :: x = r ++ q :: y → p = r ∧ x = y := by
    intro p
    induction p with
    | nil =>
      intro r x y _ hr h
      cases r with
      | nil => simpa using h
      | cons c r =>
        simp only [List.nil_append, List.cons_append, List.cons.injEq] at h
        exact absurd (h.1 ▸ List.mem_cons_self) hr
    | cons c p ih =>
      intro r x y hp hr h
      cases r with
      | nil =>
        simp only [List.nil_append, List.cons_append, List.cons.injEq] at h
        exact absurd (h.1 ▸ List.mem_cons_self) hp
      | cons d r =>
        simp only [List.cons_append, List.cons.injEq] at h
        simp only [List.mem_cons, not_or] at hp hr
        obtain ⟨h1, h2⟩ := ih hp.2 hr.2 h.2
        exact ⟨by rw [h.1, h1], h2⟩
  unfold writeSegment at h
  by_cases h1 : p = ['*'] <;> by_cases h2 : r = ['*']
  · simp only [h1, h2, if_true] at h ⊢
    simpa using h
  · rw [if_pos h1, if_neg h2] at h
    simp only [List.cons_append, List.cons.injEq] at h
    exact absurd h.1.symm hq
  · rw [if_neg h1, if_pos h2] at h
    simp only [List.cons_append, List.cons.injEq] at h
    exact absurd h.1 hq
  · rw [if_neg h1, if_neg h2] at h
    simp only [List.cons_append, List.cons.injEq, true_and, List.append_assoc, List.nil_append] at h
    exact key hp.2.2 hr.2.2 h

theorem name_uniq {q : Char} (hq : q = '"' ∨ q = '`') : Uniq (NameT q) [] := by
  have hq' : q ≠ '*' := by rcases hq with rfl | rfl <;> decide
  have tails : ∀ {ps rs : List Str} {x y : Str}, (∀ x ∈ ps, x ≠ [] ∧ '.' ∉ x ∧ q ∉ x) →
      (∀ x ∈ rs, x ≠ [] ∧ '.' ∉ x ∧ q ∉ x) → Sep x → Sep y →
      (ps.map (writeSegment q)).flatMap (fun x => '.' :: x) ++ x =
        (rs.map (writeSegment q)).flatMap (fun x => '.' :: x) ++ y → ps = rs ∧ x = y := by
    have dot : ∀ {x r : Str}, Sep x → x = '.' :: r → False := by
      rintro x r (rfl | ⟨c, cs, rfl, h⟩) e
      · cases e
      · cases e
        revert h
        decide
    intro ps
    induction ps with
    | nil =>
      intro rs x y _ _ hx _ h
      cases rs with
      | nil => exact ⟨rfl, by simpa using h⟩
      | cons r rs => exact (dot hx (by simpa using h)).elim
    | cons p ps ih =>
      intro rs x y hp hr hx hy h
      cases rs with
      | nil => exact (dot hy (by simpa using h.symm)).elim
      | cons r rs =>
        simp only [List.map_cons, List.flatMap_cons, List.cons_append, List.cons.injEq, true_and,
          List.append_assoc] at h
        obtain ⟨h1, h2⟩ := segment_uniq (hp p (by simp)) (hr r (by simp)) hq' h
        obtain ⟨h3, h4⟩ := ih (fun x hx => hp x (List.mem_cons_of_mem _ hx))
          (fun x hx => hr x (List.mem_cons_of_mem _ hx)) hx hy h2
        exact ⟨by rw [h1, h3], h4⟩
  rintro a b s t x y ⟨p, ps, h1, _, rfl, rfl⟩ ⟨r, rs, h3, _, rfl, rfl⟩ hx hy h
  rw [List.map_cons, List.map_cons, dotted_cons, dotted_cons, List.append_assoc, List.append_assoc] at h
  obtain ⟨e1, h⟩ := segment_uniq (h1 p (by simp)) (h3 r (by simp)) hq' h
  obtain ⟨e2, h⟩ := tails (fun x hx => h1 x (List.mem_cons_of_mem _ hx))
    (fun x hx => h3 x (List.mem_cons_of_mem _ hx)) hx.1 hy.1 h
  exact ⟨by rw [e1, e2], h⟩

/-- A name begins with a quote. -/
theorem name_head {q : Char} {o : Obj} {t : Str} (h : NameT q o t) : ∃ r, t = q :: r := by
  obtain ⟨p, ps, h1, h2, _, rfl⟩ := h
  rw [List.map_cons, dotted_cons]
  unfold writeSegment
  rw [if_neg h2]
  exact ⟨_, rfl⟩

/-- Text that does not end with white space. -/
def Ends (s : Str) : Prop := ∃ r c, s = r ++ [c] ∧ isWhite c = false

theorem Ends.append {t : Str} (h : Ends t) (s : Str) : Ends (s ++ t) := by
  obtain ⟨r, c, rfl, h⟩ := h
  exact ⟨s ++ r, c, by simp, h⟩

theorem Ends.cons {t : Str} (h : Ends t) (c : Char) : Ends (c :: t) := h.append [c]

theorem ends_joinS {sep : Str} {ts : List Str} (hne : ts ≠ []) (h : ∀ t ∈ ts, Ends t) :
    Ends (joinS sep ts) := by
  induction ts with
  | nil => exact absurd rfl hne
  | cons t ts ih =>
    cases ts with
    | nil => exact h t (by simp)
    | cons u us => exact (ih (by simp) fun x hx => h x (List.mem_cons_of_mem _ hx)).append _

theorem ends_dotted {ts : List Str} (hne : ts ≠ []) (h : ∀ t ∈ ts, Ends t) : Ends (dotted ts) := by
  induction ts with
  | nil => exact absurd rfl hne
  | cons t ts ih =>
    cases ts with
    | nil => exact h t (by simp)
    | cons u us =>
      exact ((ih (by simp) fun x hx => h x (List.mem_cons_of_mem _ hx)).cons '.').append _

theorem name_ends {q : Char} (hq : q = '"' ∨ q = '`') {o : Obj} {t : Str} (h : NameT q o t) : Ends t := by
  obtain ⟨p, ps, h1, h2, _, rfl⟩ := h
  refine ends_dotted (by simp) ?_
  intro t ht
  obtain ⟨x, _, rfl⟩ := List.mem_map.mp ht
  unfold writeSegment
  split
  · exact ⟨[], '*', rfl, by decide⟩
  · exact ⟨q :: x, q, rfl, by rcases hq with rfl | rfl <;> decide⟩

/-! ### Values -/

theorem escChar_inj {c d : Char} {u v : Str} (h : escChar c ++ u = escChar d ++ v) : c = d ∧ u = v := by
  unfold escChar at h
  by_cases c1 : c = '\\'
  · subst c1
    by_cases d1 : d = '\\'
    · subst d1; simpa using h
    · by_cases d2 : d = '\''
      · subst d2; simp at h
      · by_cases d3 : d = '\n'
        · subst d3; simp at h
        · simp [d1, d2, d3] at h
          exact absurd h.1.symm d1
  · by_cases c2 : c = '\''
    · subst c2
      by_cases d1 : d = '\\'
      · subst d1; simp at h
      · by_cases d2 : d = '\''
        · subst d2; simpa using h
        · by_cases d3 : d = '\n'
          · subst d3; simp at h
          · simp [d1, d2, d3] at h
            exact absurd h.1.symm d2
    · by_cases c3 : c = '\n'
      · subst c3
        by_cases d1 : d = '\\'
        · subst d1; simp at h
        · by_cases d2 : d = '\''
          · subst d2; simp at h
          · by_cases d3 : d = '\n'
            · subst d3; simpa using h
            · simp [d1, d2, d3] at h
              exact absurd h.1.symm d1
      · by_cases d1 : d = '\\'
        · subst d1
          simp [c1, c2, c3] at h
        · by_cases d2 : d = '\''
          · subst d2
            simp [c1, c2, c3] at h
          · by_cases d3 : d = '\n'
            · subst d3
              simp [c1, c2, c3] at h
            · simpa [c1, c2, c3, d1, d2, d3] using h

theorem escape_uniq {s t x y : Str} (hx : Sep x) (hy : Sep y)
    (h : escapeValue s ++ '\'' :: x = escapeValue t ++ '\'' :: y) : s = t ∧ x = y := by
  have quote : ∀ {x r : Str}, Sep x → x = '\'' :: r → False := by
    rintro x r (rfl | ⟨c, cs, rfl, h⟩) e
    · cases e
    · cases e
      revert h
      decide
  rw [escapeValue_eq, escapeValue_eq] at h
  have nilcase : ∀ {c : Char} {r x y : Str}, Sep x → '\'' :: x = escChar c ++ (r ++ '\'' :: y) → False := by
    intro c r x y hx h
    unfold escChar at h
    split at h
    · cases h
    · split at h
      · simp only [List.cons_append, List.cons.injEq, true_and] at h
        exact quote hx h
      · rename_i h1 h2
        split at h
        · cases h
        · simp only [List.cons_append, List.cons.injEq] at h
          exact h2 h.1.symm
  induction s generalizing t with
  | nil =>
    cases t with
    | nil => simpa using h
    | cons c t =>
      simp only [List.flatMap_nil, List.nil_append, List.flatMap_cons, List.append_assoc] at h
      exact (nilcase hx h).elim
  | cons c s ih =>
    cases t with
    | nil =>
      simp only [List.flatMap_nil, List.nil_append, List.flatMap_cons, List.append_assoc] at h
      exact (nilcase hy h.symm).elim
    | cons d t =>
      simp only [List.flatMap_cons, List.append_assoc] at h
      obtain ⟨rfl, h'⟩ := escChar_inj h
      obtain ⟨e, h'⟩ := ih h'
      exact ⟨by rw [e], h'⟩

/-- A scalar and its text. -/
def ScalarT (q : Char) (o : Obj) (t : Str) : Prop :=
  TidyScalar q o ∧ ((∃ s, o = .str s ∧ t = '\'' :: (escapeValue s ++ ['\''])) ∨
    (∃ i, o = .int i ∧ t = intText i) ∨ (o = .none ∧ t = L!"NULL"))

theorem intText_chars (i : Int) : intText i ≠ [] ∧ ∀ c ∈ intText i, c = '-' ∨ isDigitC c = true := by
  cases i with
  | ofNat k => exact ⟨natText_ne k, fun c hc => .inr (natTextF_digits _ _ c hc)⟩
  | negSucc k =>
    refine ⟨by simp [intText], fun c hc => ?_⟩
    rcases List.mem_cons.mp hc with hc | hc
    · exact .inl hc
    · exact .inr (natTextF_digits _ _ c hc)

theorem digit_notSep {c : Char} (h : c = '-' ∨ isDigitC c = true) : notSep c = true := by
  rcases h with rfl | h
  · decide
  · unfold notSep
    rw [Bool.not_eq_true']
    simp only [Bool.or_eq_false_iff, beq_eq_false_iff_ne]
    refine ⟨⟨?_, ?_⟩, ?_⟩ <;> rintro rfl <;> revert h <;> decide

theorem int_uniq {i j : Int} {x y : Str} (hx : Sep x) (hy : Sep y) (h : intText i ++ x = intText j ++ y) :
    i = j ∧ x = y := by
  obtain ⟨h1, h2⟩ := word_uniq (fun c hc => digit_notSep ((intText_chars i).2 c hc))
    (fun c hc => digit_notSep ((intText_chars j).2 c hc)) hx hy h
  refine ⟨?_, h2⟩
  have e1 := readInt_intText i
  rw [h1, readInt_intText j] at e1
  exact (Option.some.inj e1).symm

/-- Text of an integer does not begin like other texts. -/
theorem int_head {i : Int} {x : Str} {c : Char} {r : Str} (h : intText i ++ x = c :: r)
    (hc : c ≠ '-' ∧ isDigitC c = false) : False := by
  obtain ⟨h1, h2⟩ := intText_chars i
  cases hi : intText i with
  | nil => exact h1 hi
  | cons d ds =>
    rw [hi] at h h2
    simp only [List.cons_append, List.cons.injEq] at h
    rcases h2 d (by simp) with h3 | h3
    · exact hc.1 (h.1 ▸ h3)
    · rw [h.1, hc.2] at h3
      cases h3

theorem scalar_uniq {q : Char} : Uniq (ScalarT q) [] := by
  rintro a b s t x y ⟨_, ha⟩ ⟨_, hb⟩ hx hy h
  rcases ha with ⟨u, rfl, rfl⟩ | ⟨i, rfl, rfl⟩ | ⟨rfl, rfl⟩ <;>
    rcases hb with ⟨v, rfl, rfl⟩ | ⟨j, rfl, rfl⟩ | ⟨rfl, rfl⟩
  · simp only [List.cons_append, List.append_assoc, List.cons.injEq, true_and, List.nil_append] at h
    obtain ⟨rfl, h'⟩ := escape_uniq hx.1 hy.1 h
    exact ⟨rfl, h'⟩
  · exact (int_head h.symm (by decide)).elim
  · cases h
  · exact (int_head h (by decide)).elim
  · obtain ⟨rfl, h'⟩ := int_uniq hx.1 hy.1 h
    exact ⟨rfl, h'⟩
  · exact (int_head h (by decide)).elim
  · cases h
  · exact (int_head h.symm (by decide)).elim
  · exact ⟨rfl, List.append_cancel_left h⟩

theorem ends_nonempty {s : Str} (hne : s ≠ []) (h : ∀ c ∈ s, isWhite c = false) : Ends s := by
  obtain ⟨r, c, rfl⟩ := (List.eq_nil_or_concat s).resolve_left hne
  exact ⟨r, c, by simp, h c (by simp)⟩

theorem digit_notWhite {c : Char} (h : c = '-' ∨ isDigitC c = true) : isWhite c = false := by
  rcases h with rfl | h
  · decide
  · unfold isDigitC at h
    simp only [Bool.and_eq_true, decide_eq_true_eq] at h
    have h1 : 48 ≤ c.toNat := h.1
    have h2 : c.toNat ≤ 57 := h.2
    cases hw : isWhite c with
    | false => rfl
    | true =>
      unfold isWhite at hw
      rw [List.contains_iff_mem] at hw
      simp only [List.mem_cons, List.not_mem_nil, or_false] at hw
      omega

theorem scalar_ends {q : Char} {o : Obj} {t : Str} (h : ScalarT q o t) : Ends t := by
  rcases h.2 with ⟨s, _, rfl⟩ | ⟨i, _, rfl⟩ | ⟨_, rfl⟩
  · exact ⟨'\'' :: escapeValue s, '\'', rfl, by decide⟩
  · exact ends_nonempty (intText_chars i).1 fun c hc => digit_notWhite ((intText_chars i).2 c hc)
  · exact ⟨L!"NUL", 'L', rfl, by decide⟩

theorem scalar_text {cx : Ctx} {n : Nat} {o : Obj} {t : Str} (ho : TidyScalar cx.backend.quote o)
    (h : (sem cx (n + 1)).str (.sqlValue o) = .ok t) : ScalarT cx.backend.quote o t := by
  refine ⟨ho, ?_⟩
  cases o with
  | str s =>
    left
    refine ⟨s, rfl, ?_⟩
    have : (sem cx (n + 1)).str (.sqlValue (.str s)) = .ok (strValueText cx s) := rfl
    rw [this] at h
    cases h
    exact strValueText_lit ho
  | int i =>
    have : (sem cx (n + 1)).str (.sqlValue (.int i)) = .ok (intText i) := rfl
    rw [this] at h
    cases h
    exact .inr (.inl ⟨i, rfl, rfl⟩)
  | none =>
    have : (sem cx (n + 1)).str (.sqlValue .none) = .ok L!"NULL" := rfl
    rw [this] at h
    cases h
    exact .inr (.inr ⟨rfl, rfl⟩)
  | _ => exact ho.elim

/-! ### Lists -/

/-- Several things with a separator between them. -/
def ListT {α : Type} (T : α → Str → Prop) (sep : Str) (xs : List α) (t : Str) : Prop :=
  xs ≠ [] ∧ ∃ ts, List.Forall₂ T xs ts ∧ t = joinS sep ts

theorem joinS_cons (sep t : Str) (ts : List Str) : joinS sep (t :: ts) = t ++ ts.flatMap fun u => sep ++ u := by
  induction ts generalizing t with
  | nil => simp [joinS]
  | cons u us ih => rw [joinS, ih]; simp

theorem list_uniq {α : Type} {T : α → Str → Prop} {sep : Str} {bad : List Str} (h : Uniq T bad)
    (hs : Sep sep ∧ sep ≠ []) (ha : ∀ w ∈ bad, Unlike sep w) : Uniq (ListT T sep) (sep :: bad) := by
  have hok : ∀ r, Ok bad (sep ++ r) := by
    intro r
    refine ⟨?_, fun w hw => (ha w hw).not_prefix r⟩
    rcases hs with ⟨rfl | ⟨c, cs, rfl, hc⟩, hne⟩
    · exact absurd rfl hne
    · exact .inr ⟨c, cs ++ r, rfl, hc⟩
  have hrest : ∀ {us : List Str} {x : Str}, Ok (sep :: bad) x → Ok bad ((us.flatMap fun u => sep ++ u) ++ x) := by
    intro us x hx
    cases us with
    | nil => exact ok_sub hx fun w hw => List.mem_cons_of_mem _ hw
    | cons u us =>
      simp only [List.flatMap_cons, List.append_assoc]
      exact hok _
  have tails : ∀ {xs ys : List α} {ss ts : List Str} {x y : Str}, List.Forall₂ T xs ss → List.Forall₂ T ys ts →
      Ok (sep :: bad) x → Ok (sep :: bad) y →
      (ss.flatMap fun u => sep ++ u) ++ x = (ts.flatMap fun u => sep ++ u) ++ y → xs = ys ∧ x = y := by
    intro xs ys ss ts x y h1
    induction h1 generalizing ys ts with
    | nil =>
      intro h2 hx hy e
      cases h2 with
      | nil => exact ⟨rfl, by simpa using e⟩
      | cons _ _ =>
        simp only [List.flatMap_nil, List.nil_append, List.flatMap_cons, List.append_assoc] at e
        exact absurd ⟨_, e.symm⟩ (hx.2 sep (by simp))
    | cons hT _ ih =>
      intro h2 hx hy e
      cases h2 with
      | nil =>
        simp only [List.flatMap_nil, List.nil_append, List.flatMap_cons, List.append_assoc] at e
        exact absurd ⟨_, e⟩ (hy.2 sep (by simp))
      | cons hT' h2 =>
        simp only [List.flatMap_cons, List.append_assoc] at e
        obtain ⟨rfl, e⟩ := h hT hT' (hrest hx) (hrest hy) (List.append_cancel_left e)
        obtain ⟨rfl, e⟩ := ih h2 hx hy e
        exact ⟨rfl, e⟩
  rintro xs ys s t x y ⟨hne, ss, h1, rfl⟩ ⟨hne', ts, h2, rfl⟩ hx hy e
  cases h1 with
  | nil => exact absurd rfl hne
  | cons hT h1 =>
    cases h2 with
    | nil => exact absurd rfl hne'
    | cons hT' h2 =>
      rw [joinS_cons, joinS_cons, List.append_assoc, List.append_assoc] at e
      obtain ⟨rfl, e⟩ := h hT hT' (hrest hx) (hrest hy) e
      obtain ⟨rfl, e⟩ := tails h1 h2 hx hy e
      exact ⟨rfl, e⟩

theorem forall2_right {α β : Type} {r : α → β → Prop} {xs : List α} {ys : List β} (h : List.Forall₂ r xs ys)
    {y : β} (hy : y ∈ ys) : ∃ x ∈ xs, r x y := by
  induction h with
  | nil => cases hy
  | cons h1 _ ih =>
    rcases List.mem_cons.mp hy with rfl | hy
    · exact ⟨_, List.mem_cons_self, h1⟩
    · obtain ⟨x, hx, h⟩ := ih hy
      exact ⟨x, List.mem_cons_of_mem _ hx, h⟩

theorem list_ends {α : Type} {T : α → Str → Prop} {sep : Str} (h : ∀ {a t}, T a t → Ends t) {xs : List α}
    {t : Str} (ht : ListT T sep xs t) : Ends t := by
  obtain ⟨hne, ts, h1, rfl⟩ := ht
  refine ends_joinS ?_ ?_
  · rintro rfl
    cases h1
    exact hne rfl
  · intro t ht
    obtain ⟨a, _, ha⟩ := forall2_right h1 ht
    exact h ha

end SqlPuzzle
