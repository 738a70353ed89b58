import Verif.Proofs.Reference

/-!
`is_reference` recognises exactly the texts of `Spec.RefForm`; which of them are well quoted.
-/

namespace SqlPuzzle

open Spec Re

/-! ### strip -/

theorem dropWhile_append_all {α : Type} {p : α → Bool} {a b : List α} (h : ∀ c ∈ a, p c = true) :
    (a ++ b).dropWhile p = b.dropWhile p := by
  induction a with
  | nil => rfl
  | cons x xs ih =>
    have hx := h x (by simp)
    simp [hx, ih (fun c hc => h c (by simp [hc]))]

theorem dropWhile_self {α : Type} {p : α → Bool} {a : List α}
    (h : ∀ c, a.head? = some c → p c = false) : a.dropWhile p = a := by
  cases a with
  | nil => rfl
  | cons x xs => simp [h x rfl]

theorem dropWhile_split {α : Type} (p : α → Bool) (a : List α) :
    ∃ pre, a = pre ++ a.dropWhile p ∧ (∀ c ∈ pre, p c = true) ∧
      (∀ c, (a.dropWhile p).head? = some c → p c = false) := by
  induction a with
  | nil => exact ⟨[], rfl, by simp, by simp⟩
  | cons x xs ih =>
    by_cases hx : p x = true
    · obtain ⟨pre, h1, h2, h3⟩ := ih
      refine ⟨x :: pre, ?_, ?_, ?_⟩
      · simp only [List.dropWhile, hx, List.cons_append]; rw [← h1]
      · intro c hc
        rcases List.mem_cons.mp hc with rfl | hc
        · exact hx
        · exact h2 c hc
      · simpa only [List.dropWhile, hx] using h3
    · refine ⟨[], ?_, by simp, ?_⟩
      · simp [hx]
      · simp only [Bool.not_eq_true] at hx
        intro c hc
        simp only [List.dropWhile, hx, List.head?_cons, Option.some.injEq] at hc
        rw [← hc]; exact hx

theorem isWhite_eq : isWhite = isSpace := by
  funext c
  rw [Bool.eq_iff_iff]
  simp only [isWhite, isSpace, List.contains_iff_mem, List.mem_cons, List.not_mem_nil, Bool.or_eq_true,
    Bool.and_eq_true, decide_eq_true_eq, beq_iff_eq, or_false]
  omega

theorem strip_of_trimmed {s r : Str} (h : Trimmed isWhite s r) : strip s = r := by
  rw [isWhite_eq] at h
  obtain ⟨pre, post, rfl, h1, h2, h3, h4⟩ := h
  unfold strip
  rw [List.append_assoc, dropWhile_append_all h1]
  cases r with
  | nil =>
    simp only [List.nil_append]
    have := dropWhile_append_all (b := []) h2
    simp only [List.append_nil] at this
    rw [this]; rfl
  | cons x xs =>
    have hx : isSpace x = false := h3 x rfl
    have e : (x :: xs ++ post).dropWhile isSpace = x :: xs ++ post :=
      dropWhile_self (by intro c hc; simp at hc; rw [← hc]; exact hx)
    rw [e, List.reverse_append,
      dropWhile_append_all (by intro c hc; exact h2 c (by simpa using hc)), dropWhile_self,
      List.reverse_reverse]
    intro c hc
    apply h4
    rw [← hc, List.head?_reverse]

theorem strip_trimmed (s : Str) : Trimmed isWhite s (strip s) := by
  rw [isWhite_eq]
  obtain ⟨pre, h1, h2, h3⟩ := dropWhile_split isSpace s
  obtain ⟨post, k1, k2, k3⟩ := dropWhile_split isSpace (s.dropWhile isSpace).reverse
  have e : s.dropWhile isSpace = strip s ++ post.reverse := by
    have := congrArg List.reverse k1
    rw [List.reverse_reverse, List.reverse_append] at this
    exact this
  refine ⟨pre, post.reverse, ?_, h2, ?_, ?_, ?_⟩
  · rw [List.append_assoc, ← e, ← h1]
  · intro c hc; exact k2 c (by simpa using hc)
  · intro c hc
    apply h3
    rw [e]
    cases hs : strip s with
    | nil => rw [hs] at hc; simp at hc
    | cons x xs => rw [hs] at hc; simpa using hc
  · intro c hc
    apply k3
    unfold strip at hc
    rwa [List.getLast?_reverse] at hc

/-! ### The pattern -/

theorem lang_body {q : Char} {s : Str} :
    Lang (.plus (.alt (.cls (· != q)) (.seq (.chr q) (.chr q)))) s ↔ QuotedBody q s := by
  constructor
  · intro h
    have star : ∀ (r : Re) (t : Str), Lang r t →
        r = .star (.alt (.cls (· != q)) (.seq (.chr q) (.chr q))) → t = [] ∨ QuotedBody q t := by
      intro r t h
      induction h with
      | starNil => intro _; exact Or.inl rfl
      | @starCons a s t h1 h2 _ ih =>
        intro e
        injection e with e
        subst e
        right
        have ih' := ih rfl
        rcases lang_alt.mp h1 with h1 | h1
        · obtain ⟨c, rfl, hc⟩ := lang_cls.mp h1
          have hc' : c ≠ q := by simpa using hc
          rcases ih' with rfl | ih'
          · exact .one hc'
          · exact .chr hc' ih'
        · obtain ⟨u, v, rfl, hu, hv⟩ := lang_seq.mp h1
          rw [lang_chr] at hu hv
          subst hu; subst hv
          rcases ih' with rfl | ih'
          · exact .two
          · exact .dbl ih'
      | _ => intro e; cases e
    unfold plus at h
    obtain ⟨u, v, rfl, hu, hv⟩ := lang_seq.mp h
    have := star _ _ (Lang.starCons hu hv) rfl
    rcases this with h0 | h0
    · exfalso
      have hu0 : u = [] := (List.append_eq_nil_iff.mp h0).1
      subst hu0
      rcases lang_alt.mp hu with h1 | h1
      · obtain ⟨c, h, _⟩ := lang_cls.mp h1; cases h
      · obtain ⟨a, b, h, ha, _⟩ := lang_seq.mp h1
        rw [lang_chr] at ha; subst ha; cases h
    · exact h0
  · intro h
    unfold plus
    have one : ∀ c, c ≠ q → Lang (.alt (.cls (· != q)) (.seq (.chr q) (.chr q))) [c] := by
      intro c hc
      exact .altL (.cls (by simpa using hc))
    have two : Lang (.alt (.cls (· != q)) (.seq (.chr q) (.chr q))) [q, q] :=
      .altR (.seq (s := [q]) (t := [q]) (lang_chr.mpr rfl) (lang_chr.mpr rfl))
    have up : ∀ {r : Re} {s : Str}, Lang (.seq r (.star r)) s → Lang (.star r) s := by
      intro r s h
      obtain ⟨u, v, rfl, hu, hv⟩ := lang_seq.mp h
      exact .starCons hu hv
    induction h with
    | one hc => simpa using Lang.seq (one _ hc) .starNil
    | two => simpa using Lang.seq two .starNil
    | chr hc _ ih => exact Lang.seq (s := [_]) (one _ hc) (up ih)
    | dbl _ ih => exact Lang.seq (s := [q, q]) two (up ih)

theorem lang_quoted {q : Char} {s : Str} : Lang (reQuoted q) s ↔ QuotedSegment q s := by
  unfold reQuoted QuotedSegment
  rw [lang_seq]
  constructor
  · rintro ⟨u, v, rfl, hu, hv⟩
    rw [lang_chr] at hu
    subst hu
    obtain ⟨b, w, rfl, hb, hw⟩ := lang_seq.mp hv
    rw [lang_chr] at hw
    subst hw
    exact ⟨b, lang_body.mp hb, rfl⟩
  · rintro ⟨b, hb, rfl⟩
    exact ⟨[q], b ++ [q], rfl, lang_chr.mpr rfl, .seq (lang_body.mpr hb) (lang_chr.mpr rfl)⟩

theorem lang_bare {q : Char} {s : Str} : Lang (reBare q) s ↔ BareSegment q s := by
  unfold reBare BareSegment
  rw [lang_plus_cls]
  simp [and_assoc]

theorem lang_tail {q : Char} {s : Str} :
    Lang (.seq (.chr '.') (.alt (reQuoted q) (reBare q))) s ↔ TailSegment q s := by
  unfold TailSegment
  rw [lang_seq]
  constructor
  · rintro ⟨u, v, rfl, hu, hv⟩
    rw [lang_chr] at hu
    subst hu
    rw [lang_alt, lang_quoted, lang_bare] at hv
    exact ⟨v, hv, rfl⟩
  · rintro ⟨p, hp, rfl⟩
    refine ⟨['.'], p, rfl, lang_chr.mpr rfl, ?_⟩
    rw [lang_alt, lang_quoted, lang_bare]
    exact hp

theorem lang_reference {q : Char} {s : Str} : Lang (reReference q) s ↔ RefForm q s := by
  unfold reReference RefForm upTo2 opt
  rw [lang_seq]
  constructor
  · rintro ⟨a, v, rfl, ha, hv⟩
    rw [lang_quoted] at ha
    rcases lang_alt.mp hv with hv | hv
    · rw [lang_eps] at hv
      subst hv
      exact ⟨a, [], [], by simp, ha, Or.inl rfl, Or.inl rfl⟩
    · obtain ⟨b, c, rfl, hb, hc⟩ := lang_seq.mp hv
      rw [lang_tail] at hb
      refine ⟨a, b, c, by simp, ha, Or.inr hb, ?_⟩
      rcases lang_alt.mp hc with hc | hc
      · rw [lang_eps] at hc; exact Or.inl hc
      · rw [lang_tail] at hc
        refine Or.inr ⟨?_, hc⟩
        obtain ⟨p, _, rfl⟩ := hb
        simp
  · rintro ⟨a, b, c, rfl, ha, hb, hc⟩
    refine ⟨a, b ++ c, by simp, lang_quoted.mpr ha, ?_⟩
    rcases hb with rfl | hb
    · rcases hc with rfl | ⟨h, _⟩
      · exact .altL .eps
      · exact absurd rfl h
    · refine .altR (.seq (lang_tail.mpr hb) ?_)
      rcases hc with rfl | ⟨_, hc⟩
      · exact .altL .eps
      · exact .altR (lang_tail.mpr hc)

/-- `is_reference(s)` holds iff `s` without surrounding white space has the form of a reference. -/
theorem isReference_iff {q : Char} {s : Str} :
    isReference q s = true ↔ ∃ r, Trimmed isWhite s r ∧ RefForm q r := by
  unfold isReference
  rw [fullmatch_iff, lang_reference]
  constructor
  · intro h; exact ⟨_, strip_trimmed s, h⟩
  · rintro ⟨r, h1, h2⟩; rw [strip_of_trimmed h1]; exact h2

/-- A reference contains the quote character. -/
theorem refForm_mem {q : Char} {s : Str} (h : RefForm q s) : q ∈ s := by
  obtain ⟨a, b, c, rfl, ⟨x, _, rfl⟩, _, _⟩ := h
  simp

theorem isReference_of_notMem {q : Char} {s : Str} (h : q ∉ s) : isReference q s = false := by
  rw [← Bool.not_eq_true, isReference_iff]
  rintro ⟨r, ⟨pre, post, rfl, _⟩, hr⟩
  exact h (by simp [refForm_mem hr])

/-! ### References without doubled quotes are well quoted -/

theorem quotedBody_notMem {q : Char} {b : Str} (h : QuotedBody q b) (hd : ¬ HasDoubled q b) :
    b ≠ [] ∧ q ∉ b := by
  induction h with
  | one hc => exact ⟨by simp, by simpa using fun e => hc e.symm⟩
  | two => exact absurd ⟨[], [], rfl⟩ hd
  | @chr c s hc _ ih =>
    have : ¬ HasDoubled q s := by
      rintro ⟨a, b, rfl⟩
      exact hd ⟨c :: a, b, rfl⟩
    refine ⟨by simp, ?_⟩
    simp only [List.mem_cons, not_or]
    exact ⟨fun e => hc e.symm, (ih this).2⟩
  | @dbl s _ _ => exact absurd ⟨[], s, rfl⟩ hd

theorem HasDoubled.infix {q : Char} {a b c : Str} (h : HasDoubled q b) :
    HasDoubled q (a ++ b ++ c) := by
  obtain ⟨x, y, rfl⟩ := h
  exact ⟨a ++ x, y ++ c, by simp⟩

theorem quotedSegment_wellQuoted {q : Char} {s : Str} (h : QuotedSegment q s)
    (hd : ¬ HasDoubled q s) : WellQuoted q s := by
  obtain ⟨b, hb, rfl⟩ := h
  have : ¬ HasDoubled q b := by
    intro k
    exact hd (by simpa using HasDoubled.infix (a := [q]) (c := [q]) k)
  obtain ⟨h1, h2⟩ := quotedBody_notMem hb this
  exact .quoted h1 h2 .nil

theorem tailSegment_wellQuoted {q : Char} (hq : q ≠ '.') {s : Str} (h : TailSegment q s)
    (hd : ¬ HasDoubled q s) : WellQuoted q s := by
  obtain ⟨p, hp, rfl⟩ := h
  refine .chr (fun e => hq e.symm) ?_
  rcases hp with hp | hp
  · apply quotedSegment_wellQuoted hp
    intro k
    exact hd (by simpa using HasDoubled.infix (a := ['.']) (c := []) k)
  · apply wellQuoted_of_notMem
    intro hm
    exact (hp.2 q hm).1 rfl

theorem refForm_wellQuoted {q : Char} (hq : q ≠ '.') {s : Str} (h : RefForm q s)
    (hd : ¬ HasDoubled q s) : WellQuoted q s := by
  obtain ⟨a, b, c, rfl, ha, hb, hc⟩ := h
  have wa : WellQuoted q a := by
    apply quotedSegment_wellQuoted ha
    intro k
    exact hd (by simpa using HasDoubled.infix (a := []) (c := b ++ c) k)
  have wb : WellQuoted q b := by
    rcases hb with rfl | hb
    · exact .nil
    · apply tailSegment_wellQuoted hq hb
      intro k
      exact hd (HasDoubled.infix k)
  have wc : WellQuoted q c := by
    rcases hc with rfl | ⟨_, hc⟩
    · exact .nil
    · apply tailSegment_wellQuoted hq hc
      intro k
      exact hd (by simpa using HasDoubled.infix (a := a ++ b) (c := []) k)
  exact (wa.append wb).append wc

theorem isReference_wellQuoted {q : Char} (hq : q ≠ '.') (hsp : isWhite q = false) {s : Str}
    (h : isReference q s = true) (hd : ¬ HasDoubled q s) : WellQuoted q s := by
  obtain ⟨r, ⟨pre, post, rfl, h1, h2, _, _⟩, hr⟩ := isReference_iff.mp h
  have sp : ∀ t : Str, (∀ c ∈ t, isWhite c = true) → WellQuoted q t := by
    intro t ht
    apply wellQuoted_of_notMem
    intro hm
    rw [ht q hm] at hsp
    cases hsp
  refine ((sp pre h1).append ?_).append (sp post h2)
  exact refForm_wellQuoted hq hr (fun k => hd (HasDoubled.infix k))

end SqlPuzzle
