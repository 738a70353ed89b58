import Verif.Proofs.HasFacts
import Verif.Spec.Pattern

/-!
The search of `has()` for a value with special characters.
-/

namespace SqlPuzzle.PatternFacts

open SqlPuzzle Spec

variable {isWord : Char → Bool}

/-! ### The positions a match can end at -/

theorem lists_iff {i : SetItem} {c : Char} : i.fits isWord c = true ↔ Lists isWord i c := by
  constructor
  · intro h
    cases i with
    | chr d => rw [show d = c by simpa [SetItem.fits] using h]; exact .chr
    | range lo hi =>
      have h : lo ≤ c ∧ c ≤ hi := by simpa [SetItem.fits] using h
      exact .range h.1 h.2
    | word => exact .word h
    | nonWord => exact .nonWord (by simpa [SetItem.fits] using h)
  · intro h
    cases h with
    | chr => simp [SetItem.fits]
    | range h1 h2 => simp [SetItem.fits, h1, h2]
    | word h => exact h
    | nonWord h => simpa [SetItem.fits] using h

theorem fits_iff {k : CharPat} {b : Bool} {c : Char} {cs : Str} {p : TextPos} :
    (k.fits isWord c = true ∧ p = (false, cs)) ↔ Matches isWord (.one k) (b, c :: cs) p := by
  constructor
  · rintro ⟨h, rfl⟩
    cases k with
    | chr d => rw [show d = c by simpa [CharPat.fits] using h]; exact .chr
    | any => exact .any (by simpa [CharPat.fits] using h)
    | nonWord => exact .nonWord (by simpa [CharPat.fits] using h)
    | word => exact .word h
    | set neg items =>
      have h : (neg != items.any fun i => i.fits isWord c) = true := h
      cases neg with
      | false =>
        obtain ⟨i, h1, h2⟩ := List.any_eq_true.mp (by simpa using h)
        exact .inSet ⟨i, h1, lists_iff.mp h2⟩
      | true =>
        refine .notInSet fun i h1 h2 => ?_
        have : (items.any fun i => i.fits isWord c) = true :=
          List.any_eq_true.mpr ⟨i, h1, lists_iff.mpr h2⟩
        rw [this] at h
        cases h
  · intro h
    cases h with
    | chr => exact ⟨by simp [CharPat.fits], rfl⟩
    | any h => exact ⟨by simpa [CharPat.fits] using h, rfl⟩
    | nonWord h => exact ⟨by simpa [CharPat.fits] using h, rfl⟩
    | word h => exact ⟨h, rfl⟩
    | inSet h =>
      rename_i items
      obtain ⟨i, h1, h2⟩ := h
      have : (items.any fun i => i.fits isWord c) = true :=
        List.any_eq_true.mpr ⟨i, h1, lists_iff.mpr h2⟩
      refine ⟨?_, rfl⟩
      show (false != items.any fun i => i.fits isWord c) = true
      rw [this]; rfl
    | notInSet h =>
      rename_i items
      have : (items.any fun i => i.fits isWord c) = false :=
        List.any_eq_false.mpr fun i h1 h2 => h i h1 (lists_iff.mp h2)
      refine ⟨?_, rfl⟩
      show (true != items.any fun i => i.fits isWord c) = true
      rw [this]; rfl

/-- A match uses up text or stays where it is. -/
theorem matches_le {r : Pat} {p p' : TextPos} (h : Matches isWord r p p') :
    p' = p ∨ p'.2.length < p.2.length := by
  induction h with
  | eps | bol | eol | eolNewline | eos | done => exact .inl rfl
  | chr | any | nonWord | word | inSet | notInSet => right; simp
  | seq _ _ h1 h2 | more _ _ h1 h2 =>
    rcases h1 with rfl | h1
    · exact h2
    · rcases h2 with rfl | h2
      · exact .inr h1
      · exact .inr (by omega)
  | left _ h | right _ h => exact h

theorem mem_starEnds {r : Pat} {f : TextPos → List TextPos}
    (hf : ∀ p p', p' ∈ f p ↔ Matches isWord r p p') :
    ∀ (n : Nat) (p p' : TextPos), p.2.length ≤ n →
      (p' ∈ starEnds f n p ↔ Matches isWord (.star r) p p') := by
  have sound : ∀ (n : Nat) (p p' : TextPos), p' ∈ starEnds f n p → Matches isWord (.star r) p p' := by
    intro n
    induction n with
    | zero => intro p p' h; rw [List.mem_singleton.mp h]; exact .done
    | succ n ih =>
      intro p p' h
      rcases List.mem_cons.mp h with rfl | h
      · exact .done
      · obtain ⟨m, hm, h⟩ := List.mem_flatMap.mp h
        split at h
        · exact .more ((hf p m).mp hm) (ih m p' h)
        · cases h
  have self : ∀ n p, p ∈ starEnds f n p := fun n p => by cases n <;> simp [starEnds]
  have complete : ∀ (q : Pat) (p p' : TextPos), Matches isWord q p p' → q = .star r →
      ∀ n, p.2.length ≤ n → p' ∈ starEnds f n p := by
    intro q p p' h
    induction h with
    | done => intro _ n _; exact self n _
    | @more _ p m p' h1 h2 _ ih =>
      intro e n hn
      cases e
      rcases matches_le h1 with rfl | hlt
      · exact ih rfl n hn
      · cases n with
        | zero => omega
        | succ n =>
          refine List.mem_cons_of_mem _ (List.mem_flatMap.mpr ⟨m, (hf _ _).mpr h1, ?_⟩)
          rw [if_pos hlt]
          exact ih rfl n (by omega)
    | _ => intro e; cases e
  exact fun n p p' hn => ⟨sound n p p', fun h => complete _ p p' h rfl n hn⟩

theorem mem_ends (r : Pat) : ∀ p p' : TextPos, p' ∈ r.ends isWord p ↔ Matches isWord r p p' := by
  induction r with
  | eps =>
    intro p p'
    constructor
    · intro h; rw [List.mem_singleton.mp h]; exact .eps
    · intro h; cases h; exact List.mem_singleton.mpr rfl
  | one k =>
    rintro ⟨b, _ | ⟨c, cs⟩⟩ p'
    · constructor
      · intro h; cases h
      · intro h; cases h
    · rw [← fits_iff]
      show p' ∈ (if k.fits isWord c then [(false, cs)] else []) ↔ _
      by_cases h : k.fits isWord c = true <;> simp [h]
  | bol =>
    rintro ⟨b, t⟩ p'
    cases b with
    | true =>
      constructor
      · intro h
        have h : p' ∈ [(true, t)] := h
        rw [List.mem_singleton.mp h]; exact .bol
      · intro h; cases h; exact List.mem_singleton.mpr rfl
    | false =>
      constructor
      · intro h; cases h
      · intro h; cases h
  | eol =>
    rintro ⟨b, t⟩ p'
    show p' ∈ (if t = [] ∨ t = ['\n'] then [(b, t)] else []) ↔ _
    constructor
    · intro h
      split at h
      · rename_i ht
        rw [List.mem_singleton.mp h]
        rcases ht with rfl | rfl
        · exact .eol
        · exact .eolNewline
      · cases h
    · intro h
      cases h with
      | eol => simp
      | eolNewline => simp
  | eos =>
    rintro ⟨b, t⟩ p'
    show p' ∈ (if t = [] then [(b, t)] else []) ↔ _
    constructor
    · intro h
      split at h
      · rename_i ht
        rw [List.mem_singleton.mp h, ht]
        exact .eos
      · cases h
    · intro h
      cases h
      simp
  | seq a b iha ihb =>
    intro p p'
    show p' ∈ (a.ends isWord p).flatMap (b.ends isWord) ↔ _
    rw [List.mem_flatMap]
    constructor
    · rintro ⟨m, h1, h2⟩; exact .seq ((iha _ _).mp h1) ((ihb _ _).mp h2)
    · intro h
      cases h with
      | seq h1 h2 => exact ⟨_, (iha _ _).mpr h1, (ihb _ _).mpr h2⟩
  | alt a b iha ihb =>
    intro p p'
    show p' ∈ a.ends isWord p ++ b.ends isWord p ↔ _
    rw [List.mem_append, iha, ihb]
    constructor
    · rintro (h | h)
      · exact .left h
      · exact .right h
    · intro h
      cases h with
      | left h => exact .inl h
      | right h => exact .inr h
  | star a ih =>
    intro p p'
    exact mem_starEnds ih p.2.length p p' (Nat.le_refl _)

/-- The positions of a text: all its ends, the first one marked. -/
theorem mem_positions (t : Str) (b : Bool) (p : TextPos) :
    p ∈ positions b t ↔ ∃ a, t = a ++ p.2 ∧ p.1 = (b && a.isEmpty) := by
  induction t generalizing b with
  | nil =>
    show p ∈ [(b, [])] ↔ _
    rw [List.mem_singleton]
    constructor
    · rintro rfl; exact ⟨[], rfl, by simp⟩
    · rintro ⟨a, h1, h2⟩
      obtain ⟨rfl, h3⟩ := List.append_eq_nil_iff.mp h1.symm
      exact Prod.ext (by simpa using h2) h3
  | cons c cs ih =>
    show p ∈ (b, c :: cs) :: positions false cs ↔ _
    rw [List.mem_cons, ih]
    constructor
    · rintro (rfl | ⟨a, h1, h2⟩)
      · exact ⟨[], rfl, by simp⟩
      · exact ⟨c :: a, by rw [h1]; rfl, by simpa using h2⟩
    · rintro ⟨a, h1, h2⟩
      cases a with
      | nil => left; exact Prod.ext (by simpa using h2) h1.symm
      | cons d a => right; cases h1; exact ⟨a, rfl, by simpa using h2⟩

theorem search_iff (r : Pat) (t : Str) :
    patSearch isWord r t = true ↔
      ∃ a b p', t = a ++ b ∧ Matches isWord r (a.isEmpty, b) p' := by
  unfold patSearch
  rw [List.any_eq_true]
  constructor
  · rintro ⟨p, hp, h⟩
    obtain ⟨a, h1, h2⟩ := (mem_positions t true p).mp hp
    cases he : r.ends isWord p with
    | nil => rw [he] at h; cases h
    | cons p' l =>
      have := (mem_ends r p p').mp (by rw [he]; simp)
      refine ⟨a, p.2, p', h1, ?_⟩
      rwa [show (a.isEmpty, p.2) = p from Prod.ext (by simpa using h2.symm) rfl]
  · rintro ⟨a, b, p', h1, h2⟩
    refine ⟨(a.isEmpty, b), (mem_positions t true _).mpr ⟨a, h1, by simp⟩, ?_⟩
    have := (mem_ends r _ p').mpr h2
    cases he : r.ends isWord (a.isEmpty, b) with
    | nil => rw [he] at this; cases this
    | cons => rfl

/-! ### Reading a pattern of ordinary characters, dots and parentheses -/

theorem matches_seq {a b : Pat} {p p' : TextPos} :
    Matches isWord (.seq a b) p p' ↔ ∃ m, Matches isWord a p m ∧ Matches isWord b m p' := by
  constructor
  · intro h
    cases h with
    | seq h1 h2 => exact ⟨_, h1, h2⟩
  · rintro ⟨m, h1, h2⟩; exact .seq h1 h2

theorem matches_eps {p p' : TextPos} : Matches isWord .eps p p' ↔ p' = p :=
  ⟨fun h => by cases h; rfl, fun h => h ▸ .eps⟩

theorem fold_seq (cur : List (PatKind × Pat)) (r : Pat) (p p' : TextPos) :
    Matches isWord (cur.foldl (fun r x => .seq x.2 r) r) p p' ↔
      ∃ m, Matches isWord (seqOf cur) p m ∧ Matches isWord r m p' := by
  induction cur generalizing r p' with
  | nil =>
    constructor
    · intro h; exact ⟨p, .eps, h⟩
    · rintro ⟨m, h1, h2⟩; rw [matches_eps.mp h1] at h2; exact h2
  | cons x cur ih =>
    unfold seqOf
    rw [List.foldl_cons, List.foldl_cons, ih]
    constructor
    · rintro ⟨m, h1, h2⟩
      obtain ⟨m', h2, h3⟩ := matches_seq.mp h2
      exact ⟨m', (ih _ _).mpr ⟨m, h1, .seq h2 .eps⟩, h3⟩
    · rintro ⟨m', h1, h2⟩
      obtain ⟨m, h1, h3⟩ := (ih _ _).mp h1
      obtain ⟨m'', h3, h4⟩ := matches_seq.mp h3
      rw [matches_eps.mp h4] at h2
      exact ⟨m, h1, .seq h3 h2⟩

theorem seqOf_cons (x : PatKind × Pat) (cur : List (PatKind × Pat)) (p p' : TextPos) :
    Matches isWord (seqOf (x :: cur)) p p' ↔
      ∃ m, Matches isWord (seqOf cur) p m ∧ Matches isWord x.2 m p' := by
  unfold seqOf
  rw [List.foldl_cons, fold_seq]
  constructor
  · rintro ⟨m, h1, h2⟩
    obtain ⟨m', h2, h3⟩ := matches_seq.mp h2
    rw [matches_eps.mp h3]
    exact ⟨m, h1, h2⟩
  · rintro ⟨m, h1, h2⟩; exact ⟨m, h1, .seq h2 .eps⟩

/-- What has been read so far, through all open groups. -/
def Den (isWord : Char → Bool) (f : PatFrame) : List PatFrame → TextPos → TextPos → Prop
  | [], p, p' => Matches isWord (seqOf f.cur) p p'
  | g :: stack, p, p' => ∃ m, Den isWord g stack p m ∧ Matches isWord (seqOf f.cur) m p'

/-- No alternatives so far. -/
def NoAlts (f : PatFrame) (stack : List PatFrame) : Prop :=
  f.alts = [] ∧ ∀ g ∈ stack, g.alts = []

theorem den_push (f : PatFrame) (stack : List PatFrame) (x : PatKind × Pat) (p p' : TextPos) :
    Den isWord { f with cur := x :: f.cur } stack p p' ↔
      ∃ m, Den isWord f stack p m ∧ Matches isWord x.2 m p' := by
  cases stack with
  | nil => exact seqOf_cons x f.cur p p'
  | cons g stack =>
    constructor
    · rintro ⟨m, h1, h2⟩
      obtain ⟨m', h2, h3⟩ := (seqOf_cons x f.cur m p').mp h2
      exact ⟨m', ⟨m, h1, h2⟩, h3⟩
    · rintro ⟨m', ⟨m, h1, h2⟩, h3⟩
      exact ⟨m, h1, (seqOf_cons x f.cur m p').mpr ⟨m', h2, h3⟩⟩

/-- The text between two positions, for a value without parentheses. -/
def Spans (v : Str) (p p' : TextPos) : Prop :=
  ∃ w, DotsFor v w ∧ p.2 = w ++ p'.2 ∧ p'.1 = (p.1 && w.isEmpty)

theorem spans_nil {p p' : TextPos} : Spans [] p p' ↔ p' = p := by
  constructor
  · rintro ⟨w, h1, h2, h3⟩
    cases h1
    exact Prod.ext (by simpa using h3) h2.symm
  · rintro rfl; exact ⟨[], .nil, rfl, by simp⟩

theorem spans_cons {d : Char} {v : Str} {p p' : TextPos} :
    Spans (d :: v) p p' ↔ ∃ m, (∃ c, (d = c ∨ d = '.' ∧ c ≠ '\n') ∧ p.2 = c :: m.2 ∧ m.1 = false) ∧
      Spans v m p' := by
  constructor
  · rintro ⟨w, h1, h2, h3⟩
    cases h1 with
    | cons h h1 =>
      rename_i c w
      refine ⟨(false, w ++ p'.2), ⟨c, h, h2, rfl⟩, w, h1, rfl, by simpa using h3⟩
  · rintro ⟨m, ⟨c, h, h2, h3⟩, w, h4, h5, h6⟩
    exact ⟨c :: w, .cons h h4, by rw [h2, h5]; rfl, by rw [h6, h3]; simp⟩

theorem patTok_ordinary {c : Char} (h : Ordinary c) : patTok c = .one (.chr c) := by
  unfold Ordinary at h
  have hc : ∀ d ∈ L!"\\^$.|?*+()[]{}", c ≠ d := fun d hd e => h (e ▸ hd)
  unfold patTok
  split <;> first | rfl | (exfalso; exact hc _ (by decide) rfl)

/-- Depth after a text of parentheses, `none` if one closes nothing. -/
def depthAfter : Nat → Str → Option Nat
  | d, [] => some d
  | d, c :: cs =>
    if c = '(' then depthAfter (d + 1) cs
    else if c = ')' then (match d with | 0 => none | d + 1 => depthAfter d cs)
    else depthAfter d cs

theorem read_simple {v : Str} (hv : Simple v) (rest : List (R PatTok)) :
    ∀ (f : PatFrame) (stack : List PatFrame), NoAlts f stack →
      match depthAfter stack.length v with
      | none => patRead f stack (v.map (fun c => .ok (patTok c)) ++ rest) = .error .patternError
      | some d => ∃ f' stack', patRead f stack (v.map (fun c => .ok (patTok c)) ++ rest) = patRead f' stack' rest ∧
          NoAlts f' stack' ∧ stack'.length = d ∧
          ∀ isWord p p', Den isWord f' stack' p p' ↔
            ∃ m, Den isWord f stack p m ∧ Spans (withoutParens v) m p' := by
  induction v with
  | nil =>
    intro f stack h
    refine ⟨f, stack, rfl, h, rfl, fun isWord p p' => ?_⟩
    show _ ↔ ∃ m, _ ∧ Spans [] m p'
    constructor
    · intro h; exact ⟨p', h, spans_nil.mpr rfl⟩
    · rintro ⟨m, h1, h2⟩; rw [spans_nil.mp h2]; exact h1
  | cons c v ih =>
    intro f stack h
    have hv' : Simple v := fun d hd => hv d (by simp [hd])
    have one : ∀ k : CharPat, patTok c = .one k → c ≠ '(' → c ≠ ')' →
        (∀ isWord (p p' : TextPos), Matches isWord (.one k) p p' ↔
          ∃ e, (c = e ∨ c = '.' ∧ e ≠ '\n') ∧ p.2 = e :: p'.2 ∧ p'.1 = false) →
        match depthAfter stack.length (c :: v) with
        | none => patRead f stack ((c :: v).map (fun c => .ok (patTok c)) ++ rest) = .error .patternError
        | some d => ∃ f' stack', patRead f stack ((c :: v).map (fun c => .ok (patTok c)) ++ rest) =
              patRead f' stack' rest ∧
            NoAlts f' stack' ∧ stack'.length = d ∧
            ∀ isWord p p', Den isWord f' stack' p p' ↔
              ∃ m, Den isWord f stack p m ∧ Spans (withoutParens (c :: v)) m p' := by
      intro k hk h1 h2 hm
      have e1 : depthAfter stack.length (c :: v) = depthAfter stack.length v := by
        show (if c = '(' then _ else _) = _
        rw [if_neg h1, if_neg h2]
      have e2 : patRead f stack ((c :: v).map (fun c => .ok (patTok c)) ++ rest) =
          patRead { f with cur := (.item, .one k) :: f.cur } stack (v.map (fun c => .ok (patTok c)) ++ rest) := by
        show patRead f stack (.ok (patTok c) :: (v.map (fun c => .ok (patTok c)) ++ rest)) = _
        rw [hk]; rfl
      have e3 : withoutParens (c :: v) = c :: withoutParens v := by
        unfold withoutParens
        rw [List.filter_cons_of_pos (by simp [h1, h2])]
      have := ih hv' { f with cur := (.item, .one k) :: f.cur } stack h
      rw [e1, e2]
      generalize depthAfter stack.length v = o at this
      cases o with
      | none => exact this
      | some d =>
        obtain ⟨f', stack', g1, g2, g3, g4⟩ := this
        refine ⟨f', stack', g1, g2, g3, fun isWord p p' => ?_⟩
        rw [g4, e3]
        constructor
        · rintro ⟨m, h5, h6⟩
          obtain ⟨m', h5, h7⟩ := (den_push f stack _ p m).mp h5
          exact ⟨m', h5, spans_cons.mpr ⟨m, (hm isWord m' m).mp h7, h6⟩⟩
        · rintro ⟨m', h5, h6⟩
          obtain ⟨m, h7, h6⟩ := spans_cons.mp h6
          exact ⟨m, (den_push f stack _ p m).mpr ⟨m', h5, (hm isWord m' m).mpr h7⟩, h6⟩
    by_cases ho : c = '('
    · subst ho
      have := ih hv' {} (f :: stack) ⟨rfl, fun g hg => by
        rcases List.mem_cons.mp hg with rfl | hg
        · exact h.1
        · exact h.2 g hg⟩
      show match depthAfter (stack.length + 1) v with
        | none => patRead {} (f :: stack) (v.map (fun c => .ok (patTok c)) ++ rest) = _
        | some d => ∃ f' stack', patRead {} (f :: stack) (v.map (fun c => .ok (patTok c)) ++ rest) = _ ∧ _
      have e3 : withoutParens ('(' :: v) = withoutParens v := by
        unfold withoutParens
        rw [List.filter_cons_of_neg (by simp)]
      rw [show (f :: stack).length = stack.length + 1 from rfl] at this
      generalize depthAfter (stack.length + 1) v = o at this
      cases o with
      | none => exact this
      | some d =>
        obtain ⟨f', stack', g1, g2, g3, g4⟩ := this
        refine ⟨f', stack', g1, g2, g3, fun isWord p p' => ?_⟩
        rw [g4, e3]
        constructor
        · rintro ⟨m, ⟨m', h5, h6⟩, h7⟩
          rw [matches_eps.mp h6] at h7
          exact ⟨m', h5, h7⟩
        · rintro ⟨m, h5, h6⟩; exact ⟨m, ⟨m, h5, .eps⟩, h6⟩
    · by_cases hcl : c = ')'
      · subst hcl
        have e3 : withoutParens (')' :: v) = withoutParens v := by
          unfold withoutParens
          rw [List.filter_cons_of_neg (by simp)]
        cases stack with
        | nil => exact (rfl : patRead f [] ((')' :: v).map (fun c => .ok (patTok c)) ++ rest) = .error .patternError)
        | cons g stack =>
          have ha : framePat f = seqOf f.cur := by unfold framePat; rw [h.1]; rfl
          have := ih hv' { g with cur := (.item, framePat f) :: g.cur } stack
            ⟨h.2 g (by simp), fun x hx => h.2 x (by simp [hx])⟩
          show match depthAfter stack.length v with
            | none => patRead { g with cur := (.item, framePat f) :: g.cur } stack
                (v.map (fun c => .ok (patTok c)) ++ rest) = _
            | some d => ∃ f' stack', patRead { g with cur := (.item, framePat f) :: g.cur } stack
                (v.map (fun c => .ok (patTok c)) ++ rest) = _ ∧ _
          generalize depthAfter stack.length v = o at this
          cases o with
          | none => exact this
          | some d =>
            obtain ⟨f', stack', g1, g2, g3, g4⟩ := this
            refine ⟨f', stack', g1, g2, g3, fun isWord p p' => ?_⟩
            rw [g4, e3]
            constructor
            · rintro ⟨m, h5, h6⟩
              obtain ⟨m', h5, h7⟩ := (den_push g stack _ p m).mp h5
              exact ⟨m, ⟨m', h5, by rwa [ha] at h7⟩, h6⟩
            · rintro ⟨m, ⟨m', h5, h7⟩, h6⟩
              exact ⟨m, (den_push g stack _ p m).mpr ⟨m', h5, by rwa [ha]⟩, h6⟩
      · rcases hv c (by simp) with hc | rfl | rfl | rfl
        · refine one (.chr c) (patTok_ordinary hc) ho hcl fun isWord p p' => ?_
          constructor
          · intro h; cases h; exact ⟨c, .inl rfl, rfl, rfl⟩
          · rintro ⟨e, h1, h2, h3⟩
            obtain ⟨b, t⟩ := p
            obtain ⟨b', t'⟩ := p'
            have h3 : b' = false := h3
            have h2 : t = e :: t' := h2
            subst h3 h2
            rcases h1 with rfl | ⟨rfl, _⟩
            · exact .chr
            · exact absurd (by decide) hc
        · refine one .any rfl ho hcl fun isWord p p' => ?_
          constructor
          · intro h
            cases h with
            | any h => exact ⟨_, .inr ⟨rfl, h⟩, rfl, rfl⟩
          · rintro ⟨e, h1, h2, h3⟩
            obtain ⟨b, t⟩ := p
            obtain ⟨b', t'⟩ := p'
            have h3 : b' = false := h3
            have h2 : t = e :: t' := h2
            subst h3 h2
            rcases h1 with rfl | ⟨_, h⟩
            · exact .any (by decide)
            · exact .any h
        · exact absurd rfl ho
        · exact absurd rfl hcl

theorem depth_iff (v : Str) : ∀ d d' : Nat, depthAfter d v = some d' ↔
    (∀ a b, v = a ++ b → a.count ')' ≤ d + a.count '(') ∧
      d' + v.count ')' = d + v.count '(' := by
  induction v with
  | nil =>
    intro d d'
    show some d = some d' ↔ _
    constructor
    · intro h
      cases h
      refine ⟨fun a b h => ?_, rfl⟩
      obtain ⟨rfl, _⟩ := List.append_eq_nil_iff.mp h.symm
      simp
    · rintro ⟨_, h⟩
      simp at h
      rw [h]
  | cons c v ih =>
    intro d d'
    have split : ∀ k : Nat, (∀ a b, v = a ++ b → a.count ')' ≤ k + a.count '(') →
        ((c :: []).count ')' + k ≤ d + (c :: []).count '(') →
        ∀ a b, c :: v = a ++ b → a.count ')' ≤ d + a.count '(' := by
      intro k h1 h2 a b e
      cases a with
      | nil => simp
      | cons x a =>
        cases e
        have := h1 a b rfl
        rw [← List.singleton_append, List.count_append, List.count_append]
        omega
    by_cases ho : c = '('
    · subst ho
      show depthAfter (d + 1) v = some d' ↔ _
      rw [ih]
      simp only [List.count_cons, beq_self_eq_true, if_true]
      constructor
      · rintro ⟨h1, h2⟩
        exact ⟨split (d + 1) h1 (by simp), by simp; omega⟩
      · rintro ⟨h1, h2⟩
        refine ⟨fun a b e => ?_, by simp at h2; omega⟩
        have := h1 ('(' :: a) b (by rw [e]; rfl)
        simp at this
        omega
    · by_cases hc : c = ')'
      · subst hc
        cases d with
        | zero =>
          show (none : Option Nat) = some d' ↔ _
          constructor
          · intro h; cases h
          · rintro ⟨h1, _⟩
            have := h1 [')'] v rfl
            simp at this
        | succ d =>
          show depthAfter d v = some d' ↔ _
          rw [ih]
          simp only [List.count_cons, beq_self_eq_true, if_true]
          constructor
          · rintro ⟨h1, h2⟩
            exact ⟨split d h1 (by simp; omega), by simp; omega⟩
          · rintro ⟨h1, h2⟩
            refine ⟨fun a b e => ?_, by simp at h2; omega⟩
            have := h1 (')' :: a) b (by rw [e]; rfl)
            simp at this
            omega
      · have e1 : depthAfter d (c :: v) = depthAfter d v := by
          show (if c = '(' then _ else _) = _
          rw [if_neg ho, if_neg hc]
        have e2 : (c :: []).count ')' = 0 ∧ (c :: []).count '(' = 0 := by
          simp [ho, hc]
        rw [e1, ih]
        have e3 : ∀ u : Str, (c :: u).count ')' = u.count ')' ∧ (c :: u).count '(' = u.count '(' := by
          intro u
          rw [← List.singleton_append, List.count_append, List.count_append]
          omega
        rw [(e3 v).1, (e3 v).2]
        constructor
        · rintro ⟨h1, h2⟩
          exact ⟨split d h1 (by omega), h2⟩
        · rintro ⟨h1, h2⟩
          refine ⟨fun a b e => ?_, h2⟩
          have := h1 (c :: a) b (by rw [e]; rfl)
          rw [(e3 a).1, (e3 a).2] at this
          exact this

theorem parens_iff (v : Str) : ParensMatch v ↔ depthAfter 0 v = some 0 := by
  rw [depth_iff]
  unfold ParensMatch
  simp

/-- The group before the value. -/
def before : Pat := .alt (.seq (.one (.set true [.word])) .eps) (.seq .bol .eps)

/-- The group after the value. -/
def after : Pat := .alt (.seq (.one (.set true [.word])) .eps) (.seq .eol .eps)

theorem notWord_iff {b : Bool} {c : Char} {cs : Str} {m : TextPos} :
    Matches isWord (.one (.set true [.word])) (b, c :: cs) m ↔
      isWord c = false ∧ m = (false, cs) := by
  rw [← fits_iff]
  simp [CharPat.fits, SetItem.fits]

theorem before_iff {p m : TextPos} : Matches isWord before p m ↔
    (∃ c, isWord c = false ∧ p.2 = c :: m.2 ∧ m.1 = false) ∨ (p.1 = true ∧ m = p) := by
  constructor
  · intro h
    cases h with
    | left h =>
      obtain ⟨x, h, h'⟩ := matches_seq.mp h
      cases matches_eps.mp h'
      obtain ⟨b, t⟩ := p
      cases t with
      | nil => cases h
      | cons c cs =>
        obtain ⟨hw, rfl⟩ := notWord_iff.mp h
        exact .inl ⟨_, hw, rfl, rfl⟩
    | right h =>
      obtain ⟨x, h, h'⟩ := matches_seq.mp h
      cases matches_eps.mp h'
      cases h
      exact .inr ⟨rfl, rfl⟩
  · obtain ⟨b, t⟩ := p
    obtain ⟨b', t'⟩ := m
    rintro (⟨c, h1, h2, h3⟩ | ⟨h1, h2⟩)
    · have h3 : b' = false := h3
      have h2 : t = c :: t' := h2
      subst h3 h2
      exact .left (.seq (notWord_iff.mpr ⟨h1, rfl⟩) .eps)
    · have h1 : b = true := h1
      cases h2
      subst h1
      exact .right (.seq .bol .eps)

theorem after_iff (hn : isWord '\n' = false) {p : TextPos} :
    (∃ m, Matches isWord after p m) ↔ ∀ c, p.2.head? = some c → isWord c = false := by
  obtain ⟨b, t⟩ := p
  constructor
  · rintro ⟨m, h⟩ c hc
    cases h with
    | left h =>
      obtain ⟨x, h, h'⟩ := matches_seq.mp h
      cases t with
      | nil => cases h
      | cons d cs => cases hc; exact (notWord_iff.mp h).1
    | right h =>
      obtain ⟨x, h, h'⟩ := matches_seq.mp h
      cases h with
      | eol => cases hc
      | eolNewline => cases hc; exact hn
  · intro h
    cases t with
    | nil => exact ⟨_, .right (.seq .eol .eps)⟩
    | cons c cs => exact ⟨_, .left (.seq (notWord_iff.mpr ⟨h c rfl, rfl⟩) .eps)⟩

/-! ### Reading the characters -/

/-- The parts of the pattern after the value. -/
def tailToks : List (R PatTok) :=
  [.ok .open_, .ok (.one (.set true [.word])), .ok .bar, .ok .eol, .ok .close]

theorem lex_nil (n : Nat) : patLex n [] = [] := by cases n <;> rfl

theorem lex_tail (n : Nat) : patLex (n + 9) L!"([^\\w]|$)" = tailToks := by
  have : patLex (n + 9) L!"([^\\w]|$)" = tailToks ++ patLex (n + 4) [] := rfl
  rw [this, lex_nil]
  rfl

theorem hasPattern_eq (v : Str) : hasPattern v = patRead { cur := [(.item, before)] } []
    (patLex (4 + 9 + v.length) (v ++ L!"([^\\w]|$)")) := by
  have e : (v ++ L!"([^\\w]|$)").length = 9 + v.length := by
    rw [List.length_append, Nat.add_comm]; rfl
  have : hasPattern v = patRead {} [] (patLex ((v ++ L!"([^\\w]|$)").length + 9)
    (L!"([^\\w]|^)" ++ (v ++ L!"([^\\w]|$)"))) := rfl
  rw [this, e, show 4 + 9 + v.length = 9 + v.length + 4 by omega]
  rfl

theorem lex_step {c : Char} {cs r : Str} {t : PatTok} (n : Nat)
    (h : lexOne c cs = .ok (t, r)) : patLex (n + 1) (c :: cs) = .ok t :: patLex n r := by
  conv => lhs; unfold patLex
  rw [h]

theorem lexOne_ordinary {c : Char} (h : c ≠ '\\' ∧ c ≠ '[' ∧ c ≠ '{') (cs : Str) :
    lexOne c cs = .ok (patTok c, cs) := by
  unfold lexOne
  rw [if_neg h.1, if_neg h.2.1, if_neg h.2.2]

theorem simple_char {c : Char} (h : Ordinary c ∨ c = '.' ∨ c = '(' ∨ c = ')') :
    c ≠ '\\' ∧ c ≠ '[' ∧ c ≠ '{' := by
  rcases h with h | rfl | rfl | rfl
  · exact ⟨fun e => h (by rw [e]; decide), fun e => h (by rw [e]; decide),
      fun e => h (by rw [e]; decide)⟩
  all_goals decide

theorem lex_simple {v : Str} (hv : Simple v) (n : Nat) (rest : Str) :
    patLex (n + v.length) (v ++ rest) =
      v.map (fun c => .ok (patTok c)) ++ patLex n rest := by
  induction v with
  | nil => rfl
  | cons c v ih =>
    have := lex_step (n + v.length) (lexOne_ordinary (simple_char (hv c (by simp))) (v ++ rest))
    show patLex (n + v.length + 1) (c :: (v ++ rest)) = _
    rw [this, ih fun d hd => hv d (by simp [hd])]
    rfl

/-! ### The answer -/

/-- The text between two positions is one of the words. -/
def SpansOf (W : Str → Prop) (p p' : TextPos) : Prop :=
  ∃ w, W w ∧ p.2 = w ++ p'.2 ∧ p'.1 = (p.1 && w.isEmpty)

/-- A value that matches certain words: the search for it. -/
theorem finish {v : Str} {ts : List (R PatTok)} {W : (Char → Bool) → Str → Prop} {f' : PatFrame}
    (e0 : hasPattern v = patRead { cur := [(.item, before)] } [] ts)
    (g1 : patRead { cur := [(.item, before)] } [] ts = patRead f' [] tailToks) (g2 : f'.alts = [])
    (g4 : ∀ isWord p p', Den isWord f' [] p p' ↔
      ∃ m, Den isWord { cur := [(.item, before)] } [] p m ∧ SpansOf (W isWord) m p') :
    ∃ r, hasPattern v = .ok r ∧ ∀ isWord : Char → Bool, isWord '\n' = false →
      ∀ t, patSearch isWord r t = true ↔ ∃ w, W isWord w ∧ WholeWord isWord w t := by
  rw [e0, g1]
  refine ⟨seqOf ((.item, after) :: f'.cur), ?_, fun isWord hn t => ?_⟩
  · show Except.ok (framePat { f' with cur := (.item, after) :: f'.cur }) = _
    unfold framePat
    rw [g2]
    rfl
  · rw [search_iff]
    have den : ∀ p, (∃ p', Matches isWord (seqOf ((.item, after) :: f'.cur)) p p') ↔
        ∃ m m', Matches isWord before p m ∧ SpansOf (W isWord) m m' ∧
          ∀ c, m'.2.head? = some c → isWord c = false := by
      intro p
      constructor
      · rintro ⟨p', h⟩
        obtain ⟨m', h1, h2⟩ := (seqOf_cons _ _ p p').mp h
        obtain ⟨m, h3, h4⟩ := (g4 isWord p m').mp h1
        obtain ⟨x, h3, h5⟩ := (seqOf_cons _ _ p m).mp h3
        rw [matches_eps.mp h3] at h5
        exact ⟨m, m', h5, h4, (after_iff hn).mp ⟨p', h2⟩⟩
      · rintro ⟨m, m', h1, h2, h3⟩
        obtain ⟨p', h4⟩ := (after_iff hn).mpr h3
        exact ⟨p', (seqOf_cons _ _ p p').mpr ⟨m', (g4 isWord p m').mpr
          ⟨m, (seqOf_cons _ _ p m).mpr ⟨p, .eps, h1⟩, h2⟩, h4⟩⟩
    constructor
    · rintro ⟨a, b, p', rfl, h⟩
      obtain ⟨m, m', h1, ⟨w, h2, h3, _⟩, h4⟩ := (den _).mp ⟨p', h⟩
      rcases before_iff.mp h1 with ⟨c, hc, h5, _⟩ | ⟨h5, rfl⟩
      · have h5 : b = c :: m.2 := h5
        refine ⟨w, h2, a ++ [c], m'.2, by rw [h5, h3]; simp, fun d hd => ?_, h4⟩
        rw [List.getLast?_concat] at hd
        cases hd
        exact hc
      · have h3 : b = w ++ m'.2 := h3
        have h5 : a.isEmpty = true := h5
        rw [List.isEmpty_iff.mp h5]
        exact ⟨w, h2, [], m'.2, by rw [h3]; rfl, fun d hd => (by cases hd), h4⟩
    · rintro ⟨w, h1, a, b, rfl, h2, h3⟩
      rcases List.eq_nil_or_concat a with rfl | ⟨a, c, rfl⟩
      · obtain ⟨p', h⟩ := (den (true, w ++ b)).mpr ⟨(true, w ++ b), (true && w.isEmpty, b),
          before_iff.mpr (.inr ⟨rfl, rfl⟩), ⟨w, h1, rfl, rfl⟩, h3⟩
        exact ⟨[], w ++ b, p', rfl, h⟩
      · have hc : isWord c = false := h2 c (by simp)
        obtain ⟨p', h⟩ := (den (a.isEmpty, c :: (w ++ b))).mpr ⟨(false, w ++ b),
          (false && w.isEmpty, b), before_iff.mpr (.inl ⟨c, hc, rfl, rfl⟩),
          ⟨w, h1, rfl, rfl⟩, h3⟩
        exact ⟨a, c :: (w ++ b), p', by simp, h⟩

/-- The pattern of a value of ordinary characters, dots and parentheses. -/
theorem pattern_simple {v : Str} (hv : Simple v) :
    (¬ParensMatch v → hasPattern v = .error .patternError) ∧
    (ParensMatch v → ∃ r, hasPattern v = .ok r ∧ ∀ isWord : Char → Bool, isWord '\n' = false →
      ∀ t, patSearch isWord r t = true ↔
        ∃ w, DotsFor (withoutParens v) w ∧ WholeWord isWord w t) := by
  have e0 := hasPattern_eq v
  rw [lex_simple hv, lex_tail] at e0
  rw [parens_iff]
  have main := read_simple hv tailToks { cur := [(.item, before)] } []
    ⟨rfl, fun g hg => by cases hg⟩
  rw [show ([] : List PatFrame).length = 0 from rfl] at main
  cases hd : depthAfter 0 v with
  | none =>
    rw [hd] at main
    exact ⟨fun _ => e0.trans main, fun h => by cases h⟩
  | some d =>
    rw [hd] at main
    cases d with
    | succ d =>
      refine ⟨fun _ => ?_, fun h => by cases h⟩
      obtain ⟨f', stack', g1, g2, g3, _⟩ := main
      rw [e0, g1]
      cases stack' with
      | nil => cases g3
      | cons g stack' => rfl
    | zero =>
      refine ⟨fun h => absurd rfl h, fun _ => ?_⟩
      obtain ⟨f', stack', g1, g2, g3, g4⟩ := main
      cases stack' with
      | cons g stack' => cases g3
      | nil => exact finish (W := fun _ => DotsFor (withoutParens v)) e0 g1 g2.1 g4

/-- `(*` and `(+` after ordinary characters, dots and parentheses. -/
theorem pattern_repeat {a : Str} (ha : Simple a) (b : Str) {x : Char} (hx : x = '*' ∨ x = '+') :
    hasPattern (a ++ '(' :: x :: b) = .error .patternError := by
  have hn : x ≠ '\\' ∧ x ≠ '[' ∧ x ≠ '{' := by rcases hx with rfl | rfl <;> decide
  have e0 := hasPattern_eq (a ++ '(' :: x :: b)
  rw [List.append_assoc, List.length_append,
    show 4 + 9 + (a.length + ('(' :: x :: b).length) = 13 + b.length + 1 + 1 + a.length by
      simp only [List.length_cons]; omega, lex_simple ha] at e0
  have e1 := lex_step (13 + b.length + 1)
    (lexOne_ordinary (c := '(') (by decide) ((x :: b) ++ L!"([^\\w]|$)"))
  have e2 := lex_step (13 + b.length) (lexOne_ordinary hn (b ++ L!"([^\\w]|$)"))
  have e3 : patLex (13 + b.length + 1 + 1) ('(' :: x :: b ++ L!"([^\\w]|$)") =
      .ok .open_ :: .ok (patTok x) :: patLex (13 + b.length) (b ++ L!"([^\\w]|$)") :=
    e1.trans (congrArg _ e2)
  rw [e3] at e0
  have main := read_simple ha (.ok .open_ :: .ok (patTok x) ::
    patLex (13 + b.length) (b ++ L!"([^\\w]|$)")) { cur := [(.item, before)] } []
    ⟨rfl, fun g hg => by cases hg⟩
  generalize depthAfter _ a = o at main
  cases o with
  | none => exact e0.trans main
  | some d =>
    obtain ⟨f', stack', g1, _⟩ := main
    rw [e0, g1]
    rcases hx with rfl | rfl <;> rfl

/-! ### One character after the other -/

/-- The texts with one fitting character for each part. -/
def Fits (isWord : Char → Bool) (ks : List CharPat) (w : Str) : Prop :=
  List.Forall₂ (fun k c => k.fits isWord c = true) ks w

theorem fits_den (ks : List CharPat) : ∀ (f : PatFrame) (rest : List (R PatTok)), f.alts = [] →
    ∃ f', patRead f [] (ks.map (fun k => .ok (.one k)) ++ rest) = patRead f' [] rest ∧
      f'.alts = [] ∧ ∀ isWord p p', Den isWord f' [] p p' ↔
        ∃ m, Den isWord f [] p m ∧ SpansOf (Fits isWord ks) m p' := by
  induction ks with
  | nil =>
    intro f rest h
    refine ⟨f, rfl, h, fun isWord p p' => ?_⟩
    constructor
    · intro h; exact ⟨p', h, [], .nil, rfl, by simp⟩
    · rintro ⟨m, h1, w, h2, h3, h4⟩
      cases h2
      have : p' = m := Prod.ext (by simpa using h4) h3.symm
      rw [this]; exact h1
  | cons k ks ih =>
    intro f rest h
    obtain ⟨f', g1, g2, g3⟩ := ih { f with cur := (.item, .one k) :: f.cur } rest h
    refine ⟨f', g1, g2, fun isWord p p' => ?_⟩
    rw [g3]
    constructor
    · rintro ⟨m, h1, w, h2, h3, h4⟩
      obtain ⟨⟨b, t⟩, h0, h5⟩ := (den_push f [] _ p m).mp h1
      cases t with
      | nil => cases h5
      | cons c cs =>
        obtain ⟨h6, rfl⟩ := fits_iff.mpr h5
        exact ⟨_, h0, c :: w, .cons h6 h2, by
          have h3 : cs = w ++ p'.2 := h3
          show c :: cs = _
          rw [h3]; rfl, by simpa using h4⟩
    · rintro ⟨x, h1, w, h2, h3, h4⟩
      cases h2 with
      | cons h5 h2 =>
        rename_i c w
        obtain ⟨b, t⟩ := x
        have h3 : t = c :: (w ++ p'.2) := h3
        subst h3
        exact ⟨(false, w ++ p'.2), (den_push f [] _ p _).mpr ⟨_, h1, fits_iff.mp ⟨h5, rfl⟩⟩, w, h2,
          rfl, by simpa using h4⟩

/-- The search for a value that stands for one character after the other. -/
theorem pattern_ones {v : Str} {ks : List CharPat}
    (h : patLex (4 + 9 + v.length) (v ++ L!"([^\\w]|$)") =
      ks.map (fun k => .ok (.one k)) ++ tailToks) :
    ∃ r, hasPattern v = .ok r ∧ ∀ isWord : Char → Bool, isWord '\n' = false →
      ∀ t, patSearch isWord r t = true ↔ ∃ w, Fits isWord ks w ∧ WholeWord isWord w t := by
  have e0 := hasPattern_eq v
  rw [h] at e0
  obtain ⟨f', g1, g2, g3⟩ := fits_den ks { cur := [(.item, before)] } tailToks rfl
  exact finish (W := fun isWord => Fits isWord ks) e0 g1 g2 g3

theorem no_meta {v : Str} (h : v.any isMeta = false) : ∀ c ∈ v, Ordinary c := by
  intro c hc hm
  have := List.any_eq_false.mp h c hc
  exact this (List.contains_iff_mem.mpr hm)

theorem dots_plain {v w : Str} (h : ∀ c ∈ v, Ordinary c) : DotsFor v w ↔ w = v := by
  constructor
  · intro hd
    induction hd with
    | nil => rfl
    | cons h1 _ ih =>
      rename_i d c v w _
      have h2 : Ordinary d := h d (by simp)
      rw [ih fun c hc => h c (by simp [hc])]
      rcases h1 with rfl | ⟨rfl, _⟩
      · rfl
      · exact absurd (by decide) h2
  · rintro rfl
    clear h
    induction w with
    | nil => exact .nil
    | cons c w ih => exact .cons (.inl rfl) ih

theorem plain_parens {v : Str} (h : ∀ c ∈ v, Ordinary c) :
    withoutParens v = v ∧ ParensMatch v := by
  have h1 : ∀ c ∈ v, c ≠ '(' ∧ c ≠ ')' := fun c hc =>
    ⟨fun e => h c hc (by rw [e]; decide), fun e => h c hc (by rw [e]; decide)⟩
  refine ⟨List.filter_eq_self.mpr fun c hc => by simp [h1 c hc], fun a b e => ?_, ?_⟩
  · rw [List.count_eq_zero_of_not_mem fun hm => (h1 ')' (by rw [e]; simp [hm])).2 rfl]
    exact Nat.zero_le _
  · rw [List.count_eq_zero_of_not_mem fun hm => (h1 ')' hm).2 rfl,
      List.count_eq_zero_of_not_mem fun hm => (h1 '(' hm).1 rfl]

/-- The answer for a value of ordinary characters, dots and parentheses. -/
theorem hasText_simple (cx : Ctx) (hn : cx.env.isWord '\n' = false) {v : Str} (hv : Simple v)
    (t : Str) :
    (¬ParensMatch v → hasText cx v t = .error .patternError) ∧
    (ParensMatch v → ∃ b, hasText cx v t = .ok b ∧
      (b = true ↔ ∃ w, DotsFor (withoutParens v) w ∧ WholeWord cx.env.isWord w t)) := by
  unfold hasText
  cases hm : v.any isMeta with
  | false =>
    have ho := no_meta hm
    obtain ⟨h1, h2⟩ := plain_parens ho
    refine ⟨fun h => absurd h2 h, fun _ => ⟨_, rfl, ?_⟩⟩
    rw [search_whole, h1]
    constructor
    · intro h; exact ⟨v, (dots_plain ho).mpr rfl, h⟩
    · rintro ⟨w, h3, h4⟩; rwa [(dots_plain ho).mp h3] at h4
  | true =>
    obtain ⟨h1, h2⟩ := pattern_simple hv
    simp only [if_true]
    refine ⟨fun h => by rw [h1 h], fun h => ?_⟩
    obtain ⟨r, h3, h4⟩ := h2 h
    rw [h3]
    exact ⟨_, rfl, h4 _ hn t⟩

theorem hasText_repeat (cx : Ctx) {a : Str} (ha : Simple a) (b : Str) {x : Char}
    (hx : x = '*' ∨ x = '+') (t : Str) :
    hasText cx (a ++ '(' :: x :: b) t = .error .patternError := by
  unfold hasText
  rw [pattern_repeat ha b hx, if_pos]
  simp [isMeta]

/-! ### Parts that each stand for one character -/

theorem alnum_iff (c : Char) : asciiAlnum c = c.isAlphanum := by
  unfold asciiAlnum Char.isAlphanum Char.isAlpha Char.isUpper Char.isLower Char.isDigit
  have e : ∀ a b : Char, decide (a ≤ b) = decide (a.val ≤ b.val) := fun _ _ => rfl
  simp only [e, GE.ge]
  rw [Bool.eq_iff_iff]
  simp only [Bool.or_eq_true, Bool.and_eq_true, decide_eq_true_eq]
  constructor
  · rintro ((h | h) | h)
    · exact .inr h
    · exact .inl (.inr h)
    · exact .inl (.inl h)
  · rintro ((h | h) | h)
    · exact .inr h
    · exact .inl (.inr h)
    · exact .inl (.inl h)

theorem escChar_other {c : Char} (h : c.isAlphanum = false) : reEscape c = some c := by
  unfold reEscape
  split
  all_goals first
    | (exfalso; revert h; decide)
    | rw [alnum_iff, h]; rfl

theorem lexOne_escape {c : Char} (h : c.isAlphanum = false) (cs : Str) :
    lexOne '\\' (c :: cs) = .ok (.one (.chr c), cs) := by
  have h1 : c ≠ 'w' := fun e => by rw [e] at h; revert h; decide
  have h2 : c ≠ 'W' := fun e => by rw [e] at h; revert h; decide
  have h3 : c ≠ 'A' := fun e => by rw [e] at h; revert h; decide
  have h4 : c ≠ 'Z' := fun e => by rw [e] at h; revert h; decide
  show lexEscape (c :: cs) = _
  unfold lexEscape
  simp only [if_neg h1, if_neg h2, if_neg h3, if_neg h4, escChar_other h]

theorem escChar_control {c d : Char} (h : (c, d) ∈ controls) :
    reEscape c = some d ∧ c ≠ 'w' ∧ c ≠ 'W' ∧ c ≠ 'b' ∧ c ≠ 'A' ∧ c ≠ 'Z' := by
  simp only [controls, List.mem_cons, Prod.mk.injEq, List.not_mem_nil, or_false] at h
  rcases h with ⟨rfl, rfl⟩ | ⟨rfl, rfl⟩ | ⟨rfl, rfl⟩ | ⟨rfl, rfl⟩ | ⟨rfl, rfl⟩ | ⟨rfl, rfl⟩ <;>
    decide

theorem lexOne_control {c d : Char} (h : (c, d) ∈ controls) (cs : Str) :
    lexOne '\\' (c :: cs) = .ok (.one (.chr d), cs) := by
  obtain ⟨h1, h2, h3, _, h4, h5⟩ := escChar_control h
  show lexEscape (c :: cs) = _
  unfold lexEscape
  simp only [if_neg h2, if_neg h3, if_neg h4, if_neg h5, h1]

/-- The text of a character of a set. -/
theorem setItem_char {s : Str} {c : Char} (h : SetChar s c) :
    ∃ d t, s = d :: t ∧ d ≠ ']' ∧ d ≠ '-' ∧ ∀ r, setItem d (t ++ r) = .ok (.chr c, r) := by
  cases h with
  | plain h =>
    refine ⟨c, [], rfl, fun e => h (by rw [e]; decide), fun e => h (by rw [e]; decide), fun r => ?_⟩
    unfold setItem
    rw [if_neg fun e => h (by rw [e]; decide)]
    rfl
  | escaped h =>
    refine ⟨'\\', [c], rfl, by decide, by decide, fun r => ?_⟩
    have h1 : c ≠ 'w' := fun e => by rw [e] at h; revert h; decide
    have h2 : c ≠ 'W' := fun e => by rw [e] at h; revert h; decide
    have h3 : c ≠ 'b' := fun e => by rw [e] at h; revert h; decide
    show setItem '\\' (c :: r) = _
    unfold setItem
    simp only [if_true, if_neg h1, if_neg h2, if_neg h3, escChar_other h]
  | control h =>
    rename_i e
    refine ⟨'\\', [e], rfl, by decide, by decide, fun r => ?_⟩
    obtain ⟨h0, h1, h2, h3, _⟩ := escChar_control h
    show setItem '\\' (e :: r) = _
    unfold setItem
    simp only [if_true, if_neg h1, if_neg h2, if_neg h3, h0]
  | backspace => exact ⟨'\\', ['b'], rfl, by decide, by decide, fun r => rfl⟩

theorem setText_head {s : Str} {is : List SetItem} (h : SetText s is) (r : Str) :
    (∀ t, s ++ ']' :: r ≠ '-' :: t) ∨ s = ['-'] ∧ is = [.chr '-'] := by
  cases h with
  | nil => exact .inl fun t e => by cases e
  | chr h1 =>
    obtain ⟨d, u, rfl, _, h2, _⟩ := setItem_char h1
    exact .inl fun t e => by cases e; exact h2 rfl
  | range h1 =>
    obtain ⟨d, u, rfl, _, h2, _⟩ := setItem_char h1
    exact .inl fun t e => by cases e; exact h2 rfl
  | word => exact .inl fun t e => by cases e
  | nonWord => exact .inl fun t e => by cases e
  | dash => exact .inr ⟨rfl, rfl⟩

/-- What reading the rest of a set gives. -/
def SetRead (s : Str) (is : List SetItem) (r : Str) : Prop :=
  ∀ (n : Nat) (acc : List SetItem), acc ++ is ≠ [] →
    setItems (n + s.length + 1) acc (s ++ ']' :: r) = .ok (acc ++ is, r)

/-- One item that is not the start of a range. -/
theorem setItems_one {n : Nat} {acc : List SetItem} {d : Char} {cs s r : Str} {i : SetItem}
    {is : List SetItem} (hd : ¬(d = ']' ∧ acc ≠ [])) (h1 : setItem d cs = .ok (i, s ++ ']' :: r))
    (h2 : SetText s is) (ih : SetRead s is r) :
    setItems (n + s.length + 1 + 1) acc (d :: cs) = .ok (acc ++ i :: is, r) := by
  have h3 := ih n (acc ++ [i]) (by simp)
  conv => lhs; unfold setItems
  rw [if_neg hd, h1]
  rcases setText_head h2 r with h2 | ⟨rfl, rfl⟩
  · rw [List.append_assoc] at h3
    generalize s ++ ']' :: r = x at h3 h2
    split
    · rename_i e; cases e
    · rename_i e; cases e; exact absurd rfl (h2 _)
    · rename_i e; cases e; exact absurd rfl (h2 _)
    · rename_i e; cases e; exact absurd rfl (h2 _)
    · rename_i e; cases e; exact h3
  · rfl

theorem setItems_text {s : Str} {is : List SetItem} (h : SetText s is) (r : Str) :
    SetRead s is r := by
  induction h with
  | nil =>
    intro n acc h
    have h : acc ≠ [] := by simpa using h
    show setItems (n + 1) acc (']' :: r) = _
    unfold setItems
    rw [if_pos ⟨rfl, h⟩, List.append_nil]
  | @chr u c s is h1 h2 ih =>
    intro n acc h
    obtain ⟨d, t, rfl, g1, _, g2⟩ := setItem_char h1
    rw [show n + ((d :: t) ++ s).length + 1 = n + t.length + s.length + 1 + 1 by simp; omega,
      List.append_assoc]
    exact setItems_one (fun e => g1 e.1) (g2 _) h2 ih
  | @range u u' lo hi s is h1 h1' h3 _ ih =>
    intro n acc h
    obtain ⟨d, t, rfl, g1, _, g2⟩ := setItem_char h1
    obtain ⟨d', t', rfl, g1', _, g2'⟩ := setItem_char h1'
    have h4 := ih (n + t.length + 2 + t'.length) (acc ++ [.range lo hi]) (by simp)
    rw [show n + ((d :: t) ++ '-' :: (d' :: t' ++ s)).length + 1 =
        n + t.length + 2 + t'.length + s.length + 1 + 1 by simp; omega,
      show (d :: t) ++ '-' :: (d' :: t' ++ s) ++ ']' :: r =
        d :: (t ++ '-' :: d' :: (t' ++ (s ++ ']' :: r))) by simp]
    conv => lhs; unfold setItems
    rw [if_neg fun e => g1 e.1, g2]
    rw [List.append_assoc] at h4
    generalize s ++ ']' :: r = x at h4
    split
    · rename_i e; cases e
    · rename_i e; cases e; exact absurd rfl g1'
    · rename_i e
      cases e
      rw [g2']
      have : setRange (.chr lo) (.chr hi) = .ok (.range lo hi) := by
        show (if hi < lo then Except.error Err.patternError else .ok (SetItem.range lo hi)) = _
        rw [if_neg (Char.not_lt.mpr h3)]
      simp only [this]
      exact h4
    · rename_i e; cases e
    · rename_i h6 _ e; cases e; exact absurd rfl (h6 _ _)
  | @word s is h2 ih =>
    intro n acc h
    rw [show n + ('\\' :: 'w' :: s).length + 1 = n + 1 + s.length + 1 + 1 by simp; omega]
    exact setItems_one (i := .word) (by simp) rfl h2 ih
  | @nonWord s is h2 ih =>
    intro n acc h
    rw [show n + ('\\' :: 'W' :: s).length + 1 = n + 1 + s.length + 1 + 1 by simp; omega]
    exact setItems_one (i := .nonWord) (by simp) rfl h2 ih
  | dash =>
    intro n acc h
    exact setItems_one (s := []) (is := []) (by simp) rfl .nil (fun n acc h => by
      have h : acc ≠ [] := by simpa using h
      show setItems (n + 1) acc (']' :: r) = _
      unfold setItems
      rw [if_pos ⟨rfl, h⟩, List.append_nil])

theorem setItems_body {s : Str} {is : List SetItem} (h : SetBody s is) (r : Str) (n : Nat) :
    setItems (n + s.length + 1) [] (s ++ ']' :: r) = .ok (is, r) := by
  cases h with
  | items h hn =>
    refine setItems_text h r n [] ?_
    cases h with
    | nil => exact absurd rfl hn
    | chr | range | word | nonWord | dash => simp
  | bracket h => exact setItems_one (by simp) rfl h (setItems_text h r)
  | dash h => exact setItems_one (by simp) rfl h (setItems_text h r)

theorem lexOne_set {s : Str} {is : List SetItem} (h : SetBody s is)
    (hh : s.head? ≠ some '^') (r : Str) :
    lexOne '[' (s ++ ']' :: r) = .ok (.one (.set false is), r) := by
  have e1 : (s ++ ']' :: r).head? = some '^' ↔ False := by
    cases s with
    | nil => simp
    | cons c s => simpa using hh
  have e2 : (s ++ ']' :: r).length = r.length + s.length + 1 := by simp; omega
  show lexSet _ = _
  unfold lexSet
  simp only [e1, if_false, e2, setItems_body h r]
  simp

theorem lexOne_notSet {s : Str} {is : List SetItem} (h : SetBody s is) (r : Str) :
    lexOne '[' ('^' :: (s ++ ']' :: r)) = .ok (.one (.set true is), r) := by
  have e2 : (s ++ ']' :: r).length = r.length + s.length + 1 := by simp; omega
  show lexSet ('^' :: (s ++ ']' :: r)) = _
  unfold lexSet
  simp only [List.head?_cons, if_true, List.tail_cons, e2, setItems_body h r]
  simp

/-- A range that goes backwards. -/
theorem lexOne_backwards {s s' : Str} {lo hi : Char} (h1 : SetChar s lo) (h1' : SetChar s' hi)
    (h3 : hi < lo) (hh : s.head? ≠ some '^') (y : Str) :
    lexOne '[' (s ++ '-' :: (s' ++ y)) = .error .patternError := by
  obtain ⟨d, t, rfl, g1, _, g2⟩ := setItem_char h1
  obtain ⟨d', t', rfl, g1', _, g2'⟩ := setItem_char h1'
  have e1 : (d :: t ++ '-' :: (d' :: t' ++ y)).head? = some '^' ↔ False := by simpa using hh
  show lexSet _ = _
  unfold lexSet
  simp only [e1, if_false]
  have e2 : ∀ n, setItems (n + 1) [] (d :: (t ++ '-' :: d' :: (t' ++ y))) =
      .error .patternError := by
    intro n
    unfold setItems
    rw [if_neg fun e => g1 e.1, g2]
    generalize hx : t' ++ y = x
    split
    · rename_i e; cases e
    · rename_i e; cases e; exact absurd rfl g1'
    · rename_i e
      cases e
      rw [← hx, g2']
      have : setRange (.chr lo) (.chr hi) = .error .patternError := by
        show (if hi < lo then Except.error Err.patternError else .ok (SetItem.range lo hi)) = _
        rw [if_pos h3]
      simp only [this]
    · rename_i e; cases e
    · rename_i h6 _ e; cases e; exact absurd rfl (h6 _ _)
  have e3 := e2 (t ++ '-' :: (d' :: t' ++ y)).length
  have e4 : setItems (d :: t ++ '-' :: (d' :: t' ++ y)).length []
      (d :: t ++ '-' :: (d' :: t' ++ y)) = .error .patternError := e3
  rw [e4]

/-- A range from a class. -/
theorem lexOne_classRange {c : Char} (hc : c = 'w' ∨ c = 'W') {s : Str} {hi : Char}
    (h1' : SetChar s hi) (y : Str) :
    lexOne '[' ('\\' :: c :: '-' :: (s ++ y)) = .error .patternError := by
  obtain ⟨d', t', rfl, g1', _, g2'⟩ := setItem_char h1'
  have e2 : ∀ n, setItems (n + 1) [] ('\\' :: c :: '-' :: d' :: (t' ++ y)) =
      .error .patternError := by
    intro n
    unfold setItems
    obtain ⟨a, ha, hr⟩ : ∃ a, (∀ r, setItem '\\' (c :: r) = .ok (a, r)) ∧
        ∀ b, setRange a b = .error .patternError := by
      rcases hc with rfl | rfl
      · exact ⟨.word, fun _ => rfl, fun _ => rfl⟩
      · exact ⟨.nonWord, fun _ => rfl, fun _ => rfl⟩
    rw [if_neg (by decide), ha]
    generalize hx : t' ++ y = x
    split
    · rename_i e; cases e
    · rename_i e; cases e; exact absurd rfl g1'
    · rename_i e
      cases e
      rw [← hx, g2']
      simp only [hr]
    · rename_i e; cases e
    · rename_i h6 _ e; cases e; exact absurd rfl (h6 _ _)
  have e3 := e2 (c :: '-' :: (d' :: t' ++ y)).length
  show lexSet ('\\' :: c :: '-' :: (d' :: t' ++ y)) = _
  have e1 : ('\\' :: c :: '-' :: (d' :: t' ++ y)).head? = some '^' ↔ False := by simp
  unfold lexSet
  simp only [e1, if_false]
  have e4 : setItems ('\\' :: c :: '-' :: (d' :: t' ++ y)).length []
      ('\\' :: c :: '-' :: (d' :: t' ++ y)) = .error .patternError := e3
  rw [e4]

/-- The text of a part that stands for one character. -/
theorem lexOne_part {s : Str} {k : CharPat} (h : CharPart s k) :
    ∃ c t, s = c :: t ∧ ∀ r, lexOne c (t ++ r) = .ok (.one k, r) := by
  cases h with
  | @plain c h =>
    refine ⟨c, [], rfl, fun r => ?_⟩
    rcases h with h | rfl | rfl
    · show lexOne c r = _
      rw [lexOne_ordinary (simple_char (.inl h)), patTok_ordinary h]
    · rfl
    · rfl
  | dot => exact ⟨'.', [], rfl, fun r => rfl⟩
  | @escaped c h => exact ⟨'\\', [c], rfl, fun r => lexOne_escape h r⟩
  | @control c d h => exact ⟨'\\', [c], rfl, fun r => lexOne_control h r⟩
  | word => exact ⟨'\\', ['w'], rfl, fun r => rfl⟩
  | nonWord => exact ⟨'\\', ['W'], rfl, fun r => rfl⟩
  | @set s is h1 h3 =>
    refine ⟨'[', s ++ [']'], rfl, fun r => ?_⟩
    rw [List.append_assoc]
    exact lexOne_set h1 h3 r
  | @notSet s is h1 =>
    refine ⟨'[', '^' :: (s ++ [']']), rfl, fun r => ?_⟩
    rw [List.cons_append, List.append_assoc]
    exact lexOne_notSet h1 r

/-- One step of the reader, for a text that is read at once. -/
theorem lex_one {c : Char} {t : Str} {k : PatTok}
    (h : ∀ r, lexOne c (t ++ r) = .ok (k, r)) (n : Nat) (rest : Str) :
    patLex (n + (c :: t).length) ((c :: t) ++ rest) = .ok k :: patLex (n + t.length) rest := by
  rw [show n + (c :: t).length = n + t.length + 1 by simp; omega]
  exact lex_step _ (h rest)

theorem lex_parts {v : Str} {ks : List CharPat} (h : CharParts v ks) (rest : Str) :
    ∀ n, ∃ k, patLex (n + v.length) (v ++ rest) =
      ks.map (fun k => .ok (.one k)) ++ patLex (n + k) rest := by
  induction h with
  | nil => intro n; exact ⟨0, rfl⟩
  | @cons s k v ks h1 _ ih =>
    intro n
    obtain ⟨c, t, rfl, h2⟩ := lexOne_part h1
    obtain ⟨j, h3⟩ := ih (n + t.length)
    refine ⟨t.length + j, ?_⟩
    rw [List.length_append, show n + ((c :: t).length + v.length) =
      n + v.length + (c :: t).length by omega, List.append_assoc, lex_one h2,
      show n + v.length + t.length = n + t.length + v.length by omega, h3, Nat.add_assoc n]
    rfl

theorem standsFor_iff {k : CharPat} {c : Char} :
    StandsFor isWord k c ↔ k.fits isWord c = true :=
  ⟨fun h => (fits_iff.mpr h).1, fun h => fits_iff.mp ⟨h, rfl⟩⟩

theorem parts_plain {v : Str} {ks : List CharPat} (h : CharParts v ks)
    (ho : ∀ c ∈ v, Ordinary c) : ks = v.map .chr := by
  induction h with
  | nil => rfl
  | cons h1 _ ih =>
    rw [ih fun d hd => ho d (by simp [hd])]
    cases h1 with
    | plain => rfl
    | dot => exact absurd (by decide) (ho '.' (by simp))
    | escaped | control | word | nonWord => exact absurd (by decide) (ho '\\' (by simp))
    | set | notSet => exact absurd (by decide) (ho '[' (by simp))

theorem stands_chars {v w : Str} :
    List.Forall₂ (StandsFor isWord) (v.map .chr) w ↔ w = v := by
  rw [List.forall₂_map_left_iff]
  constructor
  · intro h
    induction h with
    | nil => rfl
    | cons h1 _ ih => rw [ih]; cases h1; rfl
  · rintro rfl
    induction w with
    | nil => exact .nil
    | cons c w ih => exact .cons .chr ih

/-- The answer for a value whose parts each stand for one character. -/
theorem hasText_parts (cx : Ctx) (hn : cx.env.isWord '\n' = false) {v : Str} {ks : List CharPat}
    (hv : CharParts v ks) (t : Str) :
    ∃ b, hasText cx v t = .ok b ∧ (b = true ↔
      ∃ w, List.Forall₂ (StandsFor cx.env.isWord) ks w ∧ WholeWord cx.env.isWord w t) := by
  unfold hasText
  cases hm : v.any isMeta with
  | false =>
    rw [parts_plain hv (no_meta hm)]
    refine ⟨_, rfl, ?_⟩
    rw [search_whole]
    constructor
    · intro h; exact ⟨v, stands_chars.mpr rfl, h⟩
    · rintro ⟨w, h3, h4⟩; rwa [stands_chars.mp h3] at h4
  | true =>
    obtain ⟨k, h1⟩ := lex_parts hv L!"([^\\w]|$)" (4 + 9)
    rw [show 4 + 9 + k = 4 + k + 9 by omega, lex_tail] at h1
    obtain ⟨r, h2, h3⟩ := pattern_ones h1
    simp only [if_true, h2]
    refine ⟨_, rfl, ?_⟩
    rw [h3 _ hn t]
    have : ∀ w, Fits cx.env.isWord ks w ↔ List.Forall₂ (StandsFor cx.env.isWord) ks w := by
      intro w
      unfold Fits
      constructor
      · intro h; exact h.imp fun _ _ h => standsFor_iff.mpr h
      · intro h; exact h.imp fun _ _ h => standsFor_iff.mp h
    simp only [this]

theorem escaped_parts {v e : Str} (h : Escaped v e) : CharParts e (v.map .chr) := by
  induction h with
  | nil => exact .nil
  | plain h _ ih => exact .cons (.plain (.inl h)) ih
  | escaped h _ ih => exact .cons (.escaped h) ih

theorem escaped_ne {v e : Str} (h : Escaped v e) (hv : v ≠ []) : e ≠ [] := by
  cases h with
  | nil => exact absurd rfl hv
  | plain => simp
  | escaped => simp

end SqlPuzzle.PatternFacts
