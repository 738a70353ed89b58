import Verif.Proofs.TokensGrammar

/-!
Consequences of the grammar: vocabulary, matching parentheses, places of `SELECT`.
-/

namespace SqlPuzzle

open Spec

/-- Fixed keywords of optional phrases: words of the vocabulary other than `SELECT`. -/
def PlainWords (kw : List Tok) : Prop :=
  ∀ t ∈ kw, ∃ w, t = .word w ∧ w ∈ vocabulary ∧ w ≠ L!"SELECT"

theorem plainWords_words {ws : List Str} (h : ∀ w ∈ ws, w ∈ vocabulary ∧ w ≠ L!"SELECT") :
    PlainWords (words ws) := by
  intro t ht
  obtain ⟨w, hw, rfl⟩ := List.mem_map.mp ht
  exact ⟨w, rfl, h w hw⟩

/-! ### Structure of phrases -/

/-- Tokens of the vocabulary other than parentheses and `SELECT`. -/
def PlainTok (t : Tok) : Prop :=
  Expected t ∧ t ≠ .sym '(' ∧ t ≠ .sym ')' ∧ t ≠ .word L!"SELECT"

instance : DecidablePred Expected := fun t => by cases t <;> (unfold Expected; infer_instance)

instance : DecidablePred PlainTok := fun _ => inferInstanceAs (Decidable (_ ∧ _))

/-- Tokens grouped by parentheses; `b` tells whether they may begin with `SELECT`. -/
inductive Built : Bool → List Tok → Prop where
  | nil {b} : Built b []
  | cons {b t ts} : PlainTok t → Built false ts → Built b (t :: ts)
  | append {b ts us} : Built b ts → Built false us → Built b (ts ++ us)
  | paren {b ts} : Built true ts → Built b (paren ts)
  | select {ts} : Built false ts → Built true (.word L!"SELECT" :: ts)
  | union {ts us} : Built true ts → Built true us → Built true (ts ++ (.word L!"UNION" :: us))
  | unionAll {ts us} : Built true ts → Built true us →
      Built true (ts ++ (words [L!"UNION", L!"ALL"] ++ us))

theorem Built.weaken {b : Bool} {ts : List Tok} (h : Built false ts) : Built b ts := by
  cases b with
  | false => exact h
  | true =>
    generalize hb : false = b at h
    induction h with
    | nil => exact .nil
    | cons h1 h2 _ => exact .cons h1 h2
    | append h1 h2 ih _ => exact .append (ih hb) h2
    | paren h _ => exact .paren h
    | _ => cases hb

theorem PlainTok.word {w : Str} (h : w ∈ vocabulary) (k : w ≠ L!"SELECT") : PlainTok (.word w) :=
  ⟨h, by simp, by simp, by simpa using k⟩

theorem built_words {ws : List Str} (h : ∀ w ∈ ws, w ∈ vocabulary ∧ w ≠ L!"SELECT") :
    Built false (words ws) := by
  induction ws with
  | nil => exact .nil
  | cons w ws ih =>
    exact .cons (.word (h w (by simp)).1 (h w (by simp)).2) (ih fun x hx => h x (by simp [hx]))

theorem built_plain {kw : List Tok} (h : PlainWords kw) : Built false kw := by
  induction kw with
  | nil => exact .nil
  | cons t kw ih =>
    obtain ⟨w, rfl, h1, h2⟩ := h t (by simp)
    exact .cons (.word h1 h2) (ih fun x hx => h x (by simp [hx]))

theorem built_one {t : Tok} (h : PlainTok t) : Built false [t] := .cons h .nil

theorem plain_segment (p : Str) : PlainTok (segmentTok p) := by
  unfold segmentTok
  split
  · decide
  · exact ⟨trivial, by simp, by simp, by simp⟩

theorem built_names : ∀ ps : List Str, Built false (refToks ps)
  | [] => .nil
  | [p] => built_one (plain_segment p)
  | p :: p' :: ps => .cons (plain_segment p) (.cons (by decide) (built_names (p' :: ps)))

theorem aggregates_vocabulary {f : Str} (h : f ∈ aggregates) : f ∈ vocabulary :=
  List.mem_append_left _ (List.mem_append_left _ (List.mem_append_left _ h))

theorem castTypes_vocabulary {f : Str} (h : f ∈ castTypes) : f ∈ vocabulary :=
  List.mem_append_left _ (List.mem_append_left _ (List.mem_append_right _ h))

theorem selectWords_vocabulary {f : Str} (h : f ∈ selectWords) : f ∈ vocabulary :=
  List.mem_append_left _ (List.mem_append_right _ h)

theorem fixed_ne_select {w : Str} (h : w ∈ aggregates ++ castTypes ++ selectWords) :
    w ≠ L!"SELECT" := by
  rintro rfl
  revert h
  decide

theorem plain_aggregate {f : Str} (h : f ∈ aggregates) : PlainTok (.word f) :=
  .word (aggregates_vocabulary h)
    (fixed_ne_select (List.mem_append_left _ (List.mem_append_left _ h)))

theorem plain_castType {f : Str} (h : f ∈ castTypes) : PlainTok (.word f) :=
  .word (castTypes_vocabulary h)
    (fixed_ne_select (List.mem_append_left _ (List.mem_append_right _ h)))

theorem built_relation {r : List Tok} (h : r ∈ relations) : Built false r := by
  simp only [relations, List.mem_cons, List.not_mem_nil, or_false] at h
  rcases h with rfl | rfl | rfl | rfl | rfl | rfl | rfl | rfl | rfl | rfl | rfl | rfl | rfl <;>
    first
      | exact built_words (by decide)
      | exact built_one (by decide)

theorem joinWords_plain {r : List Tok} (h : r ∈ joinWords) : PlainWords r := by
  simp only [joinWords, List.mem_cons, List.not_mem_nil, or_false] at h
  rcases h with rfl | rfl | rfl | rfl <;> exact plainWords_words (by decide)

/-- Categories that may begin with `SELECT`. -/
def Spec.Cat.query? : Cat → Bool
  | .select | .query | .stmt => true
  | _ => false

/-- Categories of phrases that occur in the rules. -/
def Spec.Cat.Fine : Cat → Prop
  | .list c => c.Fine ∧ c.query? = false
  | .opt kw c => PlainWords kw ∧ c.Fine ∧ c.query? = false
  | .flag kw => PlainWords kw
  | _ => True

macro "fine" : tactic =>
  `(tactic| first
    | trivial
    | exact ⟨trivial, rfl⟩
    | exact plainWords_words (by decide)
    | exact ⟨plainWords_words (by decide), trivial, rfl⟩
    | exact ⟨plainWords_words (by decide), ⟨trivial, rfl⟩, rfl⟩
    | exact ⟨(by intro t ht; cases ht), trivial, rfl⟩
    | exact ⟨(by intro t ht; cases ht), ⟨trivial, rfl⟩, rfl⟩)

/-- Every phrase is grouped by parentheses. -/
theorem g_built {c : Cat} {ts : List Tok} (h : G c ts) (hc : c.Fine) : Built c.query? ts := by
  induction h with
  | name _ => exact built_names _
  | lit h => refine built_one ?_; cases h <;> first | decide | exact ⟨trivial, by simp, by simp, by simp⟩
  | neg => exact .cons (by decide) (built_one ⟨trivial, by simp, by simp, by simp⟩)
  | tuple _ ih => exact .paren (ih (by fine)).weaken
  | subquery _ ih => exact .paren (ih trivial)
  | aggregate hf _ ih => exact .cons (plain_aggregate hf) (.paren (ih (by fine)).weaken)
  | aggregateDistinct hf _ ih =>
    exact .cons (plain_aggregate hf) (.paren (.cons (by decide) (ih (by fine))))
  | concat _ ih => exact .cons (by decide) (.paren (ih trivial).weaken)
  | groupConcat _ _ _ ih1 ih2 ih3 =>
    exact .cons (by decide) (.paren (.append (ih1 trivial).weaken (.append (ih2 (by fine)) (ih3 (by fine)))))
  | convert hw _ ih =>
    exact .cons (by decide) (.paren (.append (ih (by fine)).weaken (.cons (by decide)
      (built_one (plain_castType hw)))))
  | exists_ _ ih => exact .cons (by decide) (.paren (ih trivial))
  | nat => exact built_one ⟨trivial, by simp, by simp, by simp⟩
  | negInt => exact .cons (by decide) (built_one ⟨trivial, by simp, by simp, by simp⟩)
  | one _ ih => have := ih hc.1; rw [hc.2] at this; exact this
  | more _ _ ih1 ih2 =>
    have := ih1 hc.1
    rw [hc.2] at this
    exact .append this (.append (built_one (by decide)) (ih2 hc))
  | absent => exact .nil
  | present _ ih =>
    have := ih hc.2.1
    rw [hc.2.2] at this
    exact .append (built_plain hc.1) this
  | off => exact .nil
  | on => exact built_plain hc
  | star => exact built_one (by decide)
  | columns _ ih => exact ih (by fine)
  | column _ _ ih1 ih2 => exact .append (ih1 trivial) (ih2 (by fine))
  | order _ _ ih1 ih2 => exact .append (ih1 trivial) (ih2 (by fine))
  | compare _ hr _ ih1 ih2 => exact .append (ih1 trivial) (.append (built_relation hr) (ih2 trivial))
  | test _ ih => exact ih trivial
  | group _ ih => exact .paren (ih trivial).weaken
  | both _ _ ih1 ih2 => exact .paren (.append (ih1 trivial).weaken (.cons (by decide) (ih2 trivial)))
  | either _ _ ih1 ih2 => exact .paren (.append (ih1 trivial).weaken (.cons (by decide) (ih2 trivial)))
  | not _ ih => exact .cons (by decide) (.paren (ih trivial).weaken)
  | conjOne _ ih => exact ih trivial
  | conjMore _ _ ih1 ih2 =>
    exact .append (ih1 trivial) (.append (built_one (by decide)) (ih2 trivial))
  | table _ _ ih1 ih2 => exact .append (ih1 trivial) (ih2 trivial)
  | noJoin => exact .nil
  | join hk _ _ _ ih1 ih2 ih3 =>
    exact .append (built_plain (joinWords_plain hk)) (.append (ih1 trivial) (.append (ih2 (by fine))
      (ih3 trivial)))
  | select ho _ _ _ _ _ _ _ _ _ _ _ _ _ _ i1 i2 i3 i4 i5 i6 i7 i8 i9 i10 i11 i12 i13 =>
    refine .select (.append (built_words fun w hw => ⟨selectWords_vocabulary (ho w hw),
      fixed_ne_select (List.mem_append_right _ (ho w hw))⟩) ?_)
    exact .append (i1 trivial) <| .append (i2 (by fine)) <| .append (i3 (by fine)) <|
      .append (i4 (by fine)) <| .append (i5 (by fine)) <| .append (i6 (by fine)) <|
      .append (i7 (by fine)) <| .append (i8 (by fine)) <| .append (i9 (by fine)) <|
      .append (i10 (by fine)) <| .append (i11 (by fine)) <| .append (i12 (by fine)) (i13 (by fine))
  | single _ ih => exact ih trivial
  | union _ _ ih1 ih2 => exact .union (ih1 trivial) (ih2 trivial)
  | unionAll _ _ ih1 ih2 => exact .unionAll (ih1 trivial) (ih2 trivial)
  | assign _ _ ih1 ih2 => exact .append (ih1 trivial) (.cons (by decide) (ih2 trivial))
  | row _ ih => exact .paren (ih (by fine)).weaken
  | rows _ _ ih1 ih2 =>
    exact .append (.paren (ih1 (by fine)).weaken) (.cons (by decide) (ih2 (by fine)))
  | query _ ih => exact ih trivial
  | insert _ _ _ _ i1 i2 i3 i4 =>
    exact .cons (by decide) (.append (i1 (by fine)) (.cons (by decide) (.append (i2 (by fine))
      (.append (i3 (by fine)) (i4 (by fine))))))
  | insertConflict _ _ _ _ _ i1 i2 i3 i4 i5 =>
    exact .cons (by decide) (.append (i1 (by fine)) (.cons (by decide) (.append (i2 (by fine))
      (.append (i3 (by fine)) (.append (built_words (by decide)) (.append (.paren (i4 trivial).weaken)
      (.append (built_words (by decide)) (i5 (by fine)))))))))
  | replace _ _ _ i1 i2 i3 =>
    exact .cons (by decide) (.append (i1 (by fine)) (.cons (by decide) (.append (i2 (by fine))
      (i3 (by fine)))))
  | update _ _ _ _ i1 i2 i3 i4 =>
    exact .cons (by decide) (.append (i1 (by fine)) (.append (i2 (by fine)) (.cons (by decide)
      (.append (i3 (by fine)) (i4 (by fine))))))
  | delete _ _ _ _ i1 i2 i3 i4 =>
    exact .cons (by decide) (.append (i1 (by fine)) (.append (i2 (by fine)) (.cons (by decide)
      (.append (i3 (by fine)) (i4 (by fine))))))

/-! ### Vocabulary -/

theorem built_expected {b : Bool} {ts : List Tok} (h : Built b ts) : ∀ t ∈ ts, Expected t := by
  induction h with
  | nil => simp
  | cons h _ ih => simp only [List.mem_cons, forall_eq_or_imp]; exact ⟨h.1, ih⟩
  | append _ _ ih1 ih2 =>
    simp only [List.mem_append, or_imp, forall_and]
    exact ⟨ih1, ih2⟩
  | paren _ ih =>
    intro t ht
    simp only [paren, List.mem_cons, List.mem_append, List.not_mem_nil, or_false] at ht
    rcases ht with rfl | ht | rfl
    · decide
    · exact ih t ht
    · decide
  | select _ ih =>
    simp only [List.mem_cons, forall_eq_or_imp]
    exact ⟨by decide, ih⟩
  | union _ _ ih1 ih2 =>
    simp only [List.mem_append, List.mem_cons, or_imp, forall_and, forall_eq]
    exact ⟨ih1, by decide, ih2⟩
  | unionAll _ _ ih1 ih2 =>
    simp only [List.mem_append, words, List.map, List.mem_cons, List.not_mem_nil, or_imp, forall_and,
      forall_eq]
    exact ⟨ih1, ⟨by decide, by decide, by simp⟩, ih2⟩

/-! ### Parentheses -/

theorem depth_other {n : Nat} {t : Tok} {ts : List Tok} (h1 : t ≠ .sym '(') (h2 : t ≠ .sym ')') :
    depth n (t :: ts) = depth n ts := by
  conv => lhs; unfold depth
  split <;> simp_all

theorem built_depth {b : Bool} {ts : List Tok} (h : Built b ts) (n : Nat) (r : List Tok) :
    depth n (ts ++ r) = depth n r := by
  induction h generalizing n r with
  | nil => rfl
  | cons h _ ih => rw [List.cons_append, depth_other h.2.1 h.2.2.1, ih]
  | append _ _ ih1 ih2 => rw [List.append_assoc, ih1, ih2]
  | @paren b ts _ ih =>
    have e : paren ts ++ r = .sym '(' :: (ts ++ (.sym ')' :: r)) := by simp [paren]
    rw [e]
    show depth (n + 1) (ts ++ (.sym ')' :: r)) = _
    rw [ih]
    rfl
  | select _ ih => rw [List.cons_append, depth_other (by simp) (by simp), ih]
  | union _ _ ih1 ih2 =>
    rw [List.append_assoc, ih1, List.cons_append, depth_other (by simp) (by simp), ih2]
  | unionAll _ _ ih1 ih2 =>
    rw [List.append_assoc, ih1]
    refine (depth_other (by simp) (by simp)).trans ((depth_other (by simp) (by simp)).trans ?_)
    exact ih2 n r

theorem built_balanced {b : Bool} {ts : List Tok} (h : Built b ts) : Balanced ts := by
  have := built_depth h 0 []
  rw [List.append_nil] at this
  exact this

/-! ### Places of `SELECT` -/

/-- Tokens after which `SELECT` may follow. -/
def opens (t : Tok) : Bool := t == .sym '(' || t == .word L!"UNION" || t == .word L!"ALL"

/-- Every `SELECT` is allowed where it stands; `b` tells whether the first token may be one. -/
def placedFrom : Bool → List Tok → Prop
  | _, [] => True
  | b, t :: ts => (t = .word L!"SELECT" → b = true) ∧ placedFrom (opens t) ts

theorem placedFrom_mono {b : Bool} {ts : List Tok} (h : placedFrom false ts) : placedFrom b ts := by
  cases ts with
  | nil => trivial
  | cons t ts => exact ⟨fun e => absurd (h.1 e) (by simp), h.2⟩

theorem built_placed {b : Bool} {ts : List Tok} (h : Built b ts) (c : Bool) (hb : b = true → c = true)
    {r : List Tok} (hr : placedFrom false r) : placedFrom c (ts ++ r) := by
  induction h generalizing c r with
  | nil => exact placedFrom_mono hr
  | cons h _ ih => exact ⟨fun e => absurd e h.2.2.2, ih _ (by simp) hr⟩
  | append _ _ ih1 ih2 => rw [List.append_assoc]; exact ih1 c hb (ih2 false (by simp) hr)
  | @paren b ts _ ih =>
    have e : paren ts ++ r = .sym '(' :: (ts ++ (.sym ')' :: r)) := by simp [paren]
    rw [e]
    exact ⟨fun e => by simp at e, ih _ (fun _ => rfl) ⟨fun e => by simp at e, hr⟩⟩
  | select _ ih => exact ⟨fun _ => hb rfl, ih _ (by simp) hr⟩
  | union _ _ ih1 ih2 =>
    rw [List.append_assoc]
    exact ih1 c hb ⟨fun e => by simp at e, ih2 _ (fun _ => rfl) hr⟩
  | unionAll _ _ ih1 ih2 =>
    rw [List.append_assoc]
    exact ih1 c hb ⟨fun e => by simp at e, fun e => by simp at e, ih2 _ (fun _ => rfl) hr⟩

theorem placedFrom_spec {c : Bool} {a b : List Tok} (h : placedFrom c (a ++ .word L!"SELECT" :: b)) :
    (a = [] ∧ c = true) ∨ ∃ t, a.getLast? = some t ∧ opens t = true := by
  induction a generalizing c with
  | nil => exact Or.inl ⟨rfl, h.1 rfl⟩
  | cons t a ih =>
    right
    rcases ih h.2 with ⟨rfl, ht⟩ | ⟨u, hu, ho⟩
    · exact ⟨t, rfl, ht⟩
    · refine ⟨u, ?_, ho⟩
      rw [List.getLast?_cons, hu]
      rfl

theorem built_selectPlaced {b : Bool} {ts : List Tok} (h : Built b ts) : SelectPlaced ts := by
  intro a c e
  have := built_placed h true (fun _ => rfl) (r := []) trivial
  rw [List.append_nil, e] at this
  rcases placedFrom_spec this with ⟨h1, _⟩ | ⟨t, h1, h2⟩
  · exact Or.inl h1
  · simp only [opens, Bool.or_eq_true, beq_iff_eq] at h2
    rcases h2 with (rfl | rfl) | rfl
    · exact Or.inr (Or.inl h1)
    · exact Or.inr (Or.inr (Or.inl h1))
    · exact Or.inr (Or.inr (Or.inr h1))

end SqlPuzzle
