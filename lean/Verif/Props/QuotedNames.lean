import Verif.Spec.QuotedNames
import Verif.Props.Strings

/-!
C80: names in which segments are written between quotes.
-/

namespace SqlPuzzle

open Spec

private theorem split_bare {q : Char} {p : Str} (hq : q ∉ p) (hd : '.' ∉ p) (tail : Str) :
    ∀ (n : Nat) (acc : Str), (p ++ tail).length < n →
      ∃ m, tail.length < m ∧ reSplit (refMatch q) n acc (p ++ tail) = reSplit (refMatch q) m (acc ++ p) tail := by
  induction p with
  | nil => intro n acc hn; exact ⟨n, by simpa using hn, by simp⟩
  | cons c p ih =>
    intro n acc hn
    simp only [List.mem_cons, not_or] at hq hd
    cases n with
    | zero => simp at hn
    | succ n =>
      obtain ⟨m, h1, h2⟩ := ih hq.2 hd.2 n (acc ++ [c]) (by simpa using hn)
      refine ⟨m, h1, ?_⟩
      simp only [List.cons_append, reSplit, refMatch_chr (Ne.symm hq.1) (Ne.symm hd.1)]
      rw [h2]
      simp

private theorem parts_segments {q : Char} (hq : q ≠ '.') : ∀ {gs : List NameSegment}, (∀ g ∈ gs, g.Proper q) →
    ∀ n, (dotted (gs.map (NameSegment.written q))).length < n →
      (reSplit (refMatch q) n [] (dotted (gs.map (NameSegment.written q)))).filter (fun i => !i.isEmpty) =
        gs.map NameSegment.name
  | [], _, n, hn => by
    cases n with
    | zero => simp at hn
    | succ n => simp [dotted, reSplit]
  | g :: gs, h, n, hn => by
    have hg := h g (by simp)
    have hgs : ∀ g ∈ gs, g.Proper q := fun x hx => h x (by simp [hx])
    have key : ∀ (n : Nat) (tail : Str), (g.written q ++ tail).length < n → (tail = [] ∨ ∃ t, tail = '.' :: t) →
        ∃ m, tail.length < m ∧ (reSplit (refMatch q) n [] (g.written q ++ tail)).filter (fun i => !i.isEmpty) =
          g.name :: (reSplit (refMatch q) m [] tail).filter (fun i => !i.isEmpty) := by
      intro n tail hn ht
      cases g with
      | bare p =>
        obtain ⟨h1, h2, h3⟩ := hg
        obtain ⟨m, h4, h5⟩ := split_bare h2 h3 tail n [] hn
        refine ⟨m, h4, ?_⟩
        show (reSplit (refMatch q) n [] (p ++ tail)).filter _ = p :: _
        rw [h5, List.nil_append]
        have he : p.isEmpty = false := by simpa using h1
        cases m with
        | zero => simp at h4
        | succ m =>
          rcases ht with rfl | ⟨t, rfl⟩
          · simp [reSplit, he]
          · simp [reSplit, refMatch_dot hq, he]
      | quoted p =>
        obtain ⟨h1, h2⟩ := hg
        have e : NameSegment.written q (.quoted p) ++ tail = q :: (p ++ q :: tail) := by simp [NameSegment.written]
        rw [e] at hn ⊢
        cases n with
        | zero => simp at hn
        | succ n =>
          refine ⟨n, by simp at hn; omega, ?_⟩
          simp only [reSplit, refMatch_quoted h1 h2, Option.toList, List.singleton_append]
          have : p.isEmpty = false := by simpa using h1
          simp [this, NameSegment.name]
    cases gs with
    | nil =>
      simp only [List.map, dotted] at hn ⊢
      obtain ⟨m, hm, hk⟩ := key n [] (by simpa using hn) (.inl rfl)
      rw [List.append_nil] at hk
      rw [hk]
      cases m with
      | zero => simp at hm
      | succ m => simp [reSplit]
    | cons g' gs =>
      simp only [List.map, dotted] at hn ⊢
      obtain ⟨m, hm, hk⟩ := key n _ hn (.inr ⟨_, rfl⟩)
      rw [hk]
      cases m with
      | zero => simp at hm
      | succ m =>
        simp only [reSplit, refMatch_dot hq, Option.toList, List.nil_append]
        have := parts_segments hq hgs m (by simp only [List.map]; simpa using hm)
        simp only [List.map] at this
        simp [this]

private theorem meant_read {gs : List NameSegment} (h : ∀ g ∈ gs, g ≠ .quoted ['*']) :
    refToks (gs.map NameSegment.name) = withDots (gs.map NameSegment.meant) := by
  have one : ∀ g ∈ gs, segmentTok g.name = g.meant := by
    intro g hg
    cases g with
    | bare p => rfl
    | quoted p => exact if_neg fun e => h _ hg (by rw [show p = ['*'] from e])
  clear h
  induction gs with
  | nil => rfl
  | cons g gs ih =>
    have ih := ih fun x hx => one x (by simp [hx])
    have hg := one g (by simp)
    cases gs with
    | nil => simp only [List.map, refToks, withDots, hg]
    | cons g' gs =>
      simp only [List.map] at ih
      simp only [List.map, refToks, withDots, hg, ih]

/-- C80 in full: whatever the segments of a name are, each written as it is or between quotes, the server reads the names of
the segments with dots between them. -/
def C80_claim : Prop :=
  ∀ (cx : Ctx) (n : Nat) (d : Dialect), Fits cx d → ∀ gs : List NameSegment, (∀ g ∈ gs, g.Proper cx.backend.quote) →
    ∃ t, (sem cx (n + 1)).str (.sqlRef (.str (dotted (gs.map (NameSegment.written cx.backend.quote))))) = .ok t ∧
      lex d t = withDots (gs.map NameSegment.meant)

/-- It is false: an asterisk between quotes is written without the quotes, so the server reads all columns. -/
theorem C80_refuted : ¬ C80_claim := by
  intro h
  obtain ⟨t, h1, h2⟩ := h ⟨.sql, ⟨id, id, fun _ => true, fun _ => [], fun _ => []⟩⟩ 0 standardDialect rfl
    [.bare L!"t", .quoted L!"*"] (by
      intro g hg
      simp only [List.mem_cons, List.not_mem_nil, or_false] at hg
      rcases hg with rfl | rfl
      · exact ⟨by decide, by decide, by decide⟩
      · exact ⟨by decide, by decide⟩)
  have e : t = L!"\"t\".*" := Except.ok.inj (h1.symm.trans (by decide +kernel))
  rw [e] at h2
  revert h2
  decide +kernel

/-- C80. A name whose segments are written as they are or between quotes, `table."col.umn"`: the server reads, whatever
follows, exactly the names of the segments, with what was between the quotes as it is, dots and spaces included.  Missing:
an asterisk between quotes. -/
theorem C80_segments_partial (cx : Ctx) (n : Nat) (d : Dialect) (hf : Fits cx d) (gs : List NameSegment)
    (hg : ∀ g ∈ gs, g.Proper cx.backend.quote) (hs : ∀ g ∈ gs, g ≠ .quoted ['*']) :
    ∃ t, (sem cx (n + 1)).str (.sqlRef (.str (dotted (gs.map (NameSegment.written cx.backend.quote))))) = .ok t ∧
      ∀ rest, (∀ cs, rest ≠ cx.backend.quote :: cs) →
        lex d (t ++ rest) = withDots (gs.map NameSegment.meant) ++ lex d rest := by
  have hq : cx.backend.quote ≠ '.' := by cases cx.backend <;> decide
  have hp : refParts cx.backend.quote (dotted (gs.map (NameSegment.written cx.backend.quote))) =
      gs.map NameSegment.name := parts_segments hq hg _ (by simp)
  refine ⟨_, rfl, fun rest hr => ?_⟩
  rw [← meant_read hs, ← hp]
  rw [← hf] at hr hg hp ⊢
  refine lex_refText hf.known ?_ hr
  intro p hm
  rw [hp] at hm
  obtain ⟨g, h1, rfl⟩ := List.mem_map.mp hm
  have := hg g h1
  cases g with
  | bare p => exact this.2.1
  | quoted p => exact this.2

/-- C80. Quotes around a segment that has no dot in it change nothing in the text. -/
theorem C80_quotes_optional (cx : Ctx) (n : Nat) (gs gs' : List NameSegment) (hg : ∀ g ∈ gs, g.Proper cx.backend.quote)
    (hg' : ∀ g ∈ gs', g.Proper cx.backend.quote) (he : gs.map NameSegment.name = gs'.map NameSegment.name) :
    (sem cx (n + 1)).str (.sqlRef (.str (dotted (gs.map (NameSegment.written cx.backend.quote))))) =
      (sem cx (n + 1)).str (.sqlRef (.str (dotted (gs'.map (NameSegment.written cx.backend.quote))))) := by
  have hq : cx.backend.quote ≠ '.' := by cases cx.backend <;> decide
  have hp : refParts cx.backend.quote (dotted (gs.map (NameSegment.written cx.backend.quote))) =
      gs.map NameSegment.name := parts_segments hq hg _ (by simp)
  have hp' : refParts cx.backend.quote (dotted (gs'.map (NameSegment.written cx.backend.quote))) =
      gs'.map NameSegment.name := parts_segments hq hg' _ (by simp)
  show Except.ok (reference _ _) = Except.ok (reference _ _)
  unfold reference
  rw [hp, hp', he]

/-- `table."col.umn"` and `"my table"`. -/
example : (∀ g ∈ [NameSegment.bare L!"table", .quoted L!"col.umn"], g.Proper '"') ∧
    (∀ g ∈ [NameSegment.bare L!"table", .quoted L!"col.umn"], g ≠ .quoted ['*']) ∧
    dotted ([NameSegment.bare L!"table", .quoted L!"col.umn"].map (NameSegment.written '"')) = L!"table.\"col.umn\"" ∧
    withDots ([NameSegment.bare L!"table", .quoted L!"col.umn"].map NameSegment.meant) =
      [.ident L!"table", .sym '.', .ident L!"col.umn"] := by
  refine ⟨?_, ?_, rfl, rfl⟩
  all_goals
    intro g hg
    simp only [List.mem_cons, List.not_mem_nil, or_false] at hg
    rcases hg with rfl | rfl
  · exact ⟨by decide, by decide, by decide⟩
  · exact ⟨by decide, by decide⟩
  · rintro ⟨⟩
  · simp

example : (∀ g ∈ [NameSegment.quoted L!"my table"], g.Proper '"') ∧
    [NameSegment.quoted L!"my table"].map NameSegment.name = [NameSegment.bare L!"my table"].map NameSegment.name := by
  refine ⟨?_, rfl⟩
  intro g hg
  rw [List.mem_singleton.mp hg]
  exact ⟨by decide, by decide⟩

end SqlPuzzle
