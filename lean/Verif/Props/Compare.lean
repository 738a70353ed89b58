import Verif.Spec.Compare
import Verif.Spec.ClassNames
import Verif.Proofs.Entries
import Verif.Proofs.Basic
import Verif.Proofs.Joins

/-!
C53: library objects and strings are ordered by their texts. C54: `repr`. C55: queries as dictionary
keys and joined subqueries.
-/

namespace SqlPuzzle

open Spec

private def cx0 : Ctx := ⟨.sql, ⟨id, id, fun _ => true, fun _ => [], fun _ => []⟩⟩

private theorem strLt_iff {s t : Str} : strLt s t = true ↔ Before s t := by
  rw [before_iff, strLt]; simp

private theorem strLt_not {s t : Str} : (!strLt s t) = true ↔ ¬ Before s t := by
  rw [← strLt_iff]; simp

private theorem before_tri (s t : Str) : Before s t ∨ s = t ∨ Before t s := by
  by_cases h : s = t
  · exact .inr (.inl h)
  · rcases strLe_total s t with h1 | h1
    · exact .inl (before_iff.mpr ⟨h1, h⟩)
    · exact .inr (.inr (before_iff.mpr ⟨h1, fun e => h e.symm⟩))

private theorem before_asymm {s t : Str} (h : Before s t) : ¬ Before t s := fun h' =>
  (before_iff.mp h).2 (strLe_antisymm (before_iff.mp h).1 (before_iff.mp h').1)

/-- The order meant in this file is a strict total order of the strings. -/
theorem C53_total_order :
    (∀ s, ¬ Before s s) ∧ (∀ s t u, Before s t → Before t u → Before s u) ∧
    ∀ s t, Before s t ∨ s = t ∨ Before t s := by
  refine ⟨fun s h => (before_iff.mp h).2 rfl, fun s t u h1 h2 => ?_, before_tri⟩
  rw [before_iff] at *
  refine ⟨strLe_trans h1.1 h2.1, ?_⟩
  rintro rfl
  exact h1.2 (strLe_antisymm h1.1 h2.1)

private theorem lt_step {cx : Ctx} {n : Nat} {a b : Obj} {s t : Str} (ha : a.isSql = true)
    (hs : ComparedBy cx n a s) (ht : ComparedBy cx n b t) :
    dunderLt (sem cx n) a b = .ok (some (strLt s t)) := by
  cases hs with
  | string s => cases ha
  | object _ h1 =>
    cases ht with
    | string t => simp only [dunderLt, h1, ok_bind]
    | object h2 h3 =>
      unfold dunderLt
      split
      · cases h2
      · simp only [h2, h1, h3, ok_bind, if_true]

private theorem eq_step {cx : Ctx} {n : Nat} {a b : Obj} {s t : Str}
    (hs : ComparedBy cx (n + 1) a s) (ht : ComparedBy cx (n + 1) b t) (na : ¬ OwnEquality a)
    (nb : ¬ OwnEquality b) : (sem cx (n + 1)).eq a b = .ok (s == t) := by
  show eqF cx (sem cx n) a b = _
  have key : ∀ o : Obj, o.isSql = true → ¬ OwnEquality o → o.textual = true := by
    intro o ho hn
    cases o <;> first | rfl | (cases ho; done) | exact absurd (by constructor) hn
  unfold eqF
  cases hs with
  | string s =>
    rw [if_neg (by simp [Obj.textual])]
    cases ht with
    | string t => rfl
    | object h2 h3 =>
      have h4 := key b h2 nb
      have h3 : renderF cx (sem cx n) b = .ok t := h3
      have h5 : ∀ o : Obj, o.textual = true → renderF cx (sem cx n) o = .ok t →
          (renderF cx (sem cx n) o >>= fun u => (.ok (u == s) : R Bool)) = .ok (s == t) := by
        intro o _ h; rw [h, ok_bind]; congr 1; exact Bool.beq_comm
      cases b <;> first | (cases h4; done) | exact h5 _ rfl h3
  | object h1 h2 =>
    have h2 : renderF cx (sem cx n) a = .ok s := h2
    rw [if_pos (key a h1 na)]
    cases ht with
    | string t => simp only [h2, ok_bind]
    | object h3 h4 =>
      have h4 : renderF cx (sem cx n) b = .ok t := h4
      split
      · cases h3
      · simp only [h3, if_true, textEq, h2, h4, ok_bind]

/-- Python's rule, when both methods know an answer and the answers agree. -/
private theorem rich_step {dir refl : Obj → Obj → R (Option Bool)} {built : Str → Str → Bool}
    {a b : Obj} {r : Bool} (hab : a.isSql = true ∨ b.isSql = true)
    (h1 : a.isSql = true → dir a b = .ok (some r))
    (h2 : b.isSql = true → a.isSql = false ∨ b.properSub a = true → refl b a = .ok (some r)) :
    richCompare dir refl built a b = .ok r := by
  unfold richCompare
  by_cases ha : a.isSql = true
  · rw [if_pos ha]
    by_cases hp : b.properSub a = true
    · have hb : b.isSql = true := by
        cases b <;> first | rfl | (cases a <;> cases hp)
      rw [if_pos hp, h2 hb (.inr hp)]
      rfl
    · rw [if_neg hp, ok_bind]
      simp only [h1 ha, ok_bind]
  · have hb : b.isSql = true := hab.resolve_left ha
    rw [if_neg ha, if_pos hb, h2 hb (.inl (by simpa using ha))]
    rfl

/-- C53, the part that holds. Strings and library objects that have no equality of their own are
ordered by their texts, whichever of the operators is used and on whichever side they stand: exactly
one of `<`, `==` and `>` holds, `<=` and `>=` agree with them, and nothing is raised. -/
theorem C53_text_order_partial (cx : Ctx) (n : Nat) {a b : Obj} {s t : Str}
    (hs : ComparedBy cx (n + 1) a s) (ht : ComparedBy cx (n + 1) b t)
    (na : ¬ OwnEquality a) (nb : ¬ OwnEquality b) :
    Answers (pyLt (sem cx (n + 1)) a b) (Before s t) ∧
    Answers (pyGt (sem cx (n + 1)) a b) (Before t s) ∧
    Answers (pyLe (sem cx (n + 1)) a b) (Before s t ∨ s = t) ∧
    Answers (pyGe (sem cx (n + 1)) a b) (Before t s ∨ s = t) ∧
    Answers ((sem cx (n + 1)).eq a b) (s = t) := by
  have hle : ∀ s t, strLe s t = true ↔ Before s t ∨ s = t := by
    intro s t
    rw [before_iff]
    constructor
    · intro h
      by_cases e : s = t
      · exact .inr e
      · exact .inl ⟨h, e⟩
    · rintro (⟨h, _⟩ | rfl)
      · exact h
      · exact strLe_refl _
  have heq := eq_step hs ht na nb
  have heq' := eq_step ht hs nb na
  have hbn : ∀ {s t : Str}, strLt s t = false ↔ ¬ Before s t := by
    intro s t; rw [← strLt_iff]; simp
  have gt1 : ∀ {a b : Obj} {s t : Str}, a.isSql = true → ComparedBy cx (n + 1) a s →
      ComparedBy cx (n + 1) b t → (sem cx (n + 1)).eq a b = .ok (s == t) →
      dunderGt (sem cx (n + 1)) a b = .ok (some (strLt t s)) := by
    intro a b s t ha hs ht he
    unfold dunderGt
    rw [lt_step ha hs ht, ok_bind]
    cases h : strLt s t with
    | true =>
      have := before_asymm (strLt_iff.mp h)
      simp only
      rw [hbn.mpr this]
    | false =>
      simp only [he, ok_bind]
      congr 2
      rcases before_tri s t with h1 | h1 | h1
      · exact absurd h1 (hbn.mp h)
      · subst h1; rw [h]; simp
      · rw [strLt_iff.mpr h1]
        have : s ≠ t := fun e => (before_iff.mp h1).2 e.symm
        simp [this]
  have le1 : ∀ {a b : Obj} {s t : Str}, a.isSql = true → ComparedBy cx (n + 1) a s →
      ComparedBy cx (n + 1) b t → (sem cx (n + 1)).eq a b = .ok (s == t) →
      dunderLe (sem cx (n + 1)) a b = .ok (some (strLe s t)) := by
    intro a b s t ha hs ht he
    unfold dunderLe
    rw [lt_step ha hs ht, ok_bind]
    cases h : strLt s t with
    | true =>
      simp only
      rw [(hle s t).mpr (.inl (strLt_iff.mp h))]
    | false =>
      simp only [he, ok_bind]
      congr 2
      by_cases e : s = t
      · subst e; rw [strLe_refl]; simp
      · have : strLe s t = false := by
          cases h1 : strLe s t with
          | false => rfl
          | true => exact absurd (before_iff.mpr ⟨h1, e⟩) (hbn.mp h)
        rw [this]; simpa using e
  have ge1 : ∀ {a b : Obj} {s t : Str}, a.isSql = true → ComparedBy cx (n + 1) a s →
      ComparedBy cx (n + 1) b t →
      dunderGe (sem cx (n + 1)) a b = .ok (some (strLe t s)) := by
    intro a b s t ha hs ht
    unfold dunderGe
    rw [lt_step ha hs ht, ok_bind]
    simp only
    congr 2
    cases h : strLt s t with
    | true =>
      cases h1 : strLe t s with
      | false => rfl
      | true =>
        have h2 := before_iff.mp (strLt_iff.mp h)
        exact absurd (strLe_antisymm h2.1 h1) h2.2
    | false =>
      rcases before_tri s t with h1 | h1 | h1
      · exact absurd h1 (hbn.mp h)
      · subst h1; rw [strLe_refl]; rfl
      · rw [(before_iff.mp h1).1]; rfl
  have all : ∀ {dir refl : Obj → Obj → R (Option Bool)} {built : Str → Str → Bool} {r : Bool},
      (a.isSql = true → dir a b = .ok (some r)) → (b.isSql = true → refl b a = .ok (some r)) →
      built s t = r → richCompare dir refl built a b = .ok r := by
    intro dir refl built r h1 h2 h3
    by_cases hab : a.isSql = true ∨ b.isSql = true
    · exact rich_step hab h1 fun hb _ => h2 hb
    · rw [not_or] at hab
      cases hs with
      | object h _ => exact absurd h hab.1
      | string s =>
        cases ht with
        | object h _ => exact absurd h hab.2
        | string t => subst h3; rfl
  refine ⟨⟨_, all (fun ha => lt_step ha hs ht) (fun hb => gt1 hb ht hs heq') rfl, strLt_iff⟩,
    ⟨_, all (fun ha => gt1 ha hs ht heq) (fun hb => lt_step hb ht hs) rfl, strLt_iff⟩,
    ⟨_, all (fun ha => le1 ha hs ht heq) (fun hb => ge1 hb ht hs) rfl, hle s t⟩,
    ⟨_, all (fun ha => ge1 ha hs ht) (fun hb => le1 hb ht hs heq') rfl, ?_⟩,
    ⟨_, heq, by simp⟩⟩
  rw [hle]
  exact ⟨fun h => h.imp_right Eq.symm, fun h => h.imp_right Eq.symm⟩

example : ComparedBy cx0 3 (.custom L!"a + 1") L!"a + 1" ∧ ComparedBy cx0 3 (.str L!"b") L!"b" ∧
    pyLt (sem cx0 3) (.custom L!"a + 1") (.str L!"b") = .ok true ∧
    pyLt (sem cx0 3) (.str L!"b") (.custom L!"a + 1") = .ok false ∧
    pyGe (sem cx0 3) (.sqlValue (.int 12)) (.sqlRef (.str L!"x")) = .ok true :=
  ⟨.object rfl rfl, .string _, rfl, rfl, rfl⟩

/-- C53. `a < b` and `a >= b` follow the texts for every library object `a`, queries included, and
every string or library object `b`, unless both are relations. -/
theorem C53_less (cx : Ctx) (n : Nat) {a b : Obj} {s t : Str} (ha : a.isSql = true)
    (hs : ComparedBy cx (n + 1) a s) (ht : ComparedBy cx (n + 1) b t)
    (hr : ¬ (IsRelation a ∧ IsRelation b)) :
    Answers (pyLt (sem cx (n + 1)) a b) (Before s t) ∧
    Answers (pyGe (sem cx (n + 1)) a b) (¬ Before s t) := by
  by_cases ho : OwnEquality a ∨ OwnEquality b
  · have hp : b.properSub a = false := by
      cases h : b.properSub a with
      | false => rfl
      | true =>
        exfalso
        unfold Obj.properSub at h
        split at h
        · rcases ho with h | h <;> cases h
        · rcases ho with h | h <;> cases h
        · exact hr ⟨⟨_, _⟩, ⟨_, _⟩⟩
        · cases h
    refine ⟨⟨strLt s t, rich_step (.inl ha) (fun _ => lt_step ha hs ht) ?_, strLt_iff⟩,
      ⟨!strLt s t, rich_step (.inl ha) (fun _ => ?_) ?_, strLt_not⟩⟩
    · rintro _ (h | h)
      · rw [ha] at h; cases h
      · rw [hp] at h; cases h
    · unfold dunderGe
      rw [lt_step ha hs ht]; rfl
    · rintro _ (h | h)
      · rw [ha] at h; cases h
      · rw [hp] at h; cases h
  · rw [not_or] at ho
    obtain ⟨h1, h2, h3, ⟨r, h4, h5⟩, h6⟩ := C53_text_order_partial cx n hs ht ho.1 ho.2
    refine ⟨h1, r, h4, h5.trans ?_⟩
    constructor
    · rintro (h | rfl)
      · exact before_asymm h
      · exact fun h => (before_iff.mp h).2 rfl
    · intro h
      rcases before_tri s t with h' | h' | h'
      · exact absurd h' h
      · exact .inr h'
      · exact .inl h'

/-- C53. A library object has no order with anything but strings and library objects: the four
operators raise `TypeError`, on either side. -/
theorem C53_other (cx : Ctx) (n : Nat) {a b : Obj} (ha : a.isSql = true) (hb : b.isSql = false)
    (hs : b.isStr = false) :
    (∀ op ∈ [pyLt, pyGt, pyLe, pyGe], op (sem cx n) a b = .error .typeError) ∧
    ∀ op ∈ [pyLt, pyGt, pyLe, pyGe], op (sem cx n) b a = .error .typeError := by
  have h0 : dunderLt (sem cx n) a b = .ok none := by
    unfold dunderLt
    split
    · cases hs
    · rw [if_neg (by rw [hb]; exact Bool.false_ne_true)]
  have h1 : dunderGt (sem cx n) a b = .ok none := by unfold dunderGt; rw [h0]; rfl
  have h2 : dunderLe (sem cx n) a b = .ok none := by unfold dunderLe; rw [h0]; rfl
  have h3 : dunderGe (sem cx n) a b = .ok none := by unfold dunderGe; rw [h0]; rfl
  have hp : b.properSub a = false := by
    cases b <;> first | rfl | cases hb
  constructor
  · intro op hop
    simp only [List.mem_cons, List.not_mem_nil, or_false] at hop
    rcases hop with rfl | rfl | rfl | rfl <;>
      simp only [pyLt, pyGt, pyLe, pyGe, richCompare, ha, hp, if_true, Bool.false_eq_true, if_false,
        ok_bind, h0, h1, h2, h3]
  · intro op hop
    simp only [List.mem_cons, List.not_mem_nil, or_false] at hop
    rcases hop with rfl | rfl | rfl | rfl <;>
      simp only [pyLt, pyGt, pyLe, pyGe, richCompare, ha, hb, if_true, Bool.false_eq_true, if_false,
        ok_bind, h0, h1, h2, h3]

example : pyLt (sem cx0 3) (.select {}) (.int 1) = .error .typeError := rfl

/-- C53 as stated: the operators order all library objects and strings by their texts. -/
def C53_claim : Prop :=
  ∀ (cx : Ctx) (n : Nat) (a b : Obj) (s t : Str), ComparedBy cx (n + 1) a s →
    ComparedBy cx (n + 1) b t →
    Answers (pyLt (sem cx (n + 1)) a b) (Before s t) ∧
    Answers (pyGt (sem cx (n + 1)) a b) (Before t s) ∧
    Answers (pyLe (sem cx (n + 1)) a b) (Before s t ∨ s = t) ∧
    Answers (pyGe (sem cx (n + 1)) a b) (Before t s ∨ s = t)

/-- C53 is false as stated: `select('a')` and `select(C('"a"'))` have the same text, but since they
are not equal each is `>` the other; a query is also `>` its own text. -/
theorem C53_refuted : ¬ C53_claim := by
  intro h
  obtain ⟨r, h1, h2⟩ := (h cx0 4 (.select { columns := [⟨.str L!"a", .none⟩] })
    (.select { columns := [⟨.custom L!"\"a\"", .none⟩] }) L!"SELECT \"a\"" L!"SELECT \"a\""
    (.object rfl (by decide +kernel)) (.object rfl (by decide +kernel))).2.1
  have h3 : pyGt (sem cx0 5) (.select { columns := [⟨.str L!"a", .none⟩] })
    (.select { columns := [⟨.custom L!"\"a\"", .none⟩] }) = .ok true := by decide +kernel
  rw [h3] at h1
  cases h1
  exact (before_iff.mp (h2.mp rfl)).2 rfl

/-- Both directions of `>` between the two queries of `C53_refuted`, and a query against its own
text. -/
theorem C53_refuted_both :
    pyGt (sem cx0 5) (.select { columns := [⟨.str L!"a", .none⟩] })
      (.select { columns := [⟨.custom L!"\"a\"", .none⟩] }) = .ok true ∧
    pyGt (sem cx0 5) (.select { columns := [⟨.custom L!"\"a\"", .none⟩] })
      (.select { columns := [⟨.str L!"a", .none⟩] }) = .ok true ∧
    pyGt (sem cx0 5) (.select { columns := [⟨.str L!"a", .none⟩] }) (.str L!"SELECT \"a\"") =
      .ok true ∧
    pyLe (sem cx0 5) (.select { columns := [⟨.str L!"a", .none⟩] }) (.str L!"SELECT \"a\"") =
      .ok false := by decide +kernel

/-! ### C54 -/

/-- C54. `repr(o)` of a library object is `<`, the name of its class, `: `, its SQL text and `>`; it
raises exactly what `str(o)` raises. -/
theorem C54_repr (S : Sem) {o : Obj} (ho : o.isSql = true) :
    ∃ c, InClass o c ∧ ':' ∉ c ∧
      (∀ t, S.str o = .ok t → pyRepr S o = .ok (L!"<" ++ c ++ L!": " ++ t ++ L!">")) ∧
      ∀ e, S.str o = .error e → pyRepr S o = .error e := by
  have key : ∃ c, InClass o c ∧ o.className = some c ∧ ':' ∉ c := by
    cases o <;> first
      | (cases ho; done)
      | exact ⟨_, by constructor, rfl, by decide⟩
      | (rename_i k v; cases k <;> exact ⟨_, by constructor, rfl, by decide⟩)
      | (rename_i k _ _; cases k <;> exact ⟨_, by constructor, rfl, by decide⟩)
  obtain ⟨c, h0, h1, h2⟩ := key
  refine ⟨c, h0, h2, fun t ht => ?_, fun e he => ?_⟩
  · simp only [pyRepr, h1, ht, ok_bind]
    rfl
  · simp only [pyRepr, h1, he]
    rfl

private theorem colon_split {c c' u u' : Str} (h : ':' ∉ c) (h' : ':' ∉ c')
    (e : c ++ ':' :: u = c' ++ ':' :: u') : c = c' ∧ u = u' := by
  induction c generalizing c' with
  | nil =>
    cases c' with
    | nil => exact ⟨rfl, by simpa using e⟩
    | cons x xs =>
      have : ':' = x := by simpa using congrArg List.head? e
      exact absurd (by rw [← this]; simp) h'
  | cons x xs ih =>
    cases c' with
    | nil =>
      have : x = ':' := by simpa using congrArg List.head? e
      exact absurd (by rw [this]; simp) h
    | cons y ys =>
      simp only [List.cons_append, List.cons.injEq] at e
      obtain ⟨rfl, e⟩ := e
      obtain ⟨rfl, h3⟩ := ih (fun hm => h (List.mem_cons_of_mem _ hm))
        (fun hm => h' (List.mem_cons_of_mem _ hm)) e
      exact ⟨rfl, h3⟩

/-- C54. Nothing is lost: objects with the same `repr` are in one class and have the same text. -/
theorem C54_faithful (S : Sem) {a b : Obj} {r : Str} (ha : pyRepr S a = .ok r)
    (hb : pyRepr S b = .ok r) :
    ∃ c t, InClass a c ∧ InClass b c ∧ S.str a = .ok t ∧ S.str b = .ok t := by
  have isLib : ∀ {o : Obj} {r : Str}, pyRepr S o = .ok r → o.isSql = true := by
    intro o r h
    unfold pyRepr at h
    cases o <;> first | rfl | cases h
  obtain ⟨c, h1, h2, h3, h4⟩ := C54_repr S (isLib ha)
  obtain ⟨c', h1', h2', h3', h4'⟩ := C54_repr S (isLib hb)
  cases hs : S.str a with
  | error e => rw [h4 e hs] at ha; cases ha
  | ok t =>
    cases hs' : S.str b with
    | error e => rw [h4' e hs'] at hb; cases hb
    | ok t' =>
      rw [h3 t hs] at ha
      rw [h3' t' hs'] at hb
      cases ha
      have e := Except.ok.inj hb
      have e2 : c' ++ ':' :: (' ' :: (t' ++ ['>'])) = c ++ ':' :: (' ' :: (t ++ ['>'])) := by
        simpa using e
      obtain ⟨rfl, h5⟩ := colon_split h2' h2 e2
      have h6 : t' = t := by simpa using h5
      subst h6
      exact ⟨_, t', h1, h1', rfl, rfl⟩

example : pyRepr (sem cx0 3) (.select { columns := [⟨.str L!"a", .none⟩] }) =
    .ok L!"<Select: SELECT \"a\">" := by decide +kernel

/-! ### C55 -/

/-- C55. Which library objects can be the key of a dictionary: all but unions, `Q` objects and
relations, whose classes define `==` and no `hash`. -/
theorem C55_hashable {o : Obj} (ho : o.isSql = true) :
    o.hashable = true ↔ ¬ ((∃ a b all, o = .union a b all) ∨ (∃ ps, o = .conds ps) ∨ IsRelation o) := by
  cases o <;> first
    | (cases ho; done)
    | (refine ⟨fun _ => ?_, fun _ => rfl⟩
       rintro (⟨_, _, _, h⟩ | ⟨_, h⟩ | h) <;> cases h)
    | (refine ⟨fun h => (by cases h), fun h => absurd ?_ h⟩
       first
       | exact .inl ⟨_, _, _, rfl⟩
       | exact .inr (.inl ⟨_, rfl⟩)
       | exact .inr (.inr ⟨_, _⟩))

/-- C55 as stated: `join({subquery: alias})` joins every select and every union. -/
def C55_claim : Prop :=
  ∀ (cx : Ctx) (S : Sem) (q : Select) (ts : List Table) (t : Table) (o : Obj) (al : Str),
    Subquery o → q.tables = ts ++ [t] →
    ∃ d, dictDisplay [(o, .str al)] = .ok d ∧ selectStep cx S q (.join .inner d) =
      ({ q with tables := ts ++ [{ t with joins := t.joins ++ [⟨.inner, o, .str al, []⟩] }] }, none)

/-- C55 is false as stated: a union cannot be written as a dictionary key. -/
theorem C55_refuted : ¬ C55_claim := by
  intro h
  obtain ⟨d, h1, _⟩ := h cx0 (sem cx0 3) { tables := [⟨.str L!"t", .none, []⟩] } []
    ⟨.str L!"t", .none, []⟩ (.union (.select {}) (.select {}) false) L!"u" (.union _ _ _) rfl
  cases h1

/-- C55, the part that holds: a select can be the key, and the call joins it under the alias; a
select or a union can always be given as the pair `(subquery, alias)`, with the same effect. -/
theorem C55_join_partial (cx : Ctx) (S : Sem) (ty : JoinType)
    (hty : ty = .full → cx.backend = .postgresql) (q : Select) (ts : List Table) (t : Table) (o : Obj)
    (al : Str) (ho : Subquery o) (hq : q.tables = ts ++ [t]) :
    (∀ s, o = .select s → ∃ d, dictDisplay [(o, .str al)] = .ok d ∧
      selectStep cx S q (.join ty d) =
        ({ q with tables := ts ++ [{ t with joins := t.joins ++ [⟨ty, o, .str al, []⟩] }] }, none)) ∧
    selectStep cx S q (.join ty (.tuple [o, .str al])) =
      ({ q with tables := ts ++ [{ t with joins := t.joins ++ [⟨ty, o, .str al, []⟩] }] }, none) := by
  have hn : NameLike o := by cases ho <;> exact .inr rfl
  constructor
  · rintro s rfl
    refine ⟨_, rfl, ?_⟩
    simp only [selectStep, Upd.map, hq, tablesJoin_last cx S (.dict _ _) hn (.inr (.inl ⟨_, rfl⟩)) hty]
  · simp only [selectStep, Upd.map, hq, tablesJoin_last cx S (.tuple _ _) hn (.inr (.inl ⟨_, rfl⟩)) hty]

example : (selectStep cx0 (sem cx0 3) { tables := [⟨.str L!"t", .none, []⟩] }
      (.join .inner (.dict [(.select { tables := [⟨.str L!"u", .none, []⟩] }, .str L!"x")]))).2 = none ∧
    (sem cx0 6).str (.select (selectStep cx0 (sem cx0 3) { tables := [⟨.str L!"t", .none, []⟩] }
      (.join .inner (.dict [(.select { tables := [⟨.str L!"u", .none, []⟩] }, .str L!"x")]))).1) =
      .ok L!"SELECT * FROM \"t\" JOIN (SELECT * FROM \"u\") AS \"x\"" := by decide +kernel

end SqlPuzzle
