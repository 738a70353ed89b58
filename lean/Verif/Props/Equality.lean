import Verif.Proofs.EqFacts
import Verif.Proofs.Mono
import Verif.Model.Queries

/-!
C40: equality of queries.
-/

namespace SqlPuzzle
open Spec EqFacts

private def cx0 : Ctx := ⟨.sql, ⟨id, id, fun _ => true, fun _ => [], fun _ => []⟩⟩

/-- The objects whose equality C40 is about. -/
def Spec.IsQuery : Obj → Prop
  | .select _ | .union .. | .insert _ | .update _ | .delete _ => True
  | _ => False

/-- C40 as stated: `==` between queries is reflexive and symmetric, and equal queries that both
have a text have the same text. -/
def C40_claim : Prop :=
  ∀ (cx : Ctx) (n : Nat) (a b : Obj), IsQuery a → IsQuery b →
    (∀ r, (sem cx n).eq a a = .ok r → r = true) ∧
    (∀ r s, (sem cx n).eq a b = .ok r → (sem cx n).eq b a = .ok s → r = s) ∧
    (∀ t u, (sem cx n).eq a b = .ok true → (sem cx n).str a = .ok t → (sem cx n).str b = .ok u →
      t = u)

/-- `select_from('t').where('a', v)`. -/
private def where_ (v : Obj) : Obj :=
  .select (runOps (selectStep cx0 (sem cx0 6)) {}
    [.from_ { pos := [.str L!"t"] }, .where_ { pos := [.str L!"a", v] }])

/-- `select_from('t').where(custom(s))`. -/
private def whereCustom (s : Str) : Obj :=
  .select (runOps (selectStep cx0 (sem cx0 6)) {}
    [.from_ { pos := [.str L!"t"] }, .where_ { pos := [.custom s] }])

/-- C40 is false: a query with the value `NaN` is not equal to itself. -/
theorem C40_refuted : ¬C40_claim := by
  intro h
  have := (h cx0 6 (where_ (.float .nan)) (where_ (.float .nan)) trivial trivial).1 false
    (by decide +kernel)
  cases this

/-- C40 is false: `where(custom('"a" = 1'))` equals `where('a', 1)`, but not the other way round. -/
theorem C40_refuted_symmetric : ¬C40_claim := by
  intro h
  have := (h cx0 6 (whereCustom L!"\"a\" = 1") (where_ (.int 1)) trivial trivial).2.1 true false
    (by decide +kernel) (by decide +kernel)
  cases this

/-- C40 is false: `where('a', 1)` equals `where('a', 1.0)`, and the texts differ. -/
theorem C40_refuted_text : ¬C40_claim := by
  intro h
  have := (h cx0 6 (where_ (.int 1)) (where_ (.float (.fin false 1 0))) trivial trivial).2.2
    L!"SELECT * FROM \"t\" WHERE \"a\" = 1" L!"SELECT * FROM \"t\" WHERE \"a\" = 1.00000"
    (by decide +kernel) (by decide +kernel) (by decide +kernel)
  exact absurd this (by decide)

/-- C40 is false: the same instant in two time zones. -/
theorem C40_refuted_zones : ¬C40_claim := by
  intro h
  have := (h cx0 6
    (where_ (.datetime ⟨⟨2020, 1, 1⟩, 0, 30, 0, 0, some ⟨false, 1, 0, 0, 0⟩⟩))
    (where_ (.datetime ⟨⟨2019, 12, 31⟩, 23, 30, 0, 0, some ⟨false, 0, 0, 0, 0⟩⟩)) trivial trivial).2.2
    L!"SELECT * FROM \"t\" WHERE \"a\" = '2020-01-01T00:30:00+01:00'"
    L!"SELECT * FROM \"t\" WHERE \"a\" = '2019-12-31T23:30:00+00:00'"
    (by decide +kernel) (by decide +kernel) (by decide +kernel)
  exact absurd this (by decide)

private def onQuery (a b : Str) : Obj :=
  .select (runOps (selectStep cx0 (sem cx0 6)) {}
    [.from_ { pos := [.str L!"t"] }, .join .inner (.str L!"u"), .on { pos := [.str a, .str b] }])

/-- C40 is false: `on('a', 'b')` equals `on('b', 'a')`. -/
theorem C40_refuted_on : ¬C40_claim := by
  intro h
  have := (h cx0 6 (onQuery L!"a" L!"b") (onQuery L!"b" L!"a") trivial trivial).2.2
    L!"SELECT * FROM \"t\" JOIN \"u\" ON \"a\" = \"b\""
    L!"SELECT * FROM \"t\" JOIN \"u\" ON \"b\" = \"a\""
    (by decide +kernel) (by decide +kernel) (by decide +kernel)
  exact absurd this (by decide)

private def pg : Ctx := { cx0 with backend := .postgresql }

private def conflictQuery (c : Str) : Obj :=
  .insert (runOps (insertStep pg (sem pg 6)) {}
    [.into (.str L!"t"), .values { pos := [.str L!"a", .int 1] },
     .onDuplicateKeyUpdate { pos := [.str c, .dict [(.str L!"a", .int 2)]] }])

/-- C40 is false: the column of `ON CONFLICT` is not compared. -/
theorem C40_refuted_conflict : ¬C40_claim := by
  intro h
  have := (h pg 6 (conflictQuery L!"a") (conflictQuery L!"b") trivial trivial).2.2
    L!"INSERT INTO \"t\" (\"a\") VALUES (1) ON CONFLICT (\"a\") DO UPDATE \"a\" = 2"
    L!"INSERT INTO \"t\" (\"a\") VALUES (1) ON CONFLICT (\"b\") DO UPDATE \"a\" = 2"
    (by decide +kernel) (by decide +kernel) (by decide +kernel)
  exact absurd this (by decide)

/-- Of two equal queries one may have a text and the other raise: the permission to update all rows
is not compared. -/
theorem C40_refuted_raise : ∃ (cx : Ctx) (n : Nat) (a b : Obj) (t : Str), IsQuery a ∧ IsQuery b ∧
    (sem cx n).eq a b = .ok true ∧ (sem cx n).str a = .ok t ∧
    (sem cx n).str b = .error .confirmUpdateAll :=
  ⟨cx0, 6,
   .update (runOps (updateStep cx0 (sem cx0 6)) {}
     [.table (.str L!"t"), .set { pos := [.str L!"a", .int 1] }, .allowUpdateAll]),
   .update (runOps (updateStep cx0 (sem cx0 6)) {}
     [.table (.str L!"t"), .set { pos := [.str L!"a", .int 1] }]),
   L!"UPDATE \"t\" SET \"a\" = 1", trivial, trivial, by decide +kernel, by decide +kernel,
   by decide +kernel⟩

/-- C40, reflexivity: an object that contains no `NaN`, generator, set or dictionary is equal to
itself, unless the comparison raises. -/
theorem C40_reflexive_partial (cx : Ctx) (n : Nat) (a : Obj) (ha : SelfEqual a) (r : Bool)
    (e : (sem cx n).eq a a = .ok r) : r = true := by
  cases r with
  | true => rfl
  | false => exact absurd e (nf_eq cx n a ha)

/-- C40, symmetry: where nothing is compared by text and `ON` has names on its left, both directions
of the comparison give the same result or raise the same exception. -/
theorem C40_symmetric_partial (cx : Ctx) (n : Nat) (a b : Obj) (ha : Structural a)
    (hb : Structural b) : (sem cx n).eq a b = (sem cx n).eq b a :=
  (comm_eq cx n).comm a b ha hb

theorem EqFacts.exact_selfEqual {K : NumType} {rel : Str → Str → Prop} {o : Obj} (h : Exact K rel o) :
    SelfEqual o := by
  induction h with
  | @mk o here inside ih =>
    refine .mk ?_ ih
    cases o with
    | float f => cases f <;> trivial
    | decimal f => cases f <;> trivial
    | _ => trivial

/-- C40, meaning of equality: within a class of objects with one type of numbers, nothing compared
by text, and `ON` conditions all written in one direction, equal is the same. -/
theorem C40_identity_partial (cx : Ctx) (n : Nat) (K : NumType) (rel : Str → Str → Prop)
    (hr : ∀ s t, rel s t → ¬rel t s) (a b : Obj) (ha : Exact K rel a) (hb : Exact K rel b) (r : Bool)
    (e : (sem cx n).eq a b = .ok r) : r = true ↔ a = b := by
  constructor
  · rintro rfl
    exact exact_eq cx n hr a b ha hb e
  · rintro rfl
    exact C40_reflexive_partial cx n a (exact_selfEqual ha) r e

/-- C40, text: in that class equal queries have the same text, or raise the same exception, at
every recursion depth. -/
theorem C40_text_partial (cx : Ctx) (n : Nat) (K : NumType) (rel : Str → Str → Prop)
    (hr : ∀ s t, rel s t → ¬rel t s) (a b : Obj) (ha : Exact K rel a) (hb : Exact K rel b)
    (e : (sem cx n).eq a b = .ok true) (m : Nat) : (sem cx m).str a = (sem cx m).str b := by
  rw [exact_eq cx n hr a b ha hb e]

/-- C40, text: an object compared by text that equals another SQL object has the text of that
object. -/
theorem C40_text_objects (cx : Ctx) (n : Nat) (a b : Obj) (ha : ComparedByText a)
    (hb : b.isSql = true) (e : (sem cx n).eq a b = .ok true) :
    ∃ t, (sem cx n).str a = .ok t ∧ (sem cx n).str b = .ok t := by
  cases n with
  | zero => cases e
  | succ n =>
    have e : eqF cx (sem cx n) a b = .ok true := e
    have ht : a.textual = true := by cases a <;> first | rfl | exact absurd ha id
    have e : textEq cx (sem cx n) a b = .ok true := by
      unfold eqF at e
      rw [if_pos ht] at e
      cases b with
      | str s => cases hb
      | _ => first | exact e | exact Bool.noConfusion (show false = true from hb)
    obtain ⟨t, h1, e⟩ := bind_ok.mp e
    obtain ⟨u, h2, e⟩ := bind_ok.mp e
    have : t = u := beq_iff_eq.mp (Except.ok.inj e)
    subst this
    exact ⟨t, h1, h2⟩

/-- C40, text: an object compared by text that equals a string has that text. -/
theorem C40_text_string (cx : Ctx) (n : Nat) (a : Obj) (s : Str) (ha : ComparedByText a)
    (e : (sem cx n).eq a (.str s) = .ok true) : (sem cx n).str a = .ok s := by
  cases n with
  | zero => cases e
  | succ n =>
    have e : eqF cx (sem cx n) a (.str s) = .ok true := e
    have ht : a.textual = true := by cases a <;> first | rfl | exact absurd ha id
    unfold eqF at e
    rw [if_pos ht] at e
    obtain ⟨t, h1, e⟩ := bind_ok.mp e
    have : t = s := beq_iff_eq.mp (Except.ok.inj e)
    subst this
    exact h1

/-- C40, text of updates: the permission to update all rows makes no difference between equal
queries that have a condition. -/
theorem C40_update_partial (cx : Ctx) (n : Nat) (K : NumType) (rel : Str → Str → Prop)
    (hr : ∀ s t, rel s t → ¬rel t s) (p q : Update)
    (hp : Exact K rel (.update { p with allowAll := false }))
    (hq : Exact K rel (.update { q with allowAll := false })) (hw : p.where_ ≠ [])
    (e : (sem cx n).eq (.update p) (.update q) = .ok true) (m : Nat) :
    (sem cx m).str (.update p) = (sem cx m).str (.update q) := by
  cases n with
  | zero => cases e
  | succ n =>
    have e' : (sem cx (n + 1)).eq (.update { p with allowAll := false })
        (.update { q with allowAll := false }) = .ok true := e
    have := exact_eq cx _ hr _ _ hp hq e'
    cases m with
    | zero => rfl
    | succ m =>
      obtain ⟨p1, p2, p3, p4, p5⟩ := p
      obtain ⟨q1, q2, q3, q4, q5⟩ := q
      injection this with this
      injection this with a1 a2 a3 a4
      subst a1 a2 a3 a4
      show updateText cx (sem cx m) _ = updateText cx (sem cx m) _
      have hw : p4.isEmpty = false := by
        cases p4 with
        | nil => exact absurd rfl hw
        | cons => rfl
      simp only [updateText, hw, Bool.false_and, Bool.false_eq_true, if_false]

/-- The same for deletes. -/
theorem C40_delete_partial (cx : Ctx) (n : Nat) (K : NumType) (rel : Str → Str → Prop)
    (hr : ∀ s t, rel s t → ¬rel t s) (p q : Delete)
    (hp : Exact K rel (.delete { p with allowAll := false }))
    (hq : Exact K rel (.delete { q with allowAll := false })) (hw : p.where_ ≠ [])
    (e : (sem cx n).eq (.delete p) (.delete q) = .ok true) (m : Nat) :
    (sem cx m).str (.delete p) = (sem cx m).str (.delete q) := by
  cases n with
  | zero => cases e
  | succ n =>
    have e' : (sem cx (n + 1)).eq (.delete { p with allowAll := false })
        (.delete { q with allowAll := false }) = .ok true := e
    have := exact_eq cx _ hr _ _ hp hq e'
    cases m with
    | zero => rfl
    | succ m =>
      obtain ⟨p1, p2, p3, p4, p5⟩ := p
      obtain ⟨q1, q2, q3, q4, q5⟩ := q
      injection this with this
      injection this with a1 a2 a3 a4
      subst a1 a2 a3 a4
      show deleteText cx (sem cx m) _ = deleteText cx (sem cx m) _
      have hw : p4.isEmpty = false := by
        cases p4 with
        | nil => exact absurd rfl hw
        | cons => rfl
      simp only [deleteText, hw, Bool.false_and, Bool.false_eq_true, if_false]

/-- Names of one character before names of more. -/
private def byLength (s t : Str) : Prop := s.length < t.length

/-- `select_from('t').join('u').on('a', 'bb').where('a', [1, 2])` -/
private def sample (v : Obj) : Obj :=
  .select { tables := [⟨.str L!"t", .none, [⟨.inner, .str L!"u", .none,
    [.cond true (.str L!"a") .eq (.str L!"bb")]⟩]⟩],
            where_ := [.cond false (.str L!"a") .in_ v] }

/-- The hypotheses are met by a query with a join, a condition and a list of numbers. -/
example : Exact .int byLength (sample (.list [.int 1, .int 2])) := by
  have s : ∀ s, Exact .int byLength (.str s) := fun s => .mk trivial (by simp [parts])
  have i : ∀ i, Exact .int byLength (.int i) := fun i => .mk rfl (by simp [parts])
  have n : Exact .int byLength .none := .mk trivial (by simp [parts])
  refine .mk ⟨?_, ?_, ?_⟩ ?_
  · intro t ht j hj c k v hm
    simp only [List.mem_singleton] at ht
    subst ht
    simp only [List.mem_singleton] at hj
    subst hj
    simp only [List.mem_singleton, CondPart.cond.injEq] at hm
    obtain ⟨-, rfl, -, rfl⟩ := hm
    exact ⟨_, rfl, by intro t ht; injection ht with ht; subst ht; exact Nat.lt_add_one 1⟩
  · intro c k v hm; simp at hm
  · intro c k v hm; simp at hm
  · intro x hx
    simp only [sample, parts, selectParts, tableParts, joinParts, condParts, outfileParts,
      List.flatMap_cons, List.flatMap_nil, List.append_nil, List.nil_append, List.mem_append,
      List.mem_cons, List.not_mem_nil, or_false, Option.toList] at hx
    rcases hx with ((rfl | rfl) | (rfl | rfl) | (rfl | rfl)) | rfl | rfl
    · exact s _
    · exact n
    · exact s _
    · exact n
    · exact s _
    · exact s _
    · exact s _
    · refine .mk trivial ?_
      intro x hx
      simp only [parts, List.mem_cons, List.not_mem_nil, or_false] at hx
      rcases hx with rfl | rfl <;> exact i _

example : (sem cx0 5).eq (sample (.list [.int 1, .int 2])) (sample (.list [.int 1, .int 2])) =
    .ok true := by decide +kernel

example : (sem cx0 5).eq (sample (.list [.int 1, .int 2])) (sample (.list [.int 2, .int 1])) =
    .ok false := by decide +kernel

end SqlPuzzle
