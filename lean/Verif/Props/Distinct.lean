import Verif.Proofs.UniqInsert
import Verif.Props.Statement

/-!
C59: the text of a query tells which query it is.  Two queries that differ — in a column, an alias, a
relation, a value, a join, the order of the conditions, a limit — have different texts, so nothing a user
said is dropped or can be confused with something else they could have said.
-/

namespace SqlPuzzle

open Spec

private def cx0 : Ctx := ⟨.sql, ⟨id, id, fun _ => true, fun _ => [], fun _ => []⟩⟩
private def cxm : Ctx := ⟨.mysql, ⟨id, id, fun _ => true, fun _ => [], fun _ => []⟩⟩

/-- C59 as stated: whatever the two queries contain. -/
def C59_claim : Prop :=
  ∀ (cx : Ctx) (n : Nat) (q r : Select) (t : Str), (sem cx n).str (.select q) = .ok t →
    (sem cx n).str (.select r) = .ok t → q = r

/-- It is false: a string that looks like a quoted name is written like the name (C03). -/
theorem C59_refuted : ¬ C59_claim := by
  intro h
  have := h cx0 5 { where_ := [.cond false (.str L!"a") .eq (.str L!"\"b\"")] }
    { where_ := [.cond false (.str L!"a") .eq (.sqlRef (.str L!"b"))] } L!"SELECT * WHERE \"a\" = \"b\""
    (by decide) (by decide)
  cases this

/-- It is false also without such strings: `Q(a=1, b=2) | Q(c=3)` and `(Q(a=1) & Q(b=2)) | Q(c=3)` are written
in the same way; they mean the same (C36). -/
theorem C59_refuted_q :
    ∃ (q r : Select) (t : Str), (sem cx0 5).str (.select q) = .ok t ∧ (sem cx0 5).str (.select r) = .ok t ∧ q ≠ r := by
  refine ⟨{ where_ := [.item (.cofc (.conds [.cond false (.str L!"a") .eq (.int 1),
      .cond false (.str L!"b") .eq (.int 2)]) (.conds [.cond false (.str L!"c") .eq (.int 3)]) .or)] },
    { where_ := [.item (.cofc (.cofc (.conds [.cond false (.str L!"a") .eq (.int 1)])
      (.conds [.cond false (.str L!"b") .eq (.int 2)]) .and) (.conds [.cond false (.str L!"c") .eq (.int 3)]) .or)] },
    L!"SELECT * WHERE ((\"a\" = 1 AND \"b\" = 2) OR \"c\" = 3)", by decide +kernel, by decide +kernel, ?_⟩
  intro e
  cases e

/-- C59 for SELECT: equal texts come from equal queries. -/
theorem C59_select_partial (cx : Ctx) (n m : Nat) (q r : Select) (t : Str) (hq : TidySelect cx n q)
    (hr : TidySelect cx m r) (h1 : (sem cx (n + 1)).str (.select q) = .ok t)
    (h2 : (sem cx (m + 1)).str (.select r) = .ok t) : q = r :=
  select_distinct hq hr ((C52_select cx n q t).mp h1) ((C52_select cx m r t).mp h2)

/-- C59 for INSERT and REPLACE. -/
theorem C59_insert_partial (cx : Ctx) (n m : Nat) (q r : Insert) (t : Str) (hq : TidyInsert cx n q)
    (hr : TidyInsert cx m r) (h1 : (sem cx (n + 1)).str (.insert q) = .ok t)
    (h2 : (sem cx (m + 1)).str (.insert r) = .ok t) : q = r :=
  insert_distinct hq hr ((C52_insert cx n q t).mp h1) ((C52_insert cx m r t).mp h2)

/-- C59 for UPDATE: the permission to change all rows (C23) is not part of the text. -/
theorem C59_update_partial (cx : Ctx) (n m : Nat) (q r : Update) (t : Str) (hq : TidyUpdate cx n q)
    (hr : TidyUpdate cx m r) (h1 : (sem cx (n + 1)).str (.update q) = .ok t)
    (h2 : (sem cx (m + 1)).str (.update r) = .ok t) : q = { r with allowAll := q.allowAll } :=
  update_distinct hq hr ((C52_update cx n q t (update_guard h1)).mp h1)
    ((C52_update cx m r t (update_guard h2)).mp h2)

/-- C59 for DELETE. -/
theorem C59_delete_partial (cx : Ctx) (n m : Nat) (q r : Delete) (t : Str) (hq : TidyDelete cx n q)
    (hr : TidyDelete cx m r) (h1 : (sem cx (n + 1)).str (.delete q) = .ok t)
    (h2 : (sem cx (m + 1)).str (.delete r) = .ok t) : q = { r with allowAll := q.allowAll } :=
  delete_distinct hq hr ((C52_delete cx n q t (delete_guard h1)).mp h1)
    ((C52_delete cx m r t (delete_guard h2)).mp h2)

/-- C59. A text belongs to one kind of statement, whatever the states of the queries. -/
theorem C59_kinds (cx : Ctx) (n m : Nat) (o p : Obj) (t : Str) (h1 : (sem cx (n + 1)).str o = .ok t)
    (h2 : (sem cx (m + 1)).str p = .ok t) :
    ((∃ q, o = .select q) → (∀ r, p ≠ .insert r) ∧ (∀ r, p ≠ .update r) ∧ ∀ r, p ≠ .delete r) ∧
    ((∃ q, o = .insert q) → (∀ r, p ≠ .update r) ∧ ∀ r, p ≠ .delete r) ∧
    ((∃ q, o = .update q) → ∀ r, p ≠ .delete r) := by
  have k1 := C52_keyword cx n o t h1
  have k2 := C52_keyword cx m p t h2
  have head : ∀ {c : Char} {cs : Str}, c :: cs <+: t → t.head? = some c := by
    rintro c cs ⟨r, rfl⟩
    rfl
  have sel : ∀ {o : Obj}, (∀ q, o = .select q → L!"SELECT" <+: t) → ∀ q, o = .select q → t.head? = some 'S' :=
    fun h q e => head (h q e)
  have ins : ∀ {o : Obj}, (∀ q : Insert, o = .insert q → (if q.isReplace then L!"REPLACE" else L!"INSERT") <+: t) →
      ∀ q : Insert, o = .insert q → t.head? = some 'I' ∨ t.head? = some 'R' := by
    intro o h q e
    have := h q e
    split at this
    · exact .inr (head this)
    · exact .inl (head this)
  have upd : ∀ {o : Obj}, (∀ q, o = .update q → L!"UPDATE" <+: t) → ∀ q, o = .update q → t.head? = some 'U' :=
    fun h q e => head (h q e)
  have del : ∀ {o : Obj}, (∀ q, o = .delete q → L!"DELETE" <+: t) → ∀ q, o = .delete q → t.head? = some 'D' :=
    fun h q e => head (h q e)
  refine ⟨?_, ?_, ?_⟩
  · rintro ⟨q, e⟩
    have a := sel k1.1 q e
    refine ⟨fun r hr => ?_, fun r hr => ?_, fun r hr => ?_⟩
    · rcases ins k2.2.1 r hr with b | b <;> rw [a] at b <;> revert b <;> decide
    · have b := upd k2.2.2.1 r hr
      rw [a] at b
      revert b
      decide
    · have b := del k2.2.2.2 r hr
      rw [a] at b
      revert b
      decide
  · rintro ⟨q, e⟩
    refine ⟨fun r hr => ?_, fun r hr => ?_⟩
    · have b := upd k2.2.2.1 r hr
      rcases ins k1.2.1 q e with a | a <;> rw [a] at b <;> revert b <;> decide
    · have b := del k2.2.2.2 r hr
      rcases ins k1.2.1 q e with a | a <;> rw [a] at b <;> revert b <;> decide
  · rintro ⟨q, e⟩ r hr
    have a := upd k1.2.2.1 q e
    have b := del k2.2.2.2 r hr
    rw [a] at b
    revert b
    decide

private theorem tidy_word (q : Char) (s : Str) (h : s ≠ [] ∧ '.' ∉ s ∧ q ∉ s) (h' : s ≠ ['*']) : TidyName q s :=
  ⟨s, [], by simpa using h, h', by simp [dotted]⟩

private theorem shape_name {cx : Ctx} {n : Nat} {s : Str} (h : TidyName cx.backend.quote s) :
    (shapes cx n).name (.str s) := by
  cases n with
  | zero => exact .inl ⟨s, rfl, h⟩
  | succ n => exact .inl (.inl ⟨s, rfl, h⟩)

private theorem shape_value {cx : Ctx} {n : Nat} {o : Obj} (h : TidyValue cx.backend.quote o) :
    (shapes cx n).value o := by
  cases n with
  | zero => exact h
  | succ n => exact .inl h

/-- A query with an option, two columns, two tables with joins, conditions, an order and a limit is tidy,
and it has a text. -/
example : ∃ q t, TidySelect cx0 5 q ∧ (sem cx0 6).str (.select q) = .ok t ∧
    t = L!"SELECT DISTINCT \"a\" AS \"x\", \"b\" FROM \"t\" LEFT JOIN \"u\" ON \"c\" = \"d\" JOIN \"v\" WHERE \"a\" IN (1, 'AND') ORDER BY \"b\" DESC LIMIT 3" := by
  refine ⟨{ opts := { duplicated := .distinct }
            columns := [⟨.str L!"a", .str L!"x"⟩, ⟨.str L!"b", .none⟩]
            tables := [⟨.str L!"t", .none, [⟨.left, .str L!"u", .none, [.cond true (.str L!"c") .eq (.str L!"d")]⟩,
              ⟨.inner, .str L!"v", .none, []⟩]⟩]
            where_ := [.cond false (.str L!"a") .in_ (.list [.int 1, .str L!"AND"])]
            orderBy := [⟨.str L!"b", true⟩], limit := ⟨some 3, none⟩ }, _, ?_, ?_, rfl⟩
  · have name : ∀ {s : Str}, s ≠ [] ∧ '.' ∉ s ∧ '"' ∉ s → s ≠ ['*'] → TidyName cx0.backend.quote s :=
      fun h h' => tidy_word _ _ h h'
    refine ⟨?_, ?_, ?_, by simp, by simp, ?_, ⟨trivial, trivial, trivial, trivial⟩, fun _ => rfl⟩
    · intro c hc
      simp only [List.mem_cons, List.not_mem_nil, or_false] at hc
      rcases hc with rfl | rfl
      · exact ⟨shape_name (name (by decide) (by decide)), .inr ⟨_, rfl, name (by decide) (by decide)⟩⟩
      · exact ⟨shape_name (name (by decide) (by decide)), .inl rfl⟩
    · intro t ht
      rw [List.mem_singleton.mp ht]
      refine ⟨⟨shape_name (name (by decide) (by decide)), .inl rfl⟩, ?_, ?_⟩
      · intro j hj
        simp only [List.mem_cons, List.not_mem_nil, or_false] at hj
        rcases hj with rfl | rfl
        · refine ⟨⟨shape_name (name (by decide) (by decide)), .inl rfl⟩, ?_⟩
          intro c hc
          rw [List.mem_singleton.mp hc]
          exact ⟨_, _, _, rfl, name (by decide) (by decide), name (by decide) (by decide), by decide, by decide⟩
        · exact ⟨⟨shape_name (name (by decide) (by decide)), .inl rfl⟩, by simp⟩
      · rw [List.pairwise_pair]
        exact .inl (by decide)
    · intro c hc
      rw [List.mem_singleton.mp hc]
      refine .inl ⟨_, _, _, rfl, shape_name (name (by decide) (by decide)),
        shape_value (.inr (.inl ⟨_, rfl, by simp, ?_⟩)), fun _ _ e => by cases e⟩
      intro x hx
      simp only [List.mem_cons, List.not_mem_nil, or_false] at hx
      rcases hx with rfl | rfl
      · exact ⟨trivial, by simp⟩
      · refine ⟨?_, by simp⟩
        intro r hr
        rw [← strip_iff, show strip L!"AND" = L!"AND" from by decide] at hr
        rw [← hr]
        exact fun h => absurd (refForm_mem h) (by decide)
    · intro o ho
      rw [List.mem_singleton.mp ho]
      exact shape_name (name (by decide) (by decide))
  · decide +kernel

/-- A query with nested queries as column, table and value, an aggregate, and combined conditions. -/
example : ∃ q t, TidySelect cx0 5 q ∧ (sem cx0 6).str (.select q) = .ok t ∧
    t = L!"SELECT COUNT(*) AS \"n\", (SELECT \"b\" FROM \"u\") AS \"x\" FROM (SELECT \"b\" FROM \"u\") AS \"s\" WHERE ((\"a\" IN (SELECT \"b\" FROM \"u\") OR NOT(\"b\" < \"c\")) AND EXISTS(SELECT \"b\" FROM \"u\"))" := by
  have name : ∀ {s : Str}, s ≠ [] ∧ '.' ∉ s ∧ '"' ∉ s → s ≠ ['*'] → TidyName cx0.backend.quote s :=
    fun h h' => tidy_word _ _ h h'
  have sub : ∀ {n : Nat} (c t : Str), TidyName cx0.backend.quote c → TidyName cx0.backend.quote t →
      TidySelectOf (shapes cx0 n) cx0 n { columns := [⟨.str c, .none⟩], tables := [⟨.str t, .none, []⟩] } := by
    intro n c t hc ht
    refine ⟨?_, ?_, by simp, by simp, by simp, by simp, ⟨trivial, trivial, trivial, trivial⟩, fun _ => rfl⟩
    · intro x hx
      rw [List.mem_singleton.mp hx]
      exact ⟨shape_name hc, .inl rfl⟩
    · intro x hx
      rw [List.mem_singleton.mp hx]
      exact ⟨⟨shape_name ht, .inl rfl⟩, by simp, .nil⟩
  let u : Select := { columns := [⟨.str L!"b", .none⟩], tables := [⟨.str L!"u", .none, []⟩] }
  refine ⟨{ columns := [⟨.func .count false (.str ['*']), .str L!"n"⟩, ⟨.select u, .str L!"x"⟩]
            tables := [⟨.select u, .str L!"s", []⟩]
            where_ := [.item (.cofc (.cofc (.conds [.cond false (.str L!"a") .in_ (.select u)])
                (.not_ [.cond false (.str L!"b") .lt (.sqlRef (.str L!"c"))]) .or)
              (.exists_ (.select u)) .and)] }, _, ?_, ?_, rfl⟩
  · refine ⟨?_, ?_, ?_, by simp, by simp, by simp, ⟨trivial, trivial, trivial, trivial⟩, fun _ => rfl⟩
    · intro c hc
      simp only [List.mem_cons, List.not_mem_nil, or_false] at hc
      rcases hc with rfl | rfl
      · exact ⟨.inl (.inr (.inl ⟨_, _, _, rfl, .inl rfl⟩)), .inr ⟨_, rfl, name (by decide) (by decide)⟩⟩
      · exact ⟨.inr ⟨_, rfl, sub _ _ (name (by decide) (by decide)) (name (by decide) (by decide))⟩,
          .inr ⟨_, rfl, name (by decide) (by decide)⟩⟩
    · intro t ht
      rw [List.mem_singleton.mp ht]
      exact ⟨⟨.inr ⟨_, rfl, sub _ _ (name (by decide) (by decide)) (name (by decide) (by decide))⟩,
        .inr ⟨_, rfl, name (by decide) (by decide)⟩⟩, by simp, .nil⟩
    · intro c hc
      rw [List.mem_singleton.mp hc]
      refine .inr ⟨_, rfl, .inl ⟨_, _, _, rfl, .inl (.inl ⟨_, _, _, rfl, .inr ⟨_, rfl, ?_⟩,
        .inl (.inr (.inl ⟨_, rfl, by simp, ?_⟩))⟩), .inl (.inr (.inr ⟨_, rfl, ?_⟩))⟩⟩
      · exact ⟨_, _, _, rfl, shape_name (name (by decide) (by decide)),
          .inr ⟨_, rfl, sub _ _ (name (by decide) (by decide)) (name (by decide) (by decide))⟩,
          fun _ _ e => by cases e⟩
      · intro c hc
        rw [List.mem_singleton.mp hc]
        exact .inl ⟨_, _, _, rfl, shape_name (name (by decide) (by decide)),
          shape_value (.inr (.inr (.inl ⟨_, rfl, name (by decide) (by decide)⟩))), by simp⟩
      · exact sub _ _ (name (by decide) (by decide)) (name (by decide) (by decide))
  · decide +kernel

/-- The functions of columns that are tidy. -/
example : TidyColumn '"' (.groupConcat [⟨.str L!"a", .none⟩] [⟨.str L!"b", true⟩] (.str L!"-")) ∧
    TidyColumn '"' (.concat [⟨.str L!"a", .none⟩, ⟨.str L!"b", .none⟩]) ∧
    TidyColumn '"' (.convert (.str L!"a") (some L!"DECIMAL(10, 2)")) := by
  have name : ∀ {s : Str}, s ≠ [] ∧ '.' ∉ s ∧ '"' ∉ s → s ≠ ['*'] → TidyName '"' s :=
    fun h h' => tidy_word _ _ h h'
  have a : TidyName '"' L!"a" := name (by decide) (by decide)
  have b : TidyName '"' L!"b" := name (by decide) (by decide)
  refine ⟨.inr (.inr (.inr (.inl ⟨_, _, _, rfl, by simp, ?_, ?_, .inr ⟨L!"-", by decide, rfl, ?_⟩⟩))),
    .inr (.inr (.inl ⟨_, rfl, by simp, ?_⟩)),
    .inr (.inr (.inr (.inr ⟨_, _, rfl, a, L!"DECIMAL", L!"10, 2", by decide, by decide, by decide, by decide,
      .inr (by decide)⟩)))⟩
  · intro c hc
    rw [List.mem_singleton.mp hc]
    exact ⟨_, rfl, a⟩
  · intro c hc
    rw [List.mem_singleton.mp hc]
    exact ⟨_, rfl, b⟩
  · intro r hr
    rw [← strip_iff, show strip L!"-" = L!"-" from by decide] at hr
    rw [← hr]
    exact fun h => absurd (refForm_mem h) (by decide)
  · intro c hc
    simp only [List.mem_cons, List.not_mem_nil, or_false] at hc
    rcases hc with rfl | rfl
    · exact ⟨_, rfl, a⟩
    · exact ⟨_, rfl, b⟩

/-- A tidy REPLACE with two rows. -/
example : ∃ q t, TidyInsert cxm 5 q ∧ (sem cxm 6).str (.insert q) = .ok t ∧
    t = L!"REPLACE INTO `t` (`a`, `b`) VALUES (1, NULL), (2, 3) ON DUPLICATE KEY UPDATE `b` = 4" := by
  have name : ∀ {s : Str}, s ≠ [] ∧ '.' ∉ s ∧ '`' ∉ s → s ≠ ['*'] → TidyName cxm.backend.quote s :=
    fun h h' => tidy_word _ _ h h'
  refine ⟨{ isReplace := true, tables := [⟨.str L!"t", .none, []⟩]
            rows := [[.value (.str L!"a") (.int 1), .value (.str L!"b") .none],
              [.value (.str L!"a") (.int 2), .value (.str L!"b") (.int 3)]]
            onDup := [.value (.str L!"b") (.int 4)] }, _, ?_, ?_, rfl⟩
  · refine ⟨?_, ⟨[L!"a", L!"b"], [[(L!"a", .int 1), (L!"b", .none)], [(L!"a", .int 2), (L!"b", .int 3)]],
      by simp, ?_, ?_, by simp, rfl, ?_⟩, ?_, by simp, ⟨by simp, fun _ => rfl⟩⟩
    · intro t ht
      rw [List.mem_singleton.mp ht]
      exact ⟨⟨shape_name (name (by decide) (by decide)), .inl rfl⟩, by simp, .nil⟩
    · rw [List.pairwise_pair]
      exact .here _ _ (by decide)
    · intro c hc
      simp only [List.mem_cons, List.not_mem_nil, or_false] at hc
      rcases hc with rfl | rfl <;> exact name (by decide) (by decide)
    · intro row hrow
      simp only [List.mem_cons, List.not_mem_nil, or_false] at hrow
      rcases hrow with rfl | rfl
      · refine ⟨rfl, fun p hp => ?_⟩
        simp only [List.mem_cons, List.not_mem_nil, or_false] at hp
        rcases hp with rfl | rfl <;> exact shape_value (.inl trivial)
      · refine ⟨rfl, fun p hp => ?_⟩
        simp only [List.mem_cons, List.not_mem_nil, or_false] at hp
        rcases hp with rfl | rfl <;> exact shape_value (.inl trivial)
    · intro v hv
      rw [List.mem_singleton.mp hv]
      exact ⟨_, _, rfl, name (by decide) (by decide), shape_value (.inl trivial)⟩
  · decide +kernel

/-- A tidy UPDATE. -/
example : ∃ q t, TidyUpdate cxm 5 q ∧ (sem cxm 6).str (.update q) = .ok t ∧
    t = L!"UPDATE `t` SET `a` = 1 WHERE `b` IS NOT NULL" := by
  have name : ∀ {s : Str}, s ≠ [] ∧ '.' ∉ s ∧ '`' ∉ s → s ≠ ['*'] → TidyName cxm.backend.quote s :=
    fun h h' => tidy_word _ _ h h'
  refine ⟨{ tables := [⟨.str L!"t", .none, []⟩], values := [.value (.str L!"a") (.int 1)]
            where_ := [.cond false (.str L!"b") .isNot .none] }, _, ⟨?_, ?_, ?_⟩, ?_, rfl⟩
  · intro t ht
    rw [List.mem_singleton.mp ht]
    exact ⟨⟨shape_name (name (by decide) (by decide)), .inl rfl⟩, by simp, .nil⟩
  · intro v hv
    rw [List.mem_singleton.mp hv]
    exact ⟨_, _, rfl, name (by decide) (by decide), shape_value (.inl trivial)⟩
  · intro c hc
    rw [List.mem_singleton.mp hc]
    exact .inl ⟨_, _, _, rfl, shape_name (name (by decide) (by decide)), shape_value (.inl trivial), by simp⟩
  · decide +kernel

/-- A tidy DELETE. -/
example : ∃ q t, TidyDelete cxm 5 q ∧ (sem cxm 6).str (.delete q) = .ok t ∧
    t = L!"DELETE `t` FROM `t`, `u` WHERE `b` = 1" := by
  have name : ∀ {s : Str}, s ≠ [] ∧ '.' ∉ s ∧ '`' ∉ s → s ≠ ['*'] → TidyName cxm.backend.quote s :=
    fun h h' => tidy_word _ _ h h'
  refine ⟨{ tables := [⟨.str L!"t", .none, []⟩], references := [⟨.str L!"t", .none, []⟩, ⟨.str L!"u", .none, []⟩]
            where_ := [.cond false (.str L!"b") .eq (.int 1)] }, _, ⟨?_, ?_, ?_⟩, ?_, rfl⟩
  · intro t ht
    rw [List.mem_singleton.mp ht]
    exact ⟨⟨shape_name (name (by decide) (by decide)), .inl rfl⟩, by simp, .nil⟩
  · intro t ht
    simp only [List.mem_cons, List.not_mem_nil, or_false] at ht
    rcases ht with rfl | rfl <;> exact ⟨⟨shape_name (name (by decide) (by decide)), .inl rfl⟩, by simp, .nil⟩
  · intro c hc
    rw [List.mem_singleton.mp hc]
    exact .inl ⟨_, _, _, rfl, shape_name (name (by decide) (by decide)), shape_value (.inl trivial), by simp⟩
  · decide +kernel

end SqlPuzzle
