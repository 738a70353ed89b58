import Verif.Proofs.CallFacts

/-!
C44: only the documented exceptions are raised.
-/

namespace SqlPuzzle
open Spec Calls

private def cx0 : Ctx := ⟨.sql, ⟨id, id, fun _ => true, fun _ => [], fun _ => []⟩⟩

/-- C44, full statement (for `Select`): every exception of a call with distinct keyword names other
than `self` and `options` is one of the library's own, or the recursion limit was hit. -/
def C44_claim : Prop :=
  ∀ (cx : Ctx) (n : Nat) (ops : List SelectOp) (op : SelectOp),
    (∀ a, (op = .columns a ∨ op = .from_ a ∨ op = .where_ a ∨ op = .having a ∨ op = .on a ∨
        op = .orderBy a ∨ op = .groupBy a) →
      (a.kw.map Prod.fst).Nodup ∧ ∀ p ∈ a.kw, p.1 ≠ L!"self" ∧ p.1 ≠ L!"options") →
    ∀ e, (selectStep cx (sem cx n) (runOps (selectStep cx (sem cx n)) {} ops) op).2 = some e →
      Documented e

/-- C44 is false: `order_by(('a', 1))` raises `AttributeError`. -/
theorem C44_refuted : ¬C44_claim := by
  intro h
  have := h cx0 5 [] (.orderBy { pos := [.tuple [.str L!"a", .int 1]] }) (by
    intro a ha
    simp only [reduceCtorEq, false_or, SelectOp.orderBy.injEq, or_false] at ha
    subst ha
    simp) .attributeError rfl
  rcases this with h | h <;> cases h

/-- C44 is false: `limit(select('a'))` raises `TypeError`. -/
theorem C44_refuted_limit : ¬C44_claim := by
  intro h
  have := h cx0 5 [] (.limit (.custom L!"a") .none) (by simp) .typeError rfl
  rcases this with h | h <;> cases h

/-- C44 is false: `where({1: 'a', 'b': 2})` raises `TypeError`, because the keys are sorted. -/
theorem C44_refuted_keys : ¬C44_claim := by
  intro h
  have := h cx0 5 [] (.where_ { pos := [.dict [(.int 1, .str L!"a"), (.str L!"b", .int 2)]] }) (by
    intro a ha
    simp only [reduceCtorEq, false_or, SelectOp.where_.injEq, or_false] at ha
    subst ha
    simp) .typeError rfl
  rcases this with h | h <;> cases h

/-- On SQLite `on_duplicate_key_update('a', 1)` raises a bare `Exception`. -/
theorem C44_refuted_sqlite : ∃ (cx : Ctx) (n : Nat) (q : Insert),
    (insertStep cx (sem cx n) q (.onDuplicateKeyUpdate { pos := [.str L!"a", .int 1] })).2 =
      some .exception ∧ ¬Documented .exception :=
  ⟨{ cx0 with backend := .sqlite }, 5, {}, rfl, by rintro (h | h) <;> cases h⟩

/-- `str(insert.values(custom('a')))` raises `AttributeError`. -/
theorem C44_refuted_values : ∃ (cx : Ctx) (n : Nat) (q : Insert),
    q = (insertStep cx (sem cx n) {} (.values { pos := [.custom L!"a"] })).1 ∧
    (insertStep cx (sem cx n) q .str).2 = some .attributeError ∧ ¬Documented .attributeError :=
  ⟨cx0, 5, _, rfl, rfl, by rintro (h | h) <;> cases h⟩

/-- C44 for `Select`: in every history of covered calls, each raises only documented exceptions,
and the query is a regular object again. -/
theorem C44_select_partial (cx : Ctx) (n : Nat) (q : Select) (hq : Regular (.select q))
    (ops : List SelectOp) (hops : ∀ o ∈ ops, SelectCall o) :
    Regular (.select (runOps (selectStep cx (sem cx n)) q ops)) ∧
      ∀ op, SelectCall op → ∀ e,
        (selectStep cx (sem cx n) (runOps (selectStep cx (sem cx n)) q ops) op).2 = some e →
          Documented e := by
  have h := sem_fine cx n
  have h1 := good_history (step := selectStep cx (sem cx n))
    (fun s o hs ho => good_select (cx := cx) h hs ho) (regSelect_iff.mp hq) hops
  exact ⟨regSelect_iff.mpr h1, fun op ho => (good_select h h1 ho).2⟩

/-- The same for `Insert`. -/
theorem C44_insert_partial (cx : Ctx) (n : Nat) (q : Insert) (hq : Regular (.insert q))
    (ops : List InsertOp) (hops : ∀ o ∈ ops, InsertCall cx.backend o) :
    Regular (.insert (runOps (insertStep cx (sem cx n)) q ops)) ∧
      ∀ op, InsertCall cx.backend op → ∀ e,
        (insertStep cx (sem cx n) (runOps (insertStep cx (sem cx n)) q ops) op).2 = some e →
          Documented e := by
  have h := sem_fine cx n
  have h1 := good_history (step := insertStep cx (sem cx n))
    (fun s o hs ho => good_insert (cx := cx) h hs ho) (regInsert_iff.mp hq) hops
  exact ⟨regInsert_iff.mpr h1, fun op ho => (good_insert h h1 ho).2⟩

/-- The same for `Update`. -/
theorem C44_update_partial (cx : Ctx) (n : Nat) (q : Update) (hq : Regular (.update q))
    (ops : List UpdateOp) (hops : ∀ o ∈ ops, UpdateCall o) :
    Regular (.update (runOps (updateStep cx (sem cx n)) q ops)) ∧
      ∀ op, UpdateCall op → ∀ e,
        (updateStep cx (sem cx n) (runOps (updateStep cx (sem cx n)) q ops) op).2 = some e →
          Documented e := by
  have h := sem_fine cx n
  have h1 := good_history (step := updateStep cx (sem cx n))
    (fun s o hs ho => good_update (cx := cx) h hs ho) (regUpdate_iff.mp hq) hops
  exact ⟨regUpdate_iff.mpr h1, fun op ho => (good_update h h1 ho).2⟩

/-- The same for `Delete`. -/
theorem C44_delete_partial (cx : Ctx) (n : Nat) (q : Delete) (hq : Regular (.delete q))
    (ops : List DeleteOp) (hops : ∀ o ∈ ops, DeleteCall o) :
    Regular (.delete (runOps (deleteStep cx (sem cx n)) q ops)) ∧
      ∀ op, DeleteCall op → ∀ e,
        (deleteStep cx (sem cx n) (runOps (deleteStep cx (sem cx n)) q ops) op).2 = some e →
          Documented e := by
  have h := sem_fine cx n
  have h1 := good_history (step := deleteStep cx (sem cx n))
    (fun s o hs ho => good_delete (cx := cx) h hs ho) (regDelete_iff.mp hq) hops
  exact ⟨regDelete_iff.mpr h1, fun op ho => (good_delete h h1 ho).2⟩

/-- New queries are regular. -/
theorem C44_start : Regular (.select {}) ∧ Regular (.insert {}) ∧ Regular (.update {}) ∧
    Regular (.delete {}) :=
  ⟨regSelect_iff.mpr ⟨by simp, by simp, by simp, by simp, by simp, by simp,
      by simp [RegOutfile, outfileParts]⟩,
    regInsert_iff.mpr ⟨by simp, by simp, by simp, by simp⟩,
    regUpdate_iff.mpr ⟨by simp, by simp, by simp⟩,
    regDelete_iff.mpr ⟨by simp, by simp, by simp⟩⟩

/-- `str` and `==` of regular objects raise only documented exceptions. -/
theorem C44_render (cx : Ctx) (n : Nat) (o : Obj) (ho : Regular o) (hs : o.isSql = true) (e : Err)
    (h : (sem cx n).str o = .error e) : Documented e :=
  (sem_fine cx n).str o ho hs e h

theorem C44_equal (cx : Ctx) (n : Nat) (a b : Obj) (ha : Regular a) (hb : Regular b) (e : Err)
    (h : (sem cx n).eq a b = .error e) : Documented e :=
  (sem_fine cx n).eq a b ha hb e h

/-- A constructor gives a regular object or raises a documented exception. -/
def Spec.Builds (r : R Obj) : Prop :=
  (∀ o, r = .ok o → Regular o) ∧ ∀ e, r = .error e → Documented e

/-- The constructors of conditions. -/
theorem C44_conditions_partial (cx : Ctx) (n : Nat) (a : Args) (ha : RegularArgs a) :
    Builds (mkConds cx (sem cx n) a) ∧ Builds (mkNot cx (sem cx n) a) := by
  have h := good_conds (cx := cx) (sem_fine cx n) false ha (ps := []) (by simp)
  constructor
  · unfold mkConds
    split
    · rename_i ps e
      rw [e] at h
      exact ⟨fun o ho => by injection ho with ho; exact ho ▸ regular_conds.mpr h.1, fun e he => by cases he⟩
    · rename_i ps e1 e
      rw [e] at h
      exact ⟨fun o ho => (by cases ho), fun e he => by injection he with he; exact h.2 _ (by rw [he])⟩
  · unfold mkNot
    split
    · rename_i ps e
      rw [e] at h
      exact ⟨fun o ho => by injection ho with ho; exact ho ▸ regular_not.mpr h.1, fun e he => by cases he⟩
    · rename_i ps e1 e
      rw [e] at h
      exact ⟨fun o ho => (by cases ho), fun e he => by injection he with he; exact h.2 _ (by rw [he])⟩

/-- `&` and `|` of conditions. -/
theorem C44_binary_partial (op : BoolOp) (l r : Obj) (hl : Regular l) (hr : Regular r)
    (hl' : IsCondition l) (hr' : IsCondition r) : Builds (mkBinary op l r) := by
  have hs : ∀ o : Obj, o.isConds = true → o.isSql = true := by
    intro o ho; cases o <;> first | rfl | cases ho
  have hlc := isConds_iff.mpr hl'
  have hrc := isConds_iff.mpr hr'
  unfold mkBinary
  rw [hlc, hrc]
  refine ⟨fun o ho => ?_, fun e he => by cases he⟩
  injection ho with ho
  subst ho
  exact ⟨⟨hs l hlc, hs r hrc⟩, by
    intro x hx
    simp only [parts, List.mem_cons, List.not_mem_nil, or_false] at hx
    rcases hx with rfl | rfl
    · exact hl
    · exact hr⟩

/-- A relation of one argument. -/
theorem C44_relation_partial (k : Rel) (v : Obj) (hv : Regular v) : Builds (mkRel k [v]) := by
  refine ⟨fun o ho => ?_, ?_⟩
  · obtain ⟨w, h1, h2⟩ := bind_ok.mp ho
    injection h2 with h2
    subst h2
    exact ⟨trivial, by
      intro x hx
      simp only [parts, List.mem_cons, List.not_mem_nil, or_false] at hx
      subst hx
      exact relValue_reg hv h1⟩
  · exact (fine_relValue k v).bind fun _ _ => .ok _

/-- Unions of a select or union with anything. -/
theorem C44_union_partial (a b : Obj) (ha : Regular a) (hb : Regular b) (all : Bool)
    (hs : (∃ q, a = .select q) ∨ ∃ x y z, a = .union x y z) : Builds (mkUnion a b all) := by
  have hm : mkUnion a b all = if b.isSql then .ok (.union a b all) else .error .invalidArgument := by
    rcases hs with ⟨q, rfl⟩ | ⟨x, y, z, rfl⟩ <;> rfl
  have has : a.isSql = true := by rcases hs with ⟨q, rfl⟩ | ⟨x, y, z, rfl⟩ <;> rfl
  rw [hm]
  split
  · rename_i hbs
    refine ⟨fun o ho => ?_, fun e he => by cases he⟩
    injection ho with ho
    subst ho
    exact ⟨⟨has, hbs⟩, by
      intro x hx
      simp only [parts, List.mem_cons, List.not_mem_nil, or_false] at hx
      rcases hx with rfl | rfl
      · exact ha
      · exact hb⟩
  · exact ⟨fun o ho => (by cases ho), fun e he => by injection he with he; subst he; exact Or.inl rfl⟩

/-- Functions. -/
theorem C44_functions_partial (cx : Ctx) (n : Nat) (es : List Obj) (hes : RegularObjs es) :
    Builds (mkConcat (sem cx n) es) ∧ Builds (mkGroupConcat (sem cx n) es) ∧
      ∀ (f : Agg) (d : Bool), ∀ e ∈ es, Regular (mkFunc f d e) := by
  have ha : RegularArgs { pos := es } := ⟨by simp, by simp, by simp, .inl hes⟩
  have h := good_columns (sem_fine cx n) ha (cs := []) (by simp)
  refine ⟨?_, ?_, ?_⟩
  · unfold mkConcat
    split
    · rename_i cs e
      rw [e] at h
      refine ⟨fun o ho => ?_, fun e he => by cases he⟩
      injection ho with ho
      subst ho
      exact ⟨trivial, regColumns_iff.mpr h.1⟩
    · rename_i cs e1 e
      rw [e] at h
      exact ⟨fun o ho => (by cases ho), fun e he => by injection he with he; exact h.2 _ (by rw [he])⟩
  · unfold mkGroupConcat
    split
    · rename_i cs e
      rw [e] at h
      refine ⟨fun o ho => ?_, fun e he => by cases he⟩
      injection ho with ho
      subst ho
      refine ⟨trivial, ?_⟩
      have := regColumns_iff.mpr h.1
      intro x hx
      simp only [parts, List.flatMap_nil, List.append_nil, List.mem_append, List.mem_cons,
        List.not_mem_nil, or_false] at hx
      rcases hx with hx | rfl
      · exact this x hx
      · exact regular_none
    · rename_i cs e1 e
      rw [e] at h
      exact ⟨fun o ho => (by cases ho), fun e he => by injection he with he; exact h.2 _ (by rw [he])⟩
  · intro f d e he
    have hr := hes e he
    unfold mkFunc
    split
    · split
      · exact ⟨trivial, by simpa [parts, Regular] using hr⟩
      · exact ⟨trivial, by simpa [parts, Regular] using regular_str ['*']⟩
    · exact ⟨trivial, by simpa [parts, Regular] using hr⟩

/-- The covered calls include real ones: a `where` with a nested select, a list and keyword
arguments. -/
example : SelectCall (.where_ { pos := [.list [.tuple [.str L!"a", .list [.int 1]],
    .tuple [.str L!"b", .select {}]]], kw := [(L!"c", .none)] }) where
  names := by decide
  distinct := by decide
  values := by simpa using regular_none
  pos := .inl <| by
    have h1 := C44_start.1
    have e : ∀ x y, Regular x → Regular y → Regular (.tuple [x, y]) := fun x y hx hy =>
      ⟨trivial, by
        intro z hz
        simp only [parts, List.mem_cons, List.not_mem_nil, or_false] at hz
        rcases hz with rfl | rfl
        · exact hx
        · exact hy⟩
    intro o ho
    rw [List.mem_singleton.mp ho]
    refine regular_list fun x hx => ?_
    simp only [List.mem_cons, List.not_mem_nil, or_false] at hx
    rcases hx with rfl | rfl
    · exact e _ _ (regular_str _) (regular_list (by simpa using regular_int 1))
    · exact e _ _ (regular_str _) h1

/-- An order by a dictionary with a wrong direction is covered, and raises a documented exception. -/
example : SelectCall (.orderBy { pos := [.dict [(.str L!"a", .str L!"up")]] }) ∧
    (selectStep cx0 (sem cx0 5) {} (.orderBy { pos := [.dict [(.str L!"a", .str L!"up")]] })).2 =
      some .invalidArgument :=
  ⟨⟨⟨by simp, by simp, by simp, .inr ⟨[(L!"a", .str L!"up")], rfl, by decide, by
      intro p hp
      rw [List.mem_singleton.mp hp]
      exact regular_str _⟩⟩,
    ⟨by
      intro x hx y hy
      rw [List.mem_singleton.mp hx] at hy
      exact absurd hy (by simp [asTuple]), by
      intro kvs e p hp
      injection e with e
      injection e with e
      rw [← e] at hp
      rw [List.mem_singleton.mp hp]
      exact ⟨fun i e => (by cases e), rfl⟩, fun p hp => nomatch hp⟩⟩, rfl⟩

end SqlPuzzle
