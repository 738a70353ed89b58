import Verif.Proofs.InnerQueries
import Verif.Props.NestedAnswers

/-!
C75: queries in conditions.
-/

namespace SqlPuzzle

open Spec

private def cx0 : Ctx := ⟨.sql, ⟨id, id, fun _ => true, fun _ => [], fun _ => []⟩⟩

section
variable {cx : Ctx} {d : Dialect} {ref : Obj → List Tok} {V : Type} {sv : Server V}
  {holds : Tuple V → Obj → Tri} {sort : Sorter V} {gr : Grouper V} {under : Tuple V → Sources V} {judge : Judge V}

private theorem phrases (n : Nat) : Phrases (toks cx d n) (Safe cx.backend.quote n) := fun _ _ h => g_main cx d n h

private theorem select_read (hf : Fits cx d) {q : Select} {n : Nat} {t : Str}
    (h : NoRaw cx.backend.quote .query (.select q)) (e : (sem cx n).str (.select q) = .ok t) : G .select (lex d t) := by
  obtain ⟨N, hs, r⟩ := read_noRaw hf h e
  rw [r N (Nat.le_refl _)]
  cases N with
  | zero => exact hs.elim
  | succ N => exact g_select (phrases N) hs

private theorem select_stmt {q : Select} (h : NoRaw cx.backend.quote .query (.select q)) :
    NoRaw cx.backend.quote .stmt (.select q) := by
  obtain ⟨n, hn⟩ := h
  cases n with
  | zero => exact hn.elim
  | succ n => exact ⟨n + 1, hn⟩

private theorem enclosed_paren (ts : List Tok) : enclosed ts = paren ts := by simp [enclosed, paren]

private theorem tight_enclosed {k : Rel} {ts : List Tok} (h : G .select ts) : Tight (relationWords k ++ enclosed ts) := by
  have hk : relationWords k ∈ relations := by cases k <;> decide
  rw [enclosed_paren]
  exact ⟨(relation_whole (.inl rfl) hk).append (whole_paren (g_built (.single h) trivial)),
    (relation_whole (.inr rfl) hk).append (whole_paren (g_built (.single h) trivial))⟩

private theorem column_read (hf : Fits cx d) (hr : RefsSeen cx d ref) {on : Bool} {col v : Obj} {k : Rel} {n : Nat}
    {u : Str} (hv : v.iterate = none) (h : NoRaw cx.backend.quote .cond (.conds [.cond on col k v]))
    (e : (sem cx n).str (.conds [.cond on col k v]) = .ok u) : G .expr (ref col) := by
  obtain ⟨N, hs, _⟩ := read_noRaw hf h e
  have hs : Safe cx.backend.quote (max N n + 1) .cond (.conds [.cond on col k v]) := safe_le (by omega) hs
  have e : (sem cx (max N n + 1)).str (.conds [.cond on col k v]) = .ok u := ((sem_le cx (by omega)).str _).ok e
  have hs : safeCond cx.backend.quote (Safe cx.backend.quote (max N n)) (.cond on col k v) := hs.2 _ (by simp)
  have e : condsText cx (sem cx (max N n)) [] [.cond on col k v] = .ok u := e
  simp only [condsText, partsText, mapR, List.isEmpty_cons, Bool.false_eq_true, if_false, bind_ok] at e
  obtain ⟨ts, ⟨x, hx, _, ⟨⟩, ⟨⟩⟩, ⟨⟩⟩ := e
  have key : ∃ a, sqlRefText cx (sem cx (max N n)) col = .ok a := by
    cases k <;> simp only [condText, formatCond, plainCondText, inCondText, hv, bind_ok] at hx <;>
      exact ⟨_, hx.choose_spec.1⟩
  obtain ⟨a, ha⟩ := key
  rw [hr col (max N n + 1) a ha, (rt_ref hf (inner_sem hf _) hs.1 ha).reads.lex]
  exact g_ref (phrases _) hs.1

/-- C75. A query in a comparison, as in `where(col=select)`, `where('col', GT(select))` or `where('col', NOT_IN(select))`:
the condition is judged by the column and by the answer to that query, which may ask for columns of the row. -/
theorem C75_compares (hf : Fits cx d) (hr : RefsSeen cx d ref) (hh : ConditionsSeen cx d sv holds)
    (hj : JudgesInside sv sort gr under judge) {q : Select} {n m : Nat} {t u : Str} (hfile : q.outfile.file = none)
    (hl : ∀ i, q.limit.limit = some i → 0 ≤ i) (hoff : ∀ i, q.limit.offset = some i → 0 ≤ i) (hne : q.tables ≠ [])
    {on : Bool} {col : Obj} {k : Rel} (h : NoRaw cx.backend.quote .query (.select q))
    (hc : NoRaw cx.backend.quote .cond (.conds [.cond on col k (.select q)]))
    (e : (sem cx (n + 1)).str (.select q) = .ok t) (ec : (sem cx m).str (.conds [.cond on col k (.select q)]) = .ok u)
    (row : Tuple V) :
    holds row (.conds [.cond on col k (.select q)]) =
      judge.compare row (ref col) k (some (answerUnder cx sort gr under ref holds n q row)) := by
  obtain ⟨lit, hlit⟩ := literals_exist cx d
  have h1 := C74_condition hf hr hlit (on := on) (col := col) (k := k) (.inl rfl) (by simp [Obj.isStr]) hc ec
  rw [C74_query_as_value hf hlit h e] at h1
  have hcol : G .expr (ref col) := column_read hf hr rfl hc ec
  rw [hh row _ m u ec, h1, truth_compare hcol (by cases k <;> simp [relationWords]) (tight_enclosed (select_read hf h e)),
    hj.1 row (ref col) k (lex d t) hcol (select_read hf h e),
    C75_answer hf hr hh sort gr hfile hl hoff (select_stmt h) hne e]
  rfl

/-- C75. `Exists(select)`: the condition is judged by the answer to that query. -/
theorem C75_exists (hf : Fits cx d) (hr : RefsSeen cx d ref) (hh : ConditionsSeen cx d sv holds)
    (hj : JudgesInside sv sort gr under judge) {q : Select} {n m : Nat} {t u : Str} (hfile : q.outfile.file = none)
    (hl : ∀ i, q.limit.limit = some i → 0 ≤ i) (hoff : ∀ i, q.limit.offset = some i → 0 ≤ i) (hne : q.tables ≠ [])
    (h : NoRaw cx.backend.quote .query (.select q)) (e : (sem cx (n + 1)).str (.select q) = .ok t)
    (ec : (sem cx m).str (.conds [.item (.exists_ (.select q))]) = .ok u) (row : Tuple V) :
    holds row (.conds [.item (.exists_ (.select q))]) =
      judge.nonempty (some (answerUnder cx sort gr under ref holds n q row)) := by
  have hu : u = L!"EXISTS" ++ '(' :: (t ++ [')']) := by
    cases m with
    | zero => cases ec
    | succ m =>
      have ec : condsText cx (sem cx m) [] [.item (.exists_ (.select q))] = .ok u := ec
      simp only [condsText, partsText, mapR, List.isEmpty_cons, Bool.false_eq_true, if_false, bind_ok, condText] at ec
      obtain ⟨ts, ⟨x, hx, _, ⟨⟩, ⟨⟩⟩, ⟨⟩⟩ := ec
      cases m with
      | zero => cases hx
      | succ m =>
        have hx : renderF cx (sem cx m) (.exists_ (.select q)) = .ok x := hx
        simp only [renderF, bind_ok] at hx
        obtain ⟨y, hy, hx⟩ := hx
        have hy : (sem cx m).str (.select q) = .ok y := hy
        have h1 := ((sem_le cx (Nat.le_max_left m (n + 1))).str _).ok hy
        rw [((sem_le cx (Nat.le_max_right m (n + 1))).str _).ok e] at h1
        cases h1
        cases hx
        rfl
  have hread : lex d u = .word L!"EXISTS" :: enclosed (lex d t) := by
    obtain ⟨N, hs, r⟩ := read_noRaw hf h e
    have e' := ((sem_le cx (Nat.le_max_right N (n + 1))).str _).ok e
    have hs' := safe_le (Nat.le_max_left N (n + 1)) hs
    rw [hu, (rt_call hf.known (show ReadsAny d (L!"EXISTS" ++ ['(']) [.word L!"EXISTS", .sym '('] from
      any_rfl hf.known) (rt_main hf _ hs' e')).reads.lex, r _ (Nat.le_max_left N (n + 1))]
    simp [enclosed, paren]
  have hg := select_read hf h e
  have hx : G .expr (.word L!"EXISTS" :: enclosed (lex d t)) := by
    rw [enclosed_paren]
    exact .exists_ (.single hg)
  have ht : truth (sv.predicate row) (.word L!"EXISTS" :: enclosed (lex d t)) =
      sv.predicate row (.word L!"EXISTS" :: enclosed (lex d t)) :=
    truth_pred _ ⟨(expr_facts (by decide) hx).1, (expr_facts (by decide) hx).1⟩ (by simp) (by simp) rfl
  rw [hh row _ m u ec, hread, ht, hj.2 row (lex d t) hg,
    C75_answer hf hr hh sort gr hfile hl hoff (select_stmt h) hne e]
  rfl

end

/-! ### Such a server exists -/

section
variable {V : Type}

/-- A comparison with a query. -/
private def Compares (ts : List Tok) : Prop :=
  ∃ p : List Tok × Rel × List Tok, G .expr p.1 ∧ G .select p.2.2 ∧ ts = p.1 ++ (relationWords p.2.1 ++ enclosed p.2.2)

/-- `EXISTS (query)`. -/
private def AsksExists (ts : List Tok) : Prop := ∃ us, G .select us ∧ ts = .word L!"EXISTS" :: enclosed us

/-- The server and the tables for queries which are nested at most `k` deep. -/
private noncomputable def stage (sv : Server V) (sort : Sorter V) (gr : Grouper V) (base : Tuple V → Sources V)
    (judge : Judge V) (name : List Tok → Option (List (List (Cell V))) → List (Tuple V)) :
    Nat → Server V × (Tuple V → Sources V)
  | 0 => (sv, base)
  | k + 1 =>
    let answer := fun row ts => groupedAnswer (stage sv sort gr base judge name k).1 sort gr ts
      (fromRows (stage sv sort gr base judge name k).1 ((stage sv sort gr base judge name k).2 row))
    ({ sv with
      predicate := fun row ts => open Classical in
        if h : Compares ts then judge.compare row h.choose.1 h.choose.2.1 (answer row h.choose.2.2)
        else if h : AsksExists ts then judge.nonempty (answer row h.choose)
        else sv.predicate row ts },
     fun row =>
      { base row with
        table := fun n l => open Classical in
          if h : ∃ ts, n = enclosed ts then name l (answer row h.choose) else (base row).table n l })

variable (sv : Server V) (sort : Sorter V) (gr : Grouper V) (base : Tuple V → Sources V) (judge : Judge V)
  (name : List Tok → Option (List (List (Cell V))) → List (Tuple V))

private theorem stage_same (k : Nat) (row : Tuple V) :
    ((stage sv sort gr base judge name k).2 row).join = (base row).join ∧
    ((stage sv sort gr base judge name k).2 row).product = (base row).product := by
  cases k <;> exact ⟨rfl, rfl⟩

private theorem inner_shorter {a b us ts : List Tok} (e : ts = a ++ (b ++ enclosed us)) : us.length + 2 ≤ ts.length := by
  rw [e]
  simp only [List.length_append, enclosed, List.length_cons, List.length_nil]
  omega

private theorem stage_stable : ∀ (k k' : Nat) (row : Tuple V) (ts : List Tok), ts.length < k → ts.length < k' →
    (stage sv sort gr base judge name k).1.predicate row ts = (stage sv sort gr base judge name k').1.predicate row ts ∧
    ∀ l, ((stage sv sort gr base judge name k).2 row).table ts l = ((stage sv sort gr base judge name k').2 row).table ts l
  | 0, _, _, _, h, _ => absurd h (by omega)
  | _ + 1, 0, _, _, _, h => absurd h (by omega)
  | k + 1, k' + 1, row, ts, h, h' => by
    have key : ∀ us : List Tok, us.length + 2 ≤ ts.length →
        groupedAnswer (stage sv sort gr base judge name k).1 sort gr us
          (fromRows (stage sv sort gr base judge name k).1 ((stage sv sort gr base judge name k).2 row)) =
        groupedAnswer (stage sv sort gr base judge name k').1 sort gr us
          (fromRows (stage sv sort gr base judge name k').1 ((stage sv sort gr base judge name k').2 row)) := by
      intro us hu
      refine same_answer (k := us.length) ⟨?_, ?_, ?_, ?_⟩ sort gr (Nat.le_refl _)
      · exact fun row ts ht => (stage_stable k k' row ts (by omega) (by omega)).1
      · rw [(stage_same sv sort gr base judge name k row).1, (stage_same sv sort gr base judge name k' row).1]
      · rw [(stage_same sv sort gr base judge name k row).2, (stage_same sv sort gr base judge name k' row).2]
      · exact fun a l ha => (stage_stable k k' row a (by omega) (by omega)).2 l
    constructor
    · unfold stage
      dsimp only
      split
      · next hc =>
        rw [key _ (inner_shorter hc.choose_spec.2.2)]
      · split
        · next hc =>
          rw [key _ (inner_shorter (a := [.word L!"EXISTS"]) (b := []) hc.choose_spec.2)]
        · rfl
    · intro l
      unfold stage
      dsimp only
      split
      · next hc =>
        rw [key _ (inner_shorter (a := []) (b := []) hc.choose_spec)]
      · rfl

/-- There is a server that answers the queries in conditions and in the place of tables, however deep they are nested,
and treats everything else as a given one. -/
theorem C75_judge_exists :
    ∃ (sv' : Server V) (under : Tuple V → Sources V), JudgesInside sv' sort gr under judge ∧
      (∀ row, AnswersInside sv' sort gr (under row) name) ∧ sv'.literal = sv.literal ∧ sv'.default = sv.default ∧
      (∀ row ts, ¬ AsksInside ts → sv'.predicate row ts = sv.predicate row ts) ∧
      ∀ row, (under row).join = (base row).join ∧ (under row).product = (base row).product ∧
        ∀ n l, (∀ ts, n ≠ enclosed ts) → (under row).table n l = (base row).table n l := by
  let sv' : Server V := { sv with
    predicate := fun row ts => (stage sv sort gr base judge name (ts.length + 1)).1.predicate row ts }
  let under : Tuple V → Sources V := fun row => { base row with
    table := fun n l => ((stage sv sort gr base judge name (n.length + 1)).2 row).table n l }
  have key : ∀ (k : Nat) (row : Tuple V) (us : List Tok), us.length < k →
      groupedAnswer (stage sv sort gr base judge name k).1 sort gr us
        (fromRows (stage sv sort gr base judge name k).1 ((stage sv sort gr base judge name k).2 row)) =
      groupedAnswer sv' sort gr us (fromRows sv' (under row)) := by
    intro k row us hu
    refine same_answer (k := us.length) ⟨?_, ?_, ?_, ?_⟩ sort gr (Nat.le_refl _)
    · exact fun row ts ht => (stage_stable sv sort gr base judge name k (ts.length + 1) row ts (by omega) (by omega)).1
    · exact (stage_same sv sort gr base judge name k row).1
    · exact (stage_same sv sort gr base judge name k row).2
    · exact fun a l ha => (stage_stable sv sort gr base judge name k (a.length + 1) row a (by omega) (by omega)).2 l
  refine ⟨sv', under, ⟨?_, ?_⟩, ?_, rfl, rfl, ?_, ?_⟩
  · intro row left k ts h1 h2
    have hx : Compares (left ++ (relationWords k ++ enclosed ts)) := ⟨(left, k, ts), h1, h2, rfl⟩
    obtain ⟨e1, e2, e3⟩ := compare_unique h1 hx.choose_spec.1 hx.choose_spec.2.2
    show (stage sv sort gr base judge name ((left ++ (relationWords k ++ enclosed ts)).length + 1)).1.predicate row
      (left ++ (relationWords k ++ enclosed ts)) = _
    unfold stage
    dsimp only
    rw [dif_pos hx, ← e1, ← e2, ← e3, key]
    simp only [List.length_append, enclosed, List.length_cons, List.length_nil]
    omega
  · intro row ts h1
    have hx : AsksExists (.word L!"EXISTS" :: enclosed ts) := ⟨ts, h1, rfl⟩
    have e1 : hx.choose = ts := by
      have := hx.choose_spec.2
      injection this with _ e
      exact (enclosed_injective e).symm
    show (stage sv sort gr base judge name ((Tok.word L!"EXISTS" :: enclosed ts).length + 1)).1.predicate row
      (.word L!"EXISTS" :: enclosed ts) = _
    unfold stage
    dsimp only
    rw [dif_neg (by rintro ⟨p, h2, _, e⟩; exact exists_no_compare h2 h1 e), dif_pos hx, e1, key]
    simp only [List.length_append, enclosed, List.length_cons, List.length_nil]
    omega
  · intro row ts label
    have hx : ∃ x, enclosed ts = enclosed x := ⟨ts, rfl⟩
    have hc : hx.choose = ts := (enclosed_injective hx.choose_spec).symm
    show ((stage sv sort gr base judge name ((enclosed ts).length + 1)).2 row).table (enclosed ts) label = _
    unfold stage
    dsimp only
    rw [dif_pos hx, hc, key]
    simp only [List.length_append, enclosed, List.length_cons, List.length_nil]
    omega
  · intro row ts h
    show (stage sv sort gr base judge name (ts.length + 1)).1.predicate row ts = _
    unfold stage
    dsimp only
    rw [dif_neg (by rintro ⟨p, h1, h2, e⟩; exact h (.inl ⟨_, _, _, h1, h2, e⟩)),
      dif_neg (by rintro ⟨us, h1, e⟩; exact h (.inr ⟨us, h1, e⟩))]
  · refine fun row => ⟨rfl, rfl, fun n l hn => ?_⟩
    show ((stage sv sort gr base judge name (n.length + 1)).2 row).table n l = _
    unfold stage
    dsimp only
    rw [dif_neg (by rintro ⟨ts, e⟩; exact hn ts e)]

end

/-! ### The hypotheses are met -/

/-- `SELECT "x" FROM "v" WHERE "v"."b" = "t"."b"`; the right side is a column of the query around it. -/
private def inner0 : Select :=
  { columns := [⟨.str L!"x", .none⟩], tables := [⟨.str L!"v", .none, []⟩],
    where_ := [.cond false (.str L!"v.b") .eq (.sqlRef (.str L!"t.b"))] }

private def innerText0 : Str := L!"SELECT \"x\" FROM \"v\" WHERE \"v\".\"b\" = \"t\".\"b\""

/-- Conditions with this query, in a query. -/
private def outer0 : Select :=
  { columns := [⟨.str L!"a", .none⟩], tables := [⟨.str L!"t", .none, []⟩],
    where_ := [.cond false (.str L!"t.a") .notIn (.select inner0), .item (.exists_ (.select inner0))] }

example : NoRaw cx0.backend.quote .stmt (.select outer0) ∧ NoRaw cx0.backend.quote .query (.select inner0) ∧
    NoRaw cx0.backend.quote .cond (.conds [.cond false (.str L!"t.a") .notIn (.select inner0)]) ∧
    (sem cx0 8).str (.select inner0) = .ok innerText0 ∧
    (sem cx0 8).str (.conds [.cond false (.str L!"t.a") .notIn (.select inner0)]) =
      .ok (L!"\"t\".\"a\" NOT IN (" ++ innerText0 ++ L!")") ∧
    (sem cx0 8).str (.conds [.item (.exists_ (.select inner0))]) = .ok (L!"EXISTS(" ++ innerText0 ++ L!")") ∧
    (sem cx0 8).str (.select outer0) = .ok (L!"SELECT \"a\" FROM \"t\" WHERE \"t\".\"a\" NOT IN (" ++ innerText0 ++
      L!") AND EXISTS(" ++ innerText0 ++ L!")") :=
  ⟨⟨8, by decide +kernel⟩, ⟨6, by decide +kernel⟩, ⟨8, by decide +kernel⟩, by decide +kernel, by decide +kernel,
    by decide +kernel, by decide +kernel⟩

end SqlPuzzle
