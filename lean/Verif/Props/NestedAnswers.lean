import Verif.Props.Written
import Verif.Props.Unions
import Verif.Spec.Changes

/-!
C75: what a server answers to queries of any shape: with queries as tables, and unions of them.
-/

namespace SqlPuzzle

open Spec

private def cx0 : Ctx := ⟨.sql, ⟨id, id, fun _ => true, fun _ => [], fun _ => []⟩⟩

section
variable {cx : Ctx} {d : Dialect} {ref lit : Obj → List Tok} {V : Type} {sv : Server V} {src : Sources V}
  {holds : Tuple V → Obj → Tri}

private theorem query_stmt {q : Select} (h : NoRaw cx.backend.quote .query (.select q)) :
    NoRaw cx.backend.quote .stmt (.select q) := by
  obtain ⟨n, hn⟩ := h
  cases n with
  | zero => exact hn.elim
  | succ n => exact ⟨n + 1, hn⟩

/-- C75. A query in the place of a table: its rows are the answer to that query. -/
theorem C75_derived_table (hf : Fits cx d) (hr : RefsSeen cx d ref) (hh : ConditionsSeen cx d sv holds)
    {sort : Sorter V} {gr : Grouper V} {name : List Tok → Option (List (List (Cell V))) → List (Tuple V)}
    (ha : AnswersInside sv sort gr src name) {q : Select} {n : Nat} {t : Str} (hfile : q.outfile.file = none)
    (hl : ∀ i, q.limit.limit = some i → 0 ≤ i) (hoff : ∀ i, q.limit.offset = some i → 0 ≤ i)
    (h : NoRaw cx.backend.quote .query (.select q)) (hne : q.tables ≠ [])
    (e : (sem cx (n + 1)).str (.select q) = .ok t) (label : Obj) (hlabel : label.truthy = true) :
    tableWritten src ref (.select q) label = name (ref label) (some (answerWritten sort gr ref holds q
      (sourcesWritten src ref holds (selectStep cx (sem cx n) q .str).1.tables))) := by
  unfold tableWritten
  rw [if_pos hlabel, C74_query_as_column hf hr h e]
  refine (ha _ _).trans ?_
  rw [C75_answer hf hr hh sort gr hfile hl hoff (query_stmt h) hne e]

/-! ### Unions -/

private theorem bag_congr {Row : Type} {f g : Obj → Bag Row} : ∀ tr : UnionTree,
    (∀ q ∈ tr.selects, f (.select q) = g (.select q)) → tr.bag f = tr.bag g
  | .sel q, h => h q (by simp [UnionTree.selects])
  | .all l r, h => by
    show (l.bag f).addAll (r.bag f) = (l.bag g).addAll (r.bag g)
    rw [bag_congr l fun q hq => h q (List.mem_append_left _ hq), bag_congr r fun q hq => h q (List.mem_append_right _ hq)]
  | .distinct l r, h => by
    show (l.bag f).addDistinct (r.bag f) = (l.bag g).addDistinct (r.bag g)
    rw [bag_congr l fun q hq => h q (List.mem_append_left _ hq), bag_congr r fun q hq => h q (List.mem_append_right _ hq)]

private theorem selects_ok : ∀ (tr : UnionTree) (n : Nat), (∃ t, (sem cx n).str tr.obj = .ok t) →
    ∀ q ∈ tr.selects, ∃ u, (sem cx n).str (.select q) = .ok u
  | .sel q, n, e, q', hq => by
    cases List.mem_singleton.mp hq
    exact e
  | .all l r, 0, ⟨_, e⟩, _, _ => by cases e
  | .distinct l r, 0, ⟨_, e⟩, _, _ => by cases e
  | .all l r, n + 1, ⟨t, e⟩, q, hq => by
    simp only [UnionTree.obj, sem, renderF, bind_ok] at e
    obtain ⟨a, ha, b, hb, _⟩ := e
    rcases List.mem_append.mp hq with hq | hq
    · obtain ⟨u, hu⟩ := selects_ok l n ⟨a, ha⟩ q hq
      exact ⟨u, ((sem_le cx (Nat.le_succ n)).str _).ok hu⟩
    · obtain ⟨u, hu⟩ := selects_ok r n ⟨b, hb⟩ q hq
      exact ⟨u, ((sem_le cx (Nat.le_succ n)).str _).ok hu⟩
  | .distinct l r, n + 1, ⟨t, e⟩, q, hq => by
    simp only [UnionTree.obj, sem, renderF, bind_ok] at e
    obtain ⟨a, ha, b, hb, _⟩ := e
    rcases List.mem_append.mp hq with hq | hq
    · obtain ⟨u, hu⟩ := selects_ok l n ⟨a, ha⟩ q hq
      exact ⟨u, ((sem_le cx (Nat.le_succ n)).str _).ok hu⟩
    · obtain ⟨u, hu⟩ := selects_ok r n ⟨b, hb⟩ q hq
      exact ⟨u, ((sem_le cx (Nat.le_succ n)).str _).ok hu⟩

/-- C37. A union written without the help of parentheses (`UnionTree.Regular`, see C37), of selects that have tables and
no tail: the server adds up the answers that the parts of each select say. `count` is how it counts the lines. -/
theorem C37_answers_partial {Row : Type} (hf : Fits cx d) (hr : RefsSeen cx d ref) (hh : ConditionsSeen cx d sv holds)
    (sort : Sorter V) (gr : Grouper V) (count : Option (List (List (Cell V))) → Bag Row)
    {cut : List Tok → Bag Row → Bag Row} (hc : ∀ b, cut [] b = b) {tr : UnionTree} (hreg : tr.Regular) (ht : tr.NoTail)
    (hne : ∀ q ∈ tr.selects, q.tables ≠ []) {n : Nat} {t : Str} (h : NoRaw cx.backend.quote .query tr.obj)
    (e : (sem cx (n + 1)).str tr.obj = .ok t) {leaf : Obj → Bag Row}
    (hleaf : ∀ q ∈ tr.selects, leaf (.select q) = count (some (answerWritten sort gr ref holds q
      (sourcesWritten src ref holds (selectStep cx (sem cx n) q .str).1.tables)))) :
    bagOf (fun ts => count (groupedAnswer sv sort gr ts (fromRows sv src))) cut (lex d t) = tr.bag leaf := by
  generalize hsel : (fun ts => count (groupedAnswer sv sort gr ts (fromRows sv src))) = sel
  obtain ⟨f, hfb⟩ := C37_leaf_exists cx d sel cut
  rw [C37_regular_partial hf hc hfb hreg ht h e]
  refine bag_congr tr fun q hq => ?_
  obtain ⟨u, eq⟩ := selects_ok tr _ ⟨t, e⟩ q hq
  obtain ⟨N, hs⟩ := h
  have hs := safe_le (by omega : N ≤ max N (n + 1)) hs
  have e := ((sem_le cx (by omega : n + 1 ≤ max N (n + 1))).str _).ok e
  obtain ⟨hsq, htq, _⟩ := selects_safe tr _ hs ht ⟨t, e⟩ q hq
  obtain ⟨M, hsM, r⟩ := read_noRaw hf ⟨_, hsq⟩ eq
  have hp := (parts_union (d := d) (.sel q) M hsM htq).1
  have h1 := bagOf_parts (sel := sel) (xs := []) hc hp (by simp)
  have h2 : toksHead cx d M (.sel q) ++ restToks [] = lex d u := by
    rw [r M (Nat.le_refl _)]
    simp [toksHead, restToks]
  have h3 : toksHead cx d M (.sel q) = lex d u := by
    rw [r M (Nat.le_refl _)]
    simp [toksHead]
  rw [h2] at h1
  rw [hfb _ _ _ eq, h1, h3, hleaf q hq, ← hsel]
  show count _ = _
  rw [C75_answer hf hr hh sort gr htq.2.2.2.1 (by rw [htq.2.1]; simp) (by rw [htq.2.2.1]; simp) (query_stmt ⟨_, hsq⟩)
    (hne q hq) eq]

/-! ### Changes -/

private def bothSides (sv : Server V) : List (List Tok) → Option (List Tok × V)
  | [c, v] => some (c, sv.literal v)
  | _ => none

/-- The assignments that the server reads in an UPDATE. -/
theorem assignments_written (hf : Fits cx d) (hr : RefsSeen cx d ref) (hv : LiteralsSeen cx d lit) {q : Update} {n : Nat}
    {t : Str} (h : NoRaw cx.backend.quote .stmt (.update q)) (hvals : q.values ≠ [])
    (e : (sem cx n).str (.update q) = .ok t) :
    assignmentsOf sv (lex d t) = assignmentsWritten sv ref lit q.values := by
  have k := congrArg (List.filterMap (bothSides sv)) (C74_assignments hf hr hv h hvals e)
  rw [List.filterMap_map, List.filterMap_map] at k
  refine (Eq.trans ?_ k).trans ?_
  · unfold assignmentsOf
    refine congrArg (fun f => List.filterMap f _) (funext fun p => ?_)
    show _ = bothSides sv (pieces _ p)
    unfold bothSides
    rfl
  · unfold assignmentsWritten
    refine congrArg (fun f => List.filterMap f _) (funext fun v => ?_)
    cases v <;> rfl

/-- C75. An UPDATE without custom SQL, whose tables, columns, values and conditions may be anything else: the server is
told to change the rows in which all conditions hold, by exactly the assignments of the query. -/
theorem C75_update (hf : Fits cx d) (hr : RefsSeen cx d ref) (hv : LiteralsSeen cx d lit)
    (hh : ConditionsSeen cx d sv holds) (ch : Changer V) {q : Update} {n : Nat} {t : Str}
    (h : NoRaw cx.backend.quote .stmt (.update q)) (hne : q.tables ≠ []) (hvals : q.values ≠ [])
    (e : (sem cx (n + 1)).str (.update q) = .ok t) :
    carryOutUpdates sv src ch (lex d t) = ch.update
      ((sourcesWritten src ref holds (updateStep cx (sem cx n) q .str).1.tables).filter (allHold holds q.where_))
      (assignmentsWritten sv ref lit q.values) := by
  unfold carryOutUpdates rowsUpdated
  rw [C74_update_tables hf hr hh h hne e, funext (C74_where_update hf hh h e)]
  congr 1
  exact assignments_written hf hr hv h hvals e

/-- C75. A DELETE without custom SQL: the server is told to delete, from the tables named, the rows in which all conditions
hold. -/
theorem C75_delete (hf : Fits cx d) (hr : RefsSeen cx d ref) (hh : ConditionsSeen cx d sv holds) (ch : Changer V)
    {q : Delete} {n : Nat} {t : Str} (h : NoRaw cx.backend.quote .stmt (.delete q)) (hne : q.references ≠ [])
    (hj : ∀ b ∈ q.tables, b.joins = []) (e : (sem cx (n + 1)).str (.delete q) = .ok t) :
    carryOutDeletes sv src ch (lex d t) = ch.delete
      ((sourcesWritten src ref holds (deleteStep cx (sem cx n) q .str).1.references).filter (allHold holds q.where_))
      (q.tables.map fun b => withAlias ref b.name b.alias) := by
  unfold carryOutDeletes rowsDeleted
  rw [C74_delete_tables hf hr hh h hne e, funext (C74_where_delete hf hh h e), C74_delete_targets hf hr h hj e]

/-! ### A server that answers inner queries exists -/

private theorem piece_short {s : Tok} {ts p : List Tok} (h : p ∈ pieces s ts) : p.length ≤ ts.length := by
  have h1 := splitAt_count s ts 0
  have h2 := length_le_flatten h
  have h3 := List.length_pos_of_mem h
  unfold Spec.pieces at h2 h3
  omega

private theorem before_short (ws : List Str) : ∀ (n : Nat) (ts : List Tok), (beforeAt ws n ts).length ≤ ts.length
  | _, [] => by simp [beforeAt]
  | n, t :: ts => by
    have h1 := before_short ws (n + 1) ts
    have h2 := before_short ws (n - 1) ts
    have h3 := before_short ws n ts
    unfold beforeAt
    split_ifs <;> simp only [List.length_cons, List.length_nil] <;> omega

private theorem after_short (w : Str) : ∀ (n : Nat) (ts : List Tok), (afterAt w n ts).length ≤ ts.length
  | _, [] => by simp [afterAt]
  | n, t :: ts => by
    have h1 := after_short w (n + 1) ts
    have h2 := after_short w (n - 1) ts
    have h3 := after_short w n ts
    unfold afterAt
    split_ifs <;> simp only [List.length_cons] <;> omega

private theorem body_short (ws : List Str) (w : Str) (ts : List Tok) : (clauseBody ws w ts).length ≤ ts.length :=
  Nat.le_trans (before_short _ _ _) (after_short _ _ _)

private theorem cut_short (ts : List Tok) : (cutKind ts).1.length ≤ ts.length := by
  unfold cutKind
  split_ifs <;> simp

/-- Two servers that do the same with tables of at most `k` tokens. -/
private def Alike (k : Nat) (s s' : Sources V) : Prop :=
  s.join = s'.join ∧ s.product = s'.product ∧ ∀ a l, a.length ≤ k → s.table a l = s'.table a l

private theorem alike_table {k : Nat} {s s' : Sources V} (h : Alike k s s') {ts : List Tok} (hk : ts.length ≤ k) :
    tableRows s ts = tableRows s' ts := by
  unfold tableRows
  split
  · next n a e =>
    have : n.length ≤ ts.length := piece_short (s := .word L!"AS") (by rw [e]; simp)
    exact h.2.2 _ _ (by omega)
  · exact h.2.2 _ _ hk

private theorem alike_joins {k : Nat} {s s' : Sources V} (h : Alike k s s') : ∀ (ps : List (List Tok))
    (rows : List (Tuple V)) (kind : List Tok), (∀ p ∈ ps, p.length ≤ k) →
    joinRows sv s rows kind ps = joinRows sv s' rows kind ps
  | [], _, _, _ => rfl
  | p :: ps, rows, kind, hp => by
    have hps := fun q hq => hp q (List.mem_cons_of_mem _ hq)
    have hc : (cutKind p).1.length ≤ k := Nat.le_trans (cut_short p) (hp p (by simp))
    unfold joinRows
    rw [h.1]
    split
    · next t c e =>
      have : t.length ≤ (cutKind p).1.length := piece_short (s := .word L!"ON") (by rw [e]; simp)
      rw [alike_table h (by omega : t.length ≤ k)]
      exact alike_joins h ps _ _ hps
    · rw [alike_table h hc]
      exact alike_joins h ps _ _ hps

private theorem alike_from {k : Nat} {s s' : Sources V} (h : Alike k s s') {ts : List Tok} (hk : ts.length ≤ k) :
    fromRows sv s ts = fromRows sv s' ts := by
  unfold fromRows
  rw [h.2.1]
  congr 1
  refine List.map_congr_left fun x hx => ?_
  have hx : x.length ≤ k := Nat.le_trans (piece_short hx) hk
  unfold itemRows
  split
  · rfl
  · next p ps e =>
    have hp : ∀ q ∈ p :: ps, q.length ≤ k := fun q hq =>
      Nat.le_trans (piece_short (s := .word L!"JOIN") (by rw [e]; exact hq)) hx
    rw [alike_table h (Nat.le_trans (cut_short p) (hp p (by simp)))]
    exact alike_joins h ps _ _ fun q hq => hp q (List.mem_cons_of_mem _ hq)

private theorem alike_answer {k : Nat} {s s' : Sources V} (h : Alike k s s') (sort : Sorter V) (gr : Grouper V)
    {ts : List Tok} (hk : ts.length ≤ k) :
    groupedAnswer sv sort gr ts (fromRows sv s) = groupedAnswer sv sort gr ts (fromRows sv s') := by
  unfold groupedAnswer
  rw [alike_from h (Nat.le_trans (body_short _ _ ts) hk)]

private theorem enclosed_inj {a b : List Tok} (h : enclosed a = enclosed b) : a = b := by
  unfold enclosed at h
  injection h with _ h
  exact List.append_cancel_right h

/-- The server that answers queries which are nested at most `k` deep. -/
private noncomputable def levels (sv : Server V) (sort : Sorter V) (gr : Grouper V) (base : Sources V)
    (name : List Tok → Option (List (List (Cell V))) → List (Tuple V)) : Nat → Sources V
  | 0 => base
  | k + 1 =>
    { base with
      table := fun n l => open Classical in
        if h : ∃ ts, n = enclosed ts then
          name l (groupedAnswer sv sort gr h.choose (fromRows sv (levels sv sort gr base name k)))
        else base.table n l }

private theorem levels_same (sv : Server V) (sort : Sorter V) (gr : Grouper V) (base : Sources V)
    (name : List Tok → Option (List (List (Cell V))) → List (Tuple V)) (k : Nat) :
    (levels sv sort gr base name k).join = base.join ∧ (levels sv sort gr base name k).product = base.product := by
  cases k <;> exact ⟨rfl, rfl⟩

private theorem levels_stable (sv : Server V) (sort : Sorter V) (gr : Grouper V) (base : Sources V)
    (name : List Tok → Option (List (List (Cell V))) → List (Tuple V)) : ∀ (k k' : Nat) (n l : List Tok),
    n.length < k → n.length < k' →
    (levels sv sort gr base name k).table n l = (levels sv sort gr base name k').table n l
  | 0, _, _, _, h, _ => absurd h (by omega)
  | _ + 1, 0, _, _, _, h => absurd h (by omega)
  | k + 1, k' + 1, n, l, h, h' => by
    unfold levels
    dsimp only
    split
    · next hn =>
      have hlen : hn.choose.length + 2 = n.length := by
        conv => rhs; rw [hn.choose_spec]
        simp [enclosed]
      congr 1
      refine alike_answer (k := hn.choose.length) ⟨?_, ?_, ?_⟩ sort gr (Nat.le_refl _)
      · rw [(levels_same sv sort gr base name k).1, (levels_same sv sort gr base name k').1]
      · rw [(levels_same sv sort gr base name k).2, (levels_same sv sort gr base name k').2]
      · exact fun a l ha => levels_stable sv sort gr base name k k' a l (by omega) (by omega)
    · rfl

/-- There is a server that answers inner queries, however deep they are nested, and treats everything else as a given
one. -/
theorem C75_server_exists (sv : Server V) (sort : Sorter V) (gr : Grouper V) (base : Sources V)
    (name : List Tok → Option (List (List (Cell V))) → List (Tuple V)) :
    ∃ src : Sources V, AnswersInside sv sort gr src name ∧ src.join = base.join ∧ src.product = base.product ∧
      ∀ n l, (∀ ts, n ≠ enclosed ts) → src.table n l = base.table n l := by
  refine ⟨{ base with table := fun n l => (levels sv sort gr base name (n.length + 1)).table n l }, ?_, rfl, rfl, ?_⟩
  · intro ts label
    show (levels sv sort gr base name ((enclosed ts).length + 1)).table (enclosed ts) label = _
    have hlen : (enclosed ts).length = ts.length + 2 := by simp [enclosed]
    have hx : ∃ x, enclosed ts = enclosed x := ⟨ts, rfl⟩
    have hc : hx.choose = ts := (enclosed_inj hx.choose_spec).symm
    unfold levels
    dsimp only
    rw [dif_pos hx, hc]
    congr 1
    refine alike_answer (k := ts.length) ⟨?_, ?_, ?_⟩ sort gr (Nat.le_refl _)
    · exact (levels_same sv sort gr base name _).1
    · exact (levels_same sv sort gr base name _).2
    · exact fun a l ha => levels_stable sv sort gr base name (enclosed ts).length (a.length + 1) a l
        (by omega) (by omega)
  · intro n l hn
    show (levels sv sort gr base name (n.length + 1)).table n l = _
    unfold levels
    dsimp only
    rw [dif_neg (by rintro ⟨ts, e⟩; exact hn ts e)]

end

/-! ### The hypotheses are met -/

/-- `SELECT "a", COUNT(*) AS "n" FROM "t" WHERE "b" > 0 GROUP BY "a" HAVING "n" > 1 LIMIT 5`. -/
private def counts0 : Select :=
  { columns := [⟨.str L!"a", .none⟩, ⟨.func .count false (.str L!"*"), .str L!"n"⟩], tables := [⟨.str L!"t", .none, []⟩],
    where_ := [.cond false (.str L!"b") .gt (.int 0)], groupBy := [⟨.str L!"a", false⟩],
    having := [.cond false (.str L!"n") .gt (.int 1)], limit := { limit := some 5 } }

/-- The query above as a table, joined with another one. -/
private def top0 : Select :=
  { columns := [⟨.str L!"u.a", .none⟩], opts := { duplicated := .distinct },
    tables := [⟨.select counts0, .str L!"u",
      [⟨.left, .str L!"v", .none, [.cond true (.str L!"v.a") .eq (.str L!"u.a")]⟩]⟩],
    where_ := [.cond false (.str L!"u.n") .lt (.int 9)], orderBy := [⟨.str L!"u.n", true⟩] }

private def countsText0 : Str :=
  L!"SELECT \"a\", COUNT(*) AS \"n\" FROM \"t\" WHERE \"b\" > 0 GROUP BY \"a\" HAVING \"n\" > 1 LIMIT 5"

private def topText0 : Str :=
  L!"SELECT DISTINCT \"u\".\"a\" FROM (" ++ countsText0 ++
  L!") AS \"u\" LEFT JOIN \"v\" ON \"v\".\"a\" = \"u\".\"a\" WHERE \"u\".\"n\" < 9 ORDER BY \"u\".\"n\" DESC"

example : NoRaw cx0.backend.quote .stmt (.select top0) ∧ NoRaw cx0.backend.quote .query (.select counts0) ∧
    (sem cx0 8).str (.select top0) = .ok topText0 ∧ (sem cx0 8).str (.select counts0) = .ok countsText0 :=
  ⟨⟨8, by decide +kernel⟩, ⟨6, by decide +kernel⟩, by decide +kernel, by decide +kernel⟩

private def union1 : UnionTree := .all (.sel { counts0 with limit := {} }) (.sel { top0 with orderBy := [] })

example : union1.Regular ∧ union1.NoTail ∧ NoRaw cx0.backend.quote .query union1.obj ∧
    (∀ q ∈ union1.selects, q.tables ≠ []) ∧ ∃ t, (sem cx0 9).str union1.obj = .ok t :=
  ⟨⟨trivial, rfl⟩, ⟨⟨rfl, rfl, rfl, rfl, rfl⟩, ⟨rfl, rfl, rfl, rfl, rfl⟩⟩, ⟨9, by decide +kernel⟩,
    by simp [union1, UnionTree.selects, counts0, top0], ⟨_, rfl⟩⟩

/-- An UPDATE of a table joined with a query; and a DELETE from two of three tables. -/
private def update1 : Update :=
  { tables := [⟨.str L!"t", .none, [⟨.inner, .select counts0, .str L!"u",
      [.cond true (.str L!"t.a") .eq (.str L!"u.a")]⟩]⟩],
    values := [.value (.str L!"t.b") (.select counts0)], where_ := [.cond false (.str L!"u.n") .eq (.int 2)] }

private def delete1 : Delete :=
  { tables := [⟨.str L!"t", .none, []⟩, ⟨.str L!"v", .none, []⟩],
    references := [⟨.str L!"t", .none, []⟩, ⟨.str L!"v", .none, []⟩, ⟨.select counts0, .str L!"u", []⟩],
    where_ := [.cond false (.str L!"u.n") .eq (.int 2)] }

example : NoRaw cx0.backend.quote .stmt (.update update1) ∧ NoRaw cx0.backend.quote .stmt (.delete delete1) ∧
    (sem cx0 9).str (.update update1) = .ok (L!"UPDATE \"t\" JOIN (" ++ countsText0 ++
      L!") AS \"u\" ON \"t\".\"a\" = \"u\".\"a\" SET \"t\".\"b\" = (" ++ countsText0 ++ L!") WHERE \"u\".\"n\" = 2") ∧
    (sem cx0 9).str (.delete delete1) = .ok (L!"DELETE \"t\", \"v\" FROM \"t\", \"v\", (" ++ countsText0 ++
      L!") AS \"u\" WHERE \"u\".\"n\" = 2") :=
  ⟨⟨8, by decide +kernel⟩, ⟨8, by decide +kernel⟩, by decide +kernel, by decide +kernel⟩

end SqlPuzzle
