import Verif.Proofs.RefineText
import Verif.Spec.Sample

/-!
C57: what a call does depends on the values of the query and of the arguments, and on nothing else.

The premises are those of `Verif.Spec.Shows` and `Verif.Spec.MemCalls`: at `q` there is the query `s`
(`Holds`), and the arguments of the call are those of the operation `op` (`SelectSays` and so on); how
values are laid out in memory and which of them are shared is left open.  `Faithful` says that comparing,
rendering and sorting objects goes by their values.
-/

namespace SqlPuzzle
open SqlPuzzle.Spec SqlPuzzle.Refine

/-- C57. A call of a method of a `Select` has the effect on the query in memory, and raises the exception,
that the operation has on its value, and changes no other object. -/
theorem C57_select {T : Runtime} {cx : Ctx} {S : Sem} (hT : Faithful T cx S) {h : Heap} {q : Nat}
    {own : List Nat} {s : Select} (hq : Holds h q (.select s) own) {c : HCall} {op : SelectOp}
    (hc : SelectSays (outside (· ∈ own) h) c op) :
    Does q h own (hCall T cx q c h) (.select (selectStep cx S s op).1) (selectStep cx S s op).2 :=
  (select_call hT hq hc).does

/-- C57 for `Insert`. -/
theorem C57_insert {T : Runtime} {cx : Ctx} {S : Sem} (hT : Faithful T cx S) {h : Heap} {q : Nat}
    {own : List Nat} {s : Insert} (hq : Holds h q (.insert s) own) {c : HCall} {op : InsertOp}
    (hc : InsertSays (outside (· ∈ own) h) c op) :
    Does q h own (hCall T cx q c h) (.insert (insertStep cx S s op).1) (insertStep cx S s op).2 :=
  (insert_call hT hq hc).does

/-- C57 for `Update`. -/
theorem C57_update {T : Runtime} {cx : Ctx} {S : Sem} (hT : Faithful T cx S) {h : Heap} {q : Nat}
    {own : List Nat} {s : Update} (hq : Holds h q (.update s) own) {c : HCall} {op : UpdateOp}
    (hc : UpdateSays (outside (· ∈ own) h) c op) :
    Does q h own (hCall T cx q c h) (.update (updateStep cx S s op).1) (updateStep cx S s op).2 :=
  (update_call hT hq hc).does

/-- C57 for `Delete`. -/
theorem C57_delete {T : Runtime} {cx : Ctx} {S : Sem} (hT : Faithful T cx S) {h : Heap} {q : Nat}
    {own : List Nat} {s : Delete} (hq : Holds h q (.delete s) own) {c : HCall} {op : DeleteOp}
    (hc : DeleteSays (outside (· ∈ own) h) c op) :
    Does q h own (hCall T cx q c h) (.delete (deleteStep cx S s op).1) (deleteStep cx S s op).2 :=
  (delete_call hT hq hc).does

/-- C57 for histories of calls on a `Select`, of any length. -/
theorem C57_select_history {T : Runtime} {cx : Ctx} {S : Sem} (hT : Faithful T cx S) {h : Heap} {q : Nat}
    {own : List Nat} {s : Select} (hq : Holds h q (.select s) own) {cs : List HCall} {ops : List SelectOp}
    (hc : List.Forall₂ (SelectSays (outside (· ∈ own) h)) cs ops) :
    ∃ own', Holds (callAll T cx q h cs) q (.select (runOps (selectStep cx S) s ops)) own' ∧
      Untouched h own (callAll T cx q h cs) own' ∧
      callRaises T cx q h cs = (opRaises (selectStep cx S) s ops).map returned :=
  history_sim .select (selectStep cx S) SelectSays (fun _ _ hm _ _ => selectCall_mono hm)
    (fun _ _ _ _ _ hq hc => select_call hT hq hc) hq hc

/-- C57 for histories of calls on an `Insert`. -/
theorem C57_insert_history {T : Runtime} {cx : Ctx} {S : Sem} (hT : Faithful T cx S) {h : Heap} {q : Nat}
    {own : List Nat} {s : Insert} (hq : Holds h q (.insert s) own) {cs : List HCall} {ops : List InsertOp}
    (hc : List.Forall₂ (InsertSays (outside (· ∈ own) h)) cs ops) :
    ∃ own', Holds (callAll T cx q h cs) q (.insert (runOps (insertStep cx S) s ops)) own' ∧
      Untouched h own (callAll T cx q h cs) own' ∧
      callRaises T cx q h cs = (opRaises (insertStep cx S) s ops).map returned :=
  history_sim .insert (insertStep cx S) InsertSays (fun _ _ hm _ _ => insertCall_mono hm)
    (fun _ _ _ _ _ hq hc => insert_call hT hq hc) hq hc

/-- C57 for histories of calls on an `Update`. -/
theorem C57_update_history {T : Runtime} {cx : Ctx} {S : Sem} (hT : Faithful T cx S) {h : Heap} {q : Nat}
    {own : List Nat} {s : Update} (hq : Holds h q (.update s) own) {cs : List HCall} {ops : List UpdateOp}
    (hc : List.Forall₂ (UpdateSays (outside (· ∈ own) h)) cs ops) :
    ∃ own', Holds (callAll T cx q h cs) q (.update (runOps (updateStep cx S) s ops)) own' ∧
      Untouched h own (callAll T cx q h cs) own' ∧
      callRaises T cx q h cs = (opRaises (updateStep cx S) s ops).map returned :=
  history_sim .update (updateStep cx S) UpdateSays (fun _ _ hm _ _ => updateCall_mono hm)
    (fun _ _ _ _ _ hq hc => update_call hT hq hc) hq hc

/-- C57 for histories of calls on a `Delete`. -/
theorem C57_delete_history {T : Runtime} {cx : Ctx} {S : Sem} (hT : Faithful T cx S) {h : Heap} {q : Nat}
    {own : List Nat} {s : Delete} (hq : Holds h q (.delete s) own) {cs : List HCall} {ops : List DeleteOp}
    (hc : List.Forall₂ (DeleteSays (outside (· ∈ own) h)) cs ops) :
    ∃ own', Holds (callAll T cx q h cs) q (.delete (runOps (deleteStep cx S) s ops)) own' ∧
      Untouched h own (callAll T cx q h cs) own' ∧
      callRaises T cx q h cs = (opRaises (deleteStep cx S) s ops).map returned :=
  history_sim .delete (deleteStep cx S) DeleteSays (fun _ _ hm _ _ => deleteCall_mono hm)
    (fun _ _ _ _ _ hq hc => delete_call hT hq hc) hq hc

/-- C57. Two `Select`s with the same value, wherever and however they are laid out, that receive calls with
arguments of the same values, give the same text and the same exceptions. -/
theorem C57_select_layout {T T' : Runtime} {cx : Ctx} {S : Sem} (hT : Faithful T cx S) (hT' : Faithful T' cx S)
    {h h' : Heap} {q q' : Nat} {own own' : List Nat} {s : Select} (hq : Holds h q (.select s) own)
    (hq' : Holds h' q' (.select s) own') {cs cs' : List HCall} {ops : List SelectOp}
    (hc : List.Forall₂ (SelectSays (outside (· ∈ own) h)) cs ops)
    (hc' : List.Forall₂ (SelectSays (outside (· ∈ own') h')) cs' ops) :
    (T.str (.ref q) (callAll T cx q h cs)).2 = (T'.str (.ref q') (callAll T' cx q' h' cs')).2 ∧
      callRaises T cx q h cs = callRaises T' cx q' h' cs' := by
  obtain ⟨o1, h1, _, e1⟩ := C57_select_history hT hq hc
  obtain ⟨o2, h2, _, e2⟩ := C57_select_history hT' hq' hc'
  rw [e1, e2, hT.str _ _ _ (holds_is h1) rfl, hT'.str _ _ _ (holds_is h2) rfl]
  exact ⟨rfl, rfl⟩

/-- C57. The text of a query in memory is the text of its value. -/
theorem C57_text {T : Runtime} {cx : Ctx} {S : Sem} (hT : Faithful T cx S) {h : Heap} {q : Nat} {o : Obj}
    {own : List Nat} (hq : Holds h q o own) : T.str (.ref q) h = (h, S.str o) :=
  hT.str h _ o (holds_is hq) (holds_sql hq)

/-- C57. An object in memory has one value only. -/
theorem C57_value_unique {h : Heap} {v : Val} {x y : Obj} (hx : Is (cells h) v (.obj x))
    (hy : Is (cells h) v (.obj y)) : x = y := obj_det hx hy

/-- The premises of C57 about comparing, rendering and sorting can be met, for every meaning of these on
values. -/
theorem C57_faithful (cx : Ctx) (S : Sem) : ∃ T, Faithful T cx S := ⟨oracle cx S, oracle_faithful cx S⟩

/-! ### An instance -/

/-- `SELECT 'x' FROM "t" WHERE "a" = 1 LIMIT 5`. -/
private def sampleSelect : Select :=
  { columns := [⟨.sqlValue (.str L!"x"), .none⟩], tables := [⟨.str L!"t", .none, []⟩],
    where_ := [.cond false (.str L!"a") .eq (.int 1)], limit := { limit := some 5 } }

private def sampleOwn : List Nat :=
  [0, 1, 2, 12, 3, 13, 4, 14, 5, 6, 7, 15, 8, 9, 16, 10, 17, 20, 21, 11, 18]

/-- The memory of `Verif.Spec.Sample`, a tuple `t = ('b', 7)` and the list `[t, t]`. -/
private def sampleHeap : Heap := Sample.query ++
  [⟨.tuple, [.atom (.str L!"b"), .atom (.int 7)]⟩, ⟨.list, [.ref 27, .ref 27]⟩]

private theorem sample_holds : Holds sampleHeap 0 (.select sampleSelect) sampleOwn where
  nodup := by decide
  query := ⟨_, _, _, 1, [.ref 2, .ref 3, .ref 4, .ref 5, .ref 6, .ref 7, .ref 8, .ref 9, .ref 10, .ref 11], _,
    rfl, rfl, rfl,
    .cons (.columns rfl rfl (.cons (.column ⟨rfl, by decide⟩ (.sqlValue ⟨rfl, by decide⟩ (.atom (.str L!"x")))
      (.atom .none)) .nil))
    (.cons (.orders rfl rfl .nil) (.cons (.conds rfl rfl .nil)
    (.cons (.outfile rfl .none .none .none .none) (.cons (.limit rfl) (.cons (.orders rfl rfl .nil)
    (.cons (.flag rfl) (.cons (.options rfl rfl)
    (.cons (.tables rfl rfl (.cons (.mk rfl rfl (.atom (.str L!"t")) (.atom .none) .nil) .nil))
    (.cons (.conds rfl rfl (.cons (.cond (on := false) (k := .eq) ⟨rfl, by decide⟩ ⟨rfl, by decide⟩
      (.atom (.str L!"a")) (.atom (.int 1))) .nil)) .nil))))))))),
    rfl⟩

/-- `query.where([t, t])`. -/
example : Does 0 sampleHeap sampleOwn
    (hCall (oracle Sample.cx0 (sem Sample.cx0 9)) Sample.cx0 0 (.where_ { pos := [.ref 28] }) sampleHeap)
    (.select { sampleSelect with where_ :=
      [.cond false (.str L!"a") .eq (.int 1), .cond false (.str L!"b") .eq (.int 7)] }) none := by
  have ht : Is (outside (· ∈ sampleOwn) sampleHeap) (.ref 27) (.obj (.tuple [.str L!"b", .int 7])) :=
    .tuple ⟨rfl, by decide⟩ (.cons (.atom (.str L!"b")) (.cons (.atom (.int 7)) .nil))
  have := C57_select (oracle_faithful Sample.cx0 (sem Sample.cx0 9)) sample_holds (c := .where_ { pos := [.ref 28] })
    (op := .where_ { pos := [.list [.tuple [.str L!"b", .int 7], .tuple [.str L!"b", .int 7]]] })
    (.where_ ⟨.cons (.list ⟨rfl, by decide⟩ (.cons ht (.cons ht .nil))) .nil, rfl, .nil⟩)
  have e : selectStep Sample.cx0 (sem Sample.cx0 9) sampleSelect
      (.where_ { pos := [.list [.tuple [.str L!"b", .int 7], .tuple [.str L!"b", .int 7]]] }) =
      ({ sampleSelect with where_ :=
        [.cond false (.str L!"a") .eq (.int 1), .cond false (.str L!"b") .eq (.int 7)] }, none) := by
    rfl
  rw [e] at this
  exact this

/-- The same with the text of the query afterwards. -/
example : ((oracle Sample.cx0 (sem Sample.cx0 9)).str (.ref 0)
    (callAll (oracle Sample.cx0 (sem Sample.cx0 9)) Sample.cx0 0 sampleHeap
      [.where_ { pos := [.ref 28] }, .limit (.atom (.str L!"x")) (.atom .none), .offset (.atom (.int 3))])).2 =
    .ok L!"SELECT 'x' FROM \"t\" WHERE \"a\" = 1 AND \"b\" = 7 LIMIT 5 OFFSET 3" := by
  have ht : Is (outside (· ∈ sampleOwn) sampleHeap) (.ref 27) (.obj (.tuple [.str L!"b", .int 7])) :=
    .tuple ⟨rfl, by decide⟩ (.cons (.atom (.str L!"b")) (.cons (.atom (.int 7)) .nil))
  obtain ⟨own', h1, _, _⟩ := C57_select_history (oracle_faithful Sample.cx0 (sem Sample.cx0 9)) sample_holds
    (cs := [.where_ { pos := [.ref 28] }, .limit (.atom (.str L!"x")) (.atom .none), .offset (.atom (.int 3))])
    (ops := [.where_ { pos := [.list [.tuple [.str L!"b", .int 7], .tuple [.str L!"b", .int 7]]] },
      .limit (.str L!"x") .none, .offset (.int 3)])
    (.cons (.where_ ⟨.cons (.list ⟨rfl, by decide⟩ (.cons ht (.cons ht .nil))) .nil, rfl, .nil⟩)
      (.cons (.limit (.atom (.str L!"x")) (.atom .none)) (.cons (.offset (.atom (.int 3))) .nil)))
  rw [C57_text (oracle_faithful Sample.cx0 (sem Sample.cx0 9)) h1]
  decide +kernel

/-- A new `Insert`, `Update` and `Delete`, as their constructors make them, and a tuple `('n', 7)`. -/
private def newHeap : Heap :=
  let s x : Val := .atom (.str x)
  let empty : Cell := ⟨.lib .listOfParts, [s L!", "]⟩
  [/- 0 -/ ⟨.lib .insert, [.ref 1, .ref 2, .ref 4, .ref 5, .ref 7, .ref 9, .ref 11]⟩,
   /- 1 -/ ⟨.dict, [s L!"insert_options", .ref 2, s L!"keyword", .ref 4, s L!"on_conflict_do_update", .ref 5,
      s L!"on_duplicate_key_update", .ref 7, s L!"tables", .ref 9, s L!"values", .ref 11]⟩,
   /- 2 -/ ⟨.lib .options, [.ref 3]⟩, /- 3 -/ ⟨.dict, [s L!"ignore", s L!"off"]⟩,
   /- 4 -/ ⟨.lib .insertKeyword, [.atom (.bool false)]⟩,
   /- 5 -/ ⟨.lib .onConflict, [.ref 6, s []]⟩, /- 6 -/ empty,
   /- 7 -/ ⟨.lib .onDuplicate, [.ref 8]⟩, /- 8 -/ empty,
   /- 9 -/ ⟨.lib .tables, [.ref 10]⟩, /- 10 -/ empty,
   /- 11 -/ ⟨.lib .multipleValues, [.ref 12]⟩, /- 12 -/ empty,
   /- 13 -/ ⟨.lib .update, [.ref 14, .ref 15, .ref 17, .ref 19, .ref 21, .atom (.bool false)]⟩,
   /- 14 -/ ⟨.dict, [s L!"tables", .ref 15, s L!"update_options", .ref 17, s L!"values", .ref 19, s L!"where", .ref 21]⟩,
   /- 15 -/ ⟨.lib .tables, [.ref 16]⟩, /- 16 -/ empty,
   /- 17 -/ ⟨.lib .options, [.ref 18]⟩, /- 18 -/ ⟨.dict, [s L!"ignore", s L!"off"]⟩,
   /- 19 -/ ⟨.lib .values, [.ref 20]⟩, /- 20 -/ empty,
   /- 21 -/ ⟨.lib .where_, [.ref 22]⟩, /- 22 -/ ⟨.lib .listOfParts, [s L!" AND "]⟩,
   /- 23 -/ ⟨.lib .delete, [.ref 24, .ref 25, .ref 27, .ref 29, .ref 31, .atom (.bool false)]⟩,
   /- 24 -/ ⟨.dict, [s L!"delete_options", .ref 25, s L!"references", .ref 27, s L!"tables", .ref 29, s L!"where", .ref 31]⟩,
   /- 25 -/ ⟨.lib .options, [.ref 26]⟩, /- 26 -/ ⟨.dict, [s L!"ignore", s L!"off"]⟩,
   /- 27 -/ ⟨.lib .tables, [.ref 28]⟩, /- 28 -/ empty,
   /- 29 -/ ⟨.lib .tables, [.ref 30]⟩, /- 30 -/ empty,
   /- 31 -/ ⟨.lib .where_, [.ref 32]⟩, /- 32 -/ ⟨.lib .listOfParts, [s L!" AND "]⟩,
   /- 33 -/ ⟨.dict, [s L!"n", .atom (.int 7)]⟩]

private theorem newInsert : Holds newHeap 0 (.insert {}) [0, 1, 2, 3, 4, 5, 6, 7, 8, 9, 10, 11, 12] where
  nodup := by decide
  query := ⟨_, _, _, 1, [.ref 2, .ref 4, .ref 5, .ref 7, .ref 9, .ref 11], _, rfl, rfl, rfl,
    .cons (.options rfl rfl) (.cons (.flag rfl) (.cons (.conflict rfl rfl .nil .noConflict) (.cons (.values rfl rfl .nil)
    (.cons (.tables rfl rfl .nil) (.cons (.rows rfl rfl .nil) .nil))))), rfl⟩

private theorem newUpdate : Holds newHeap 13 (.update {}) [13, 14, 15, 16, 17, 18, 19, 20, 21, 22] where
  nodup := by decide
  query := ⟨_, _, _, 14, [.ref 15, .ref 17, .ref 19, .ref 21], _, rfl, rfl, rfl,
    .cons (.tables rfl rfl .nil) (.cons (.options rfl rfl) (.cons (.values rfl rfl .nil)
    (.cons (.conds rfl rfl .nil) .nil))), rfl⟩

private theorem newDelete : Holds newHeap 23 (.delete {}) [23, 24, 25, 26, 27, 28, 29, 30, 31, 32] where
  nodup := by decide
  query := ⟨_, _, _, 24, [.ref 25, .ref 27, .ref 29, .ref 31], _, rfl, rfl, rfl,
    .cons (.options rfl rfl) (.cons (.tables rfl rfl .nil) (.cons (.tables rfl rfl .nil)
    (.cons (.conds rfl rfl .nil) .nil))), rfl⟩

private def pg : Ctx := { Sample.cx0 with backend := .postgresql }

/-- `insert_into('t').values({'n': 7}).on_duplicate_key_update('n', {'n': 7})` on PostgreSQL, with one
dictionary for both. -/
example : ((oracle pg (sem pg 9)).str (.ref 0) (callAll (oracle pg (sem pg 9)) pg 0 newHeap
      [.into (.atom (.str L!"t")), .values { pos := [.ref 33] },
       .onDuplicateKeyUpdate { pos := [.atom (.str L!"n"), .ref 33] }])).2 =
    .ok L!"INSERT INTO \"t\" (\"n\") VALUES (7) ON CONFLICT (\"n\") DO UPDATE \"n\" = 7" := by
  have hd : Is (outside (· ∈ [0, 1, 2, 3, 4, 5, 6, 7, 8, 9, 10, 11, 12]) newHeap) (.ref 33)
      (.obj (.dict [(.str L!"n", .int 7)])) :=
    .dict ⟨rfl, by decide⟩ (.cons (.atom (.str L!"n")) (.cons (.atom (.int 7)) .nil))
  obtain ⟨own', h1, _, _⟩ := C57_insert_history (oracle_faithful pg (sem pg 9)) newInsert
    (cs := [.into (.atom (.str L!"t")), .values { pos := [.ref 33] },
       .onDuplicateKeyUpdate { pos := [.atom (.str L!"n"), .ref 33] }])
    (ops := [.into (.str L!"t"), .values { pos := [.dict [(.str L!"n", .int 7)]] },
       .onDuplicateKeyUpdate { pos := [.str L!"n", .dict [(.str L!"n", .int 7)]] }])
    (.cons (.into (.atom (.str L!"t"))) (.cons (.values ⟨.cons hd .nil, rfl, .nil⟩)
      (.cons (.onDuplicate ⟨.cons (.atom (.str L!"n")) (.cons hd .nil), rfl, .nil⟩) .nil)))
  rw [C57_text (oracle_faithful pg (sem pg 9)) h1]
  decide +kernel

example : ((oracle Sample.cx0 (sem Sample.cx0 9)).str (.ref 13)
      (callAll (oracle Sample.cx0 (sem Sample.cx0 9)) Sample.cx0 13 newHeap
        [.table (.atom (.str L!"t")), .set { pos := [.ref 33] }, .allowAll true])).2 =
    .ok L!"UPDATE \"t\" SET \"n\" = 7" := by
  have hd : Is (outside (· ∈ [13, 14, 15, 16, 17, 18, 19, 20, 21, 22]) newHeap) (.ref 33)
      (.obj (.dict [(.str L!"n", .int 7)])) :=
    .dict ⟨rfl, by decide⟩ (.cons (.atom (.str L!"n")) (.cons (.atom (.int 7)) .nil))
  obtain ⟨own', h1, _, _⟩ := C57_update_history (oracle_faithful Sample.cx0 (sem Sample.cx0 9)) newUpdate
    (cs := [.table (.atom (.str L!"t")), .set { pos := [.ref 33] }, .allowAll true])
    (ops := [.table (.str L!"t"), .set { pos := [.dict [(.str L!"n", .int 7)]] }, .allowUpdateAll])
    (.cons (.table (.atom (.str L!"t"))) (.cons (.set ⟨.cons hd .nil, rfl, .nil⟩) (.cons .allow .nil)))
  rw [C57_text (oracle_faithful Sample.cx0 (sem Sample.cx0 9)) h1]
  decide +kernel

example : ((oracle Sample.cx0 (sem Sample.cx0 9)).str (.ref 23)
      (callAll (oracle Sample.cx0 (sem Sample.cx0 9)) Sample.cx0 23 newHeap
        [.from_ { pos := [.atom (.str L!"t")] }, .join .left (.atom (.str L!"u")), .where_ { pos := [.ref 33] }])).2 =
    .ok L!"DELETE FROM \"t\" LEFT JOIN \"u\" WHERE \"n\" = 7" := by
  have hd : Is (outside (· ∈ [23, 24, 25, 26, 27, 28, 29, 30, 31, 32]) newHeap) (.ref 33)
      (.obj (.dict [(.str L!"n", .int 7)])) :=
    .dict ⟨rfl, by decide⟩ (.cons (.atom (.str L!"n")) (.cons (.atom (.int 7)) .nil))
  obtain ⟨own', h1, _, _⟩ := C57_delete_history (oracle_faithful Sample.cx0 (sem Sample.cx0 9)) newDelete
    (cs := [.from_ { pos := [.atom (.str L!"t")] }, .join .left (.atom (.str L!"u")), .where_ { pos := [.ref 33] }])
    (ops := [.from_ { pos := [.str L!"t"] }, .leftJoin (.str L!"u"), .where_ { pos := [.dict [(.str L!"n", .int 7)]] }])
    (.cons (.from_ ⟨.cons (.atom (.str L!"t")) .nil, rfl, .nil⟩) (.cons (.leftJoin (.atom (.str L!"u")) (by intro _ _ h; cases h))
      (.cons (.where_ ⟨.cons hd .nil, rfl, .nil⟩) .nil)))
  rw [C57_text (oracle_faithful Sample.cx0 (sem Sample.cx0 9)) h1]
  decide +kernel

end SqlPuzzle
