import Verif.Spec.MemCalls
import Verif.Proofs.RefineAttrs

/-! A call on a query in memory does what the operation on values does. -/

namespace SqlPuzzle.Refine
open SqlPuzzle SqlPuzzle.Spec

theorem setPair_option (o : SelectOptions) (k : SelOpt) (b : Bool) :
    setPair (optionSlot k) (if b then optionOn k else L!"off") (optionPairs o) = optionPairs (o.set k b) := by
  cases k <;> cases b <;> rfl

theorem Done.does {q h own x o' e} (d : Done q h own x o' e) : Does q h own x o' e := by
  obtain ⟨h', own', rfl, hh, ho⟩ := d
  refine ⟨own', hh, ⟨ho.same, fun p hp => (ho.fresh p hp).imp_right fun h1 => ?_⟩, ?_⟩
  · simpa using h1
  · cases e <;> rfl

theorem args_mono {m m' : Mem} (hm : Sub m m') {a b} (s : ArgsAre m a b) : ArgsAre m' a b :=
  ⟨are_mono hm s.pos, s.names, are_mono hm s.vals⟩

theorem selectCall_mono {m m' : Mem} (hm : Sub m m') {c o} (s : SelectSays m c o) : SelectSays m' c o := by
  cases s with
  | columns s => exact .columns (args_mono hm s)
  | from_ s => exact .from_ (args_mono hm s)
  | fromTable s t => exact .fromTable (is_mono hm s) (is_mono hm t)
  | join ty s hx => exact .join ty (is_mono hm s) hx
  | on s => exact .on (args_mono hm s)
  | where_ s => exact .where_ (args_mono hm s)
  | having s => exact .having (args_mono hm s)
  | groupBy s => exact .groupBy (args_mono hm s)
  | orderBy s => exact .orderBy (args_mono hm s)
  | limit s t => exact .limit (is_mono hm s) (is_mono hm t)
  | offset s => exact .offset (is_mono hm s)
  | outfile f s => exact .outfile f (is_mono hm s)
  | option k x => exact .option k x
  | forUpdate s => exact .forUpdate (is_mono hm s)

theorem insertCall_mono {m m' : Mem} (hm : Sub m m') {c o} (s : InsertSays m c o) : InsertSays m' c o := by
  cases s with
  | into s => exact .into (is_mono hm s)
  | values s => exact .values (args_mono hm s)
  | onDuplicate s => exact .onDuplicate (args_mono hm s)
  | ignore s => exact .ignore (is_mono hm s)

theorem updateCall_mono {m m' : Mem} (hm : Sub m m') {c o} (s : UpdateSays m c o) : UpdateSays m' c o := by
  cases s with
  | allow => exact .allow
  | forbid => exact .forbid
  | table s => exact .table (is_mono hm s)
  | set s => exact .set (args_mono hm s)
  | where_ s => exact .where_ (args_mono hm s)
  | join s hx => exact .join (is_mono hm s) hx
  | leftJoin s hx => exact .leftJoin (is_mono hm s) hx
  | rightJoin s hx => exact .rightJoin (is_mono hm s) hx
  | on s => exact .on (args_mono hm s)
  | ignore s => exact .ignore (is_mono hm s)

theorem deleteCall_mono {m m' : Mem} (hm : Sub m m') {c o} (s : DeleteSays m c o) : DeleteSays m' c o := by
  cases s with
  | allow => exact .allow
  | forbid => exact .forbid
  | delete s => exact .delete (are_mono hm s)
  | from_ s => exact .from_ (args_mono hm s)
  | fromTable s t => exact .fromTable (is_mono hm s) (is_mono hm t)
  | join s hx => exact .join (is_mono hm s) hx
  | leftJoin s hx => exact .leftJoin (is_mono hm s) hx
  | rightJoin s hx => exact .rightJoin (is_mono hm s) hx
  | on s => exact .on (args_mono hm s)
  | where_ s => exact .where_ (args_mono hm s)
  | ignore s => exact .ignore (is_mono hm s)

theorem one_arg {m : Mem} {v : Val} {x : Obj} (s : Is m v (.obj x)) :
    ArgsAre m { pos := [v] } { pos := [x] } := ⟨.cons s .nil, rfl, .nil⟩

theorem pos_args {m : Mem} {vs : List Val} {xs : List Obj} (s : Are m vs (xs.map .obj)) :
    ArgsAre m { pos := vs } { pos := xs } := ⟨s, rfl, .nil⟩

section
variable {T : Runtime} {cx : Ctx} {S : Sem} (hT : Faithful T cx S) {h : Heap} {q : Nat} {own : List Nat}
include hT

theorem select_call {s : Select} (H : Holds h q (.select s) own) {c : HCall} {o : SelectOp}
    (hc : SelectSays (outside (· ∈ own) h) c o) :
    Done q h own (hCall T cx q c h) (.select (selectStep cx S s o).1) (selectStep cx S s o).2 := by
  have hl := holds_lib H rfl
  have hm := outside_cells own h
  unfold hCall
  rw [hl]
  cases hc with
  | columns a => exact part_done H rfl (s := .columns) rfl rfl rfl fun p f r => columns_post hT r a
  | from_ a => exact part_done H rfl (s := .tables) rfl rfl rfl fun p f r => tables_post hT rfl r a
  | fromTable a b => exact part_done H rfl (s := .tables) rfl rfl rfl fun p f r => fromTable_post hT rfl r a b
  | join ty a hx => exact part_done H rfl (s := .tables) rfl rfl rfl fun p f r => join_post hT rfl r ty a hx
  | on a => exact part_done H rfl (s := .tables) rfl rfl rfl fun p f r => on_post hT rfl r a
  | where_ a => exact part_done H rfl (s := .where_) rfl rfl rfl fun p f r => conds_post hT rfl r a
  | having a => exact part_done H rfl (s := .having) rfl rfl rfl fun p f r => conds_post hT rfl r a
  | groupBy a => exact part_done H rfl (s := .groupBy) rfl rfl rfl fun p f r => orders_post hT rfl r a
  | orderBy a => exact part_done H rfl (s := .orderBy) rfl rfl rfl fun p f r => orders_post hT rfl r a
  | limit a b => exact part_done H rfl (s := .limit) rfl rfl rfl fun p f r => limit_post r a b
  | offset a => exact part_done H rfl (s := .limit) rfl rfl rfl fun p f r => offset_post r a
  | outfile fl a => exact part_done H rfl (s := .outfile) rfl rfl rfl fun p f r => outfile_post r fl a
  | option k x =>
    refine part_done H rfl (s := .options) rfl rfl (x' := .options (optionPairs (s.opts.set k x.truthy))) rfl
      fun p f r => ?_
    rw [← setPair_option]
    exact option_post r _ _
  | @forUpdate v x a =>
    have hb : (shallow h v).truthy = x.truthy := (like_shallow hm a).truthy
    dsimp only
    rw [hb]
    exact part_done H rfl (s := .forUpdate) rfl rfl rfl fun p f r => flag_post r _

omit hT in
theorem run_done {x : HM Unit} {f : Unit → HM Unit} {o' : Obj} {e : Option Err} {o'' : Obj} {e' : Option Err}
    (d : Done q h own (x h) o' e)
    (d1 : ∀ er, e = some er → o'' = o' ∧ e' = some er)
    (d2 : e = none → ∀ h' own', Holds h' q o' own' → Outcome h own h' own' → Done q h' own' (f () h') o'' e') :
    Done q h own ((x >>= f) h) o'' e' := by
  obtain ⟨h', own', hx, hh, ho⟩ := d
  cases e with
  | some er =>
    obtain ⟨rfl, rfl⟩ := d1 er rfl
    rw [run_error (er := er) hx]
    exact ⟨h', own', rfl, hh, ho⟩
  | none =>
    rw [run_ok (a := ()) hx]
    obtain ⟨h2, own2, hx2, hh2, ho2⟩ := d2 rfl h' own' hh ho
    exact ⟨h2, own2, hx2, hh2, ho.trans ho2⟩

theorem conflict_done {s : Insert} (H : Holds h q (.insert s) own) {a : HArgs} {b : Args}
    (ha : ArgsAre (outside (· ∈ own) h) a b) :
    Done q h own (onPart q .conflict (fun p => onList q .conflict fun l => hOnConflict T p l a) h)
      (.insert (onConflictSet cx S s b).1) (onConflictSet cx S s b).2 := by
  obtain ⟨p, f, h1, h2, h3, h4, h5⟩ := slot_sim H (s := .conflict) rfl rfl rfl
  have hp : ∃ l h', listAt h p = .ok l ∧ hOnConflict T p l a h = (h', res (onConflictSet cx S s b).2) ∧ _ :=
    conflict_post hT ⟨h2, h3, outside_cells _ _, fun a c ha hf => ha.2 (h4 a hf)⟩ ha
  obtain ⟨l, h', e1, e2, h6⟩ := hp
  have hq : queryParts (.insert (onConflictSet cx S s b).1) =
      some (.insert, (insertPartsOf s).set 2 (L!"on_conflict_do_update", .conflict (onConflictSet cx S s b).1.conflict
        (onConflictSet cx S s b).1.onConflict), []) := by
    unfold onConflictSet
    split
    · rfl
    · split <;> rfl
  obtain ⟨own', h7, h8⟩ := h5 h' _ _ h6 hq
  refine ⟨h', own', ?_, h7, h8⟩
  simp only [onList, onPart, h1, e1, e2]

omit hT in
theorem onDuplicate_eq (a : HArgs) : hOnDuplicate T cx q a =
    if hKwSelf a then HM.raise .typeError
    else (if cx.backend.supportsOnDuplicateKeyUpdate then onList q .onDup fun l => hValues T l a else HM.ret ()) >>=
      fun _ => (if cx.backend.supportsOnConflictDoUpdate then
        onPart q .conflict fun p => onList q .conflict fun l => hOnConflict T p l a else HM.ret ()) >>=
      fun _ => if cx.backend.supportsReplaceInto then
        if !a.pos.isEmpty || !a.kw.isEmpty then HM.raise .exception
        else onPart q .keyword fun p => hSetAttr p 0 (.atom (.bool true))
      else HM.ret () := by
  unfold hOnDuplicate
  cases cx.backend.supportsOnDuplicateKeyUpdate <;> cases cx.backend.supportsOnConflictDoUpdate <;> rfl

theorem onDuplicate_done {s : Insert} (H : Holds h q (.insert s) own) {a : HArgs} {b : Args}
    (ha : ArgsAre (outside (· ∈ own) h) a b) :
    Done q h own (hOnDuplicate T cx q a h)
      (.insert (onDuplicateKeyUpdate cx S s b).1) (onDuplicateKeyUpdate cx S s b).2 := by
  rw [onDuplicate_eq]
  unfold onDuplicateKeyUpdate
  rw [kwSelf_sim ha]
  split
  · exact Done.same (e := some .typeError) H
  dsimp only
  have d1 : Done q h own ((if cx.backend.supportsOnDuplicateKeyUpdate then onList q .onDup fun l => hValues T l a
      else HM.ret ()) h) (.insert (if cx.backend.supportsOnDuplicateKeyUpdate = true then
        (valuesSet cx S s.onDup b).map fun r => { s with onDup := r } else (s, none)).1)
      (if cx.backend.supportsOnDuplicateKeyUpdate = true then
        (valuesSet cx S s.onDup b).map fun r => { s with onDup := r } else (s, none)).2 := by
    cases cx.backend.supportsOnDuplicateKeyUpdate with
    | true => exact part_done H rfl (s := .onDup) rfl rfl rfl fun p f r => values_post hT rfl r ha
    | false => exact Done.same (e := none) H
  generalize (if cx.backend.supportsOnDuplicateKeyUpdate = true then
        (valuesSet cx S s.onDup b).map fun r => { s with onDup := r } else (s, none)) = u1 at d1
  obtain ⟨s1, e1⟩ := u1
  refine run_done d1 ?_ ?_
  · rintro er he
    dsimp only at he
    subst he
    exact ⟨rfl, rfl⟩
  intro he h1 own1 H1 o1
  dsimp only at he H1
  subst he
  dsimp only
  have ha1 := args_mono o1.sub ha
  have d2 : Done q h1 own1 ((if cx.backend.supportsOnConflictDoUpdate then
      onPart q .conflict fun p => onList q .conflict fun l => hOnConflict T p l a
      else HM.ret ()) h1) (.insert (if cx.backend.supportsOnConflictDoUpdate = true then
        onConflictSet cx S s1 b else (s1, none)).1)
      (if cx.backend.supportsOnConflictDoUpdate = true then onConflictSet cx S s1 b else (s1, none)).2 := by
    cases cx.backend.supportsOnConflictDoUpdate with
    | true => exact conflict_done hT H1 ha1
    | false => exact Done.same (e := none) H1
  generalize (if cx.backend.supportsOnConflictDoUpdate = true then onConflictSet cx S s1 b else (s1, none)) = u2 at d2
  obtain ⟨s2, e2⟩ := u2
  refine run_done d2 ?_ ?_
  · rintro er he
    dsimp only at he
    subst he
    exact ⟨rfl, rfl⟩
  intro he h2 own2 H2 o2
  dsimp only at he H2
  subst he
  dsimp only
  cases cx.backend.supportsReplaceInto with
  | false => exact Done.same (e := none) H2
  | true =>
    simp only [if_true]
    rw [pos_empty ha, kw_empty ha]
    split
    · exact Done.same (e := some .exception) H2
    · exact part_done H2 rfl (s := .keyword) rfl rfl rfl fun p f r => flag_post r _

omit hT in
theorem ignore_done {o o' : Obj} (H : Holds h q o own) {k ps more} (ho : queryParts o = some (k, ps, more)) {i n b0}
    (hs : slotOf k .options = some (i + 1)) (hx : ps[i]? = some (n, .options [(L!"ignore", onOffStr b0)]))
    {v : Val} {x : Obj} (a : Is (outside (· ∈ own) h) v (.obj x))
    (ho' : queryParts o' = some (k, ps.set i (n, .options [(L!"ignore", onOffStr x.truthy)]), more)) :
    Done q h own (onPart q .options
        (fun p => hOption p L!"ignore" (if (shallow h v).truthy then L!"on" else L!"off")) h) o' none := by
  have hb : (shallow h v).truthy = x.truthy := (like_shallow (outside_cells own h) a).truthy
  rw [hb]
  refine part_done H ho hs hx ho' fun p f r => ?_
  exact option_post r _ _

theorem insert_call {s : Insert} (H : Holds h q (.insert s) own) {c : HCall} {o : InsertOp}
    (hc : InsertSays (outside (· ∈ own) h) c o) :
    Done q h own (hCall T cx q c h) (.insert (insertStep cx S s o).1) (insertStep cx S s o).2 := by
  have hl := holds_lib H rfl
  unfold hCall
  rw [hl]
  cases hc with
  | into a => exact part_done H rfl (s := .tables) rfl rfl rfl fun p f r => tables_post hT rfl r (one_arg a)
  | values a =>
    dsimp only [insertStep]
    rw [kwSelf_sim a]
    split
    · exact Done.same (e := some .typeError) H
    · exact part_done H rfl (s := .values) rfl rfl rfl fun p f r => rows_post hT r a
  | onDuplicate a => exact onDuplicate_done hT H a
  | ignore a => exact ignore_done H rfl rfl rfl a rfl

omit hT in
theorem allow_done {o o' : Obj} (H : Holds h q o own) {k ps} {b b' : Bool}
    (ho : queryParts o = some (k, ps, [.atom (.bool b)])) (hl : ps.length = 4)
    (ho' : queryParts o' = some (k, ps, [.atom (.bool b')])) :
    Done q h own (hSetAttr q 5 (.atom (.bool b')) h) o' none := by
  obtain ⟨k', ps', more', d, refs, fs, ho2, hq, hd, he, hown⟩ := H.query
  rw [ho] at ho2
  cases ho2
  have hn := H.nodup
  have hq' : q ∉ d :: fs := by rw [hown] at hn; exact (List.nodup_cons.mp hn).1
  have hrl : refs.length = 4 := by
    have : ∀ {xs : List Val} {as : List Part} {gs}, Each (OwnPart h (outside (· ∈ own) h)) xs as gs →
        xs.length = as.length := by
      intro xs as gs e
      induction e with
      | nil => rfl
      | cons _ _ ih => simp [ih]
    rw [this he, List.length_map, hl]
  have hset : (Val.ref d :: (refs ++ [.atom (.bool b)])).set 5 (.atom (.bool b')) =
      .ref d :: (refs ++ [.atom (.bool b')]) := by
    match refs, hrl with
    | [_, _, _, _], _ => rfl
  refine ⟨_, own, setAttr_run hq _, ⟨hn, k, ps, _, d, refs, fs, ho', ?_, ?_, ?_, hown⟩,
    by simp, fun p c hp hne => ?_, fun p hp => .inl hp⟩
  · rw [hset]; exact get_set_self hq
  · have hne : q ≠ d := by rintro rfl; simp at hq'
    rw [List.getElem?_set_ne hne]; exact hd
  · refine each_imp he fun v a g hg hin => part_frame ?_ hg fun p hp c hc => ?_
    · rintro p c ⟨h1, h2⟩
      refine ⟨?_, h2⟩
      have hne : q ≠ p := by rintro rfl; exact h2 (by rw [hown]; simp)
      rw [List.getElem?_set_ne hne]; exact h1
    · have hne : q ≠ p := by rintro rfl; exact hq' (by simp [hin _ hp])
      rw [List.getElem?_set_ne hne]; exact hc
  · have hne' : q ≠ p := by rintro rfl; exact hne (by rw [hown]; simp)
    rw [List.getElem?_set_ne hne']; exact hp

theorem update_call {s : Update} (H : Holds h q (.update s) own) {c : HCall} {o : UpdateOp}
    (hc : UpdateSays (outside (· ∈ own) h) c o) :
    Done q h own (hCall T cx q c h) (.update (updateStep cx S s o).1) (updateStep cx S s o).2 := by
  have hl := holds_lib H rfl
  unfold hCall
  rw [hl]
  cases hc with
  | allow => exact allow_done H rfl rfl rfl
  | forbid => exact allow_done H rfl rfl rfl
  | table a => exact part_done H rfl (s := .tables) rfl rfl rfl fun p f r => tables_post hT rfl r (one_arg a)
  | set a => exact part_done H rfl (s := .values) rfl rfl rfl fun p f r => values_post hT rfl r a
  | where_ a => exact part_done H rfl (s := .where_) rfl rfl rfl fun p f r => conds_post hT rfl r a
  | join a hx => exact part_done H rfl (s := .tables) rfl rfl rfl fun p f r => join_post hT rfl r _ a hx
  | leftJoin a hx => exact part_done H rfl (s := .tables) rfl rfl rfl fun p f r => join_post hT rfl r _ a hx
  | rightJoin a hx => exact part_done H rfl (s := .tables) rfl rfl rfl fun p f r => join_post hT rfl r _ a hx
  | on a => exact part_done H rfl (s := .tables) rfl rfl rfl fun p f r => on_post hT rfl r a
  | ignore a => exact ignore_done H rfl rfl rfl a rfl

theorem delete_call {s : Delete} (H : Holds h q (.delete s) own) {c : HCall} {o : DeleteOp}
    (hc : DeleteSays (outside (· ∈ own) h) c o) :
    Done q h own (hCall T cx q c h) (.delete (deleteStep cx S s o).1) (deleteStep cx S s o).2 := by
  have hl := holds_lib H rfl
  unfold hCall
  rw [hl]
  cases hc with
  | allow => exact allow_done H rfl rfl rfl
  | forbid => exact allow_done H rfl rfl rfl
  | delete a => exact part_done H rfl (s := .tables) rfl rfl rfl fun p f r => tables_post hT rfl r (pos_args a)
  | from_ a => exact part_done H rfl (s := .references) rfl rfl rfl fun p f r => tables_post hT rfl r a
  | fromTable a b => exact part_done H rfl (s := .references) rfl rfl rfl fun p f r => fromTable_post hT rfl r a b
  | join a hx => exact part_done H rfl (s := .references) rfl rfl rfl fun p f r => join_post hT rfl r _ a hx
  | leftJoin a hx => exact part_done H rfl (s := .references) rfl rfl rfl fun p f r => join_post hT rfl r _ a hx
  | rightJoin a hx => exact part_done H rfl (s := .references) rfl rfl rfl fun p f r => join_post hT rfl r _ a hx
  | on a => exact part_done H rfl (s := .references) rfl rfl rfl fun p f r => on_post hT rfl r a
  | where_ a => exact part_done H rfl (s := .where_) rfl rfl rfl fun p f r => conds_post hT rfl r a
  | ignore a => exact ignore_done H rfl rfl rfl a rfl

end

/-! ### Histories -/

theorem history_sim {σ ω : Type} {T : Runtime} {cx : Ctx} (wrap : σ → Obj) (step : σ → ω → Upd σ)
    (Call : Mem → HCall → ω → Prop) (mono : ∀ m m', Sub m m' → ∀ c o, Call m c o → Call m' c o)
    {q : Nat}
    (one : ∀ h own s c o, Holds h q (wrap s) own → Call (outside (· ∈ own) h) c o →
      Done q h own (hCall T cx q c h) (wrap (step s o).1) (step s o).2)
    {cs : List HCall} {os : List ω} :
    ∀ {h own s}, Holds h q (wrap s) own → List.Forall₂ (Call (outside (· ∈ own) h)) cs os →
      ∃ own', Holds (callAll T cx q h cs) q (wrap (runOps step s os)) own' ∧
        Untouched h own (callAll T cx q h cs) own' ∧
        callRaises T cx q h cs = (opRaises step s os).map returned := by
  suffices H : ∀ {h own s}, Holds h q (wrap s) own → List.Forall₂ (Call (outside (· ∈ own) h)) cs os →
      ∃ own', Holds (callAll T cx q h cs) q (wrap (runOps step s os)) own' ∧
        Outcome h own (callAll T cx q h cs) own' ∧
        callRaises T cx q h cs = (opRaises step s os).map returned by
    intro h own s hh hc
    obtain ⟨own', h1, h2, h3⟩ := H hh hc
    exact ⟨own', h1, ⟨h2.same, fun p hp => (h2.fresh p hp).imp_right fun h4 => by simpa using h4⟩, h3⟩
  induction cs generalizing os with
  | nil =>
    intro h own s hh hc
    cases hc
    exact ⟨own, hh, .rfl, rfl⟩
  | cons c cs ih =>
    intro h own s hh hc
    cases hc with
    | @cons _ o _ os h1 h2 =>
      obtain ⟨h', own', e, hh', ho⟩ := one h own s c o hh h1
      obtain ⟨own'', g1, g2, g3⟩ := ih hh' (h2.imp fun a b => mono _ _ ho.sub a b)
      refine ⟨own'', ?_, ?_, ?_⟩
      · show Holds (callAll T cx q (hCall T cx q c h).1 cs) _ _ _
        rw [e]; exact g1
      · show Outcome h own (callAll T cx q (hCall T cx q c h).1 cs) _
        rw [e]; exact ho.trans g2
      · unfold callRaises opRaises
        rw [e]
        simp only [List.map_cons, g3]
        cases (step s o).2 <;> rfl

end SqlPuzzle.Refine
