import Verif.Proofs.Changes
import Verif.Props.Effects
import Verif.Props.Sources

/-!
C73: what an UPDATE or a DELETE of several tables changes.
-/

namespace SqlPuzzle

open Spec

private def cx0 : Ctx := ⟨.sql, ⟨id, id, fun _ => true, fun _ => [], fun _ => []⟩⟩

section
variable {cx : Ctx} {d : Dialect} {V : Type} {sv : Server V} {src : Sources V} {column : Str → List Tok}
  {holds : Tuple V → Obj → Tri} {value : Obj → V}

private theorem all_true (vs : List Tri) : Tri.all vs = .t ↔ ∀ v ∈ vs, v = .t := by
  induction vs with
  | nil => exact ⟨fun _ => by simp, fun _ => rfl⟩
  | cons v vs ih =>
    have e : Tri.all (v :: vs) = v.and (Tri.all vs) := rfl
    rw [e, List.forall_mem_cons, ← ih]
    cases v <;> cases Tri.all vs <;> decide

private theorem empties {ps : List (Obj × Obj)} {cs : List Cond} (hu : FirstUses (ps.map fun p => condOf p.1 p.2) cs) :
    ps = [] ↔ cs = [] := by
  constructor
  · rintro rfl
    cases cs with
    | nil => rfl
    | cons c cs => cases (hu.mem_iff c).mp (by simp)
  · rintro rfl
    cases ps with
    | nil => rfl
    | cons p ps => cases (hu.mem_iff (condOf p.1 p.2)).mpr (by simp)

private theorem chosen {ws : List Str} {ts : List Tok} {ps : List (Obj × Obj)}
    (h1 : ps = [] ↔ clauseBody ws L!"WHERE" ts = [])
    (h2 : ∀ row, ps ≠ [] → truth (sv.predicate row) (clauseBody ws L!"WHERE" ts) =
      Tri.all (ps.map fun p => holds row (.conds [condOf p.1 p.2]))) :
    chooses sv ws ts = fun row => decide (∀ p ∈ ps, holds row (.conds [condOf p.1 p.2]) = .t) := by
  funext row
  unfold chooses
  dsimp only
  by_cases hps : ps = []
  · rw [decide_eq_true (h1.mp hps), hps]
    simp
  · rw [h2 row hps, decide_eq_false (fun hb => hps (h1.mpr hb)), Bool.false_or]
    exact decide_eq_decide.mpr ((all_true _).trans List.forall_mem_map)

/-- The assignments and the conditions that a server reads in an UPDATE. -/
private theorem update_parts (hf : Fits cx d) (hc : NamesSeen cx d column) (hv : ValuesSeen cx d sv value) {q : Update}
    {n : Nat} {t : Str} {kept : List (Obj × Obj)} (hk : q.values = kept.map fun p => (.value p.1 p.2 : Value))
    (hp : ∀ p ∈ kept, ExactAssignment p) (h : NoRaw cx.backend.quote .stmt (.update q))
    (e : (sem cx n).str (.update q) = .ok t) :
    assignmentsOf sv (lex d t) = kept.map (assignmentSeen column value) ∧
    (q.where_ = [] ↔ clauseBody updateClauses L!"WHERE" (lex d t) = []) := by
  obtain ⟨m, hs, he, r⟩ := stmt_level hf h e
  have hs : safeUpdate cx.backend.quote (Safe cx.backend.quote m) q := hs
  have hr : toks cx d (m + 1) (.update q) = updateToks cx (sem cx m) d (toks cx d m) q := rfl
  rw [r, hr]
  have ih := phrases_sem cx d m
  refine ⟨?_, nowhere_update ih hs, fun he => ?_⟩
  · unfold assignmentsOf
    rw [set_update ih hs]
    cases hkept : kept with
    | nil => rw [hk, hkept]; rfl
    | cons p ps =>
      have hne : q.values ≠ [] := by rw [hk, hkept]; simp
      rw [pieces_assigns ih hne hs.2.1, hk, List.map_map, ← hkept]
      have he' : updateText cx (sem cx m) q = .ok t := he
      unfold updateText at he'
      split at he'
      · cases he'
      simp only [bind_ok] at he'
      obtain ⟨_, _, _, _, x, hx, _⟩ := he'
      obtain ⟨u, hu⟩ := clause_text_ok hx (by simpa using hne)
      have hm : ∀ p ∈ kept, (.value p.1 p.2 : Value) ∈ q.values := fun p hp => by
        rw [hk]; exact List.mem_map_of_mem (f := fun p : Obj × Obj => (.value p.1 p.2 : Value)) hp
      rw [List.filterMap_map, ← List.filterMap_eq_map]
      refine List.filterMap_congr fun p hpm => ?_
      obtain ⟨k, v⟩ := p
      obtain ⟨⟨c, rfl⟩, _⟩ := hp _ hpm
      have hsa := hs.2.1 _ (hm _ hpm)
      obtain ⟨w, hw⟩ := assigns_ok hu _ _ (hm _ hpm)
      simp only [Function.comp_def, pieces_assign ih hsa]
      unfold assignmentSeen
      rw [value_toks hf hv hsa.2 hw]
      show some (refToks (refParts cx.backend.quote c), _) = some (column c, _)
      rw [column_toks hf hc hsa.1]
  · by_contra hne
    rw [where_update ih hs hne] at he
    exact conj_ne hne hs.2.2 he

/-- C73 for UPDATE: any calls on an UPDATE. The tables are listed and joined by name, each listed once and each joined
once (C71); `set` gives values to columns by name; conditions of `where` compare a column with a value. Then the server
changes those combined rows of the tables and joins asked for in which all conditions given are true, and no others, and
is told each assignment given, once, in the order of first use. -/
theorem C73_update_partial (hf : Fits cx d) (hc : NamesSeen cx d column) (hv : ValuesSeen cx d sv value)
    (hh : ConditionsSeen cx d sv holds) (hm : MirrorsAgree sv) (ch : Changer V) {n m : Nat} {ops : List UpdateOp}
    {es : List TableEvent} (h0 : List.Forall₂ (UpdateEvent cx) ops es) (hne : listedTables es ≠ [])
    (hd : (listedTables es).Nodup) (hj : DistinctJoins es) {sets conds : List (List (Obj × Obj))}
    (h1 : List.Forall₂ SetPairs ops sets) (h1e : ∀ ps ∈ sets, ∀ p ∈ ps, ExactAssignment p)
    (h2 : List.Forall₂ UpdatePairs ops conds) (h2e : ∀ ps ∈ conds, ∀ p ∈ ps, ExactCond p) {t : Str}
    (h : NoRaw cx.backend.quote .stmt (.update (runOps (updateStep cx (sem cx (n + 2))) {} ops)))
    (e : (sem cx m).str (.update (runOps (updateStep cx (sem cx (n + 2))) {} ops)) = .ok t) :
    ∃ kept, FirstUses sets.flatten kept ∧
      carryOutUpdates sv src ch (lex d t) =
        ch.update (rowsAsked src column holds es conds.flatten) (kept.map (assignmentSeen column value)) := by
  have k0 := C71_update_partial (src := src) hf hc hh hm h0 hne hd hj h e
  obtain ⟨kept, k1, k1'⟩ := kept_pairs (C21_values_partial cx (n + 1) ops sets h1 h1e)
  have k2 := C20_update_partial cx n ops conds h2 h2e
  have w := fun row hne => C56_update_partial hf (hh row) h2e hne (n := n) (m := m) h2 h e
  have hex : ∀ p ∈ kept, ExactAssignment p := fun p hp => by
    obtain ⟨ps, h3, h4⟩ := List.mem_flatten.mp ((k1.mem_iff p).mp hp)
    exact h1e ps h3 p h4
  obtain ⟨r1, r2⟩ := update_parts hf hc hv k1' hex h e
  refine ⟨kept, k1, ?_⟩
  unfold carryOutUpdates rowsUpdated rowsAsked
  rw [r1, k0, chosen ((empties k2).trans r2) w]

/-- If no column is given two different values, then no column is assigned twice. -/
theorem C73_settled {given kept : List (Obj × Obj)} (h : FirstUses given kept) (ho : OneValueEach given)
    (hd : ∀ p ∈ given, ∀ p' ∈ given, seenName column p.1 = seenName column p'.1 → p.1 = p'.1) :
    ((kept.map (assignmentSeen column value)).map Prod.fst).Nodup := by
  rw [List.map_map]
  refine List.Nodup.map_on ?_ h.nodup
  intro p hp p' hp' e
  have h1 := (h.mem_iff p).mp hp
  have h2 := (h.mem_iff p').mp hp'
  have h3 := hd p h1 p' h2 e
  obtain ⟨k, v⟩ := p
  obtain ⟨k', v'⟩ := p'
  cases h3
  rw [ho k v v' h1 h2]

private theorem delete_parts (hf : Fits cx d) (hc : NamesSeen cx d column) {q : Delete} {n : Nat} {t : Str}
    {kept : List (Obj × Obj)} (hk : q.tables = kept.map fun p => (⟨p.1, p.2, []⟩ : Table))
    (hp : ∀ p ∈ kept, NamedTable p) (h : NoRaw cx.backend.quote .stmt (.delete q))
    (e : (sem cx n).str (.delete q) = .ok t) :
    targetTables (lex d t) = kept.map (fun p => seenName column p.1) ∧
    (q.where_ = [] ↔ clauseBody deleteClauses L!"WHERE" (lex d t) = []) := by
  obtain ⟨m, hs, he, r⟩ := stmt_level hf h e
  have hs : safeDelete cx.backend.quote (Safe cx.backend.quote m) q := hs
  have hr : toks cx d (m + 1) (.delete q) = deleteToks cx (sem cx m) d (toks cx d m) q := rfl
  rw [r, hr]
  have ih := phrases_sem cx d m
  refine ⟨?_, nowhere_delete ih hs, fun he => ?_⟩
  · unfold targetTables
    have key : afterIgnore (clauseBody deleteClauses L!"DELETE" (deleteToks cx (sem cx m) d (toks cx d m) q)) =
        tablesToks cx (sem cx m) d (toks cx d m) [] q.tables := by
      rw [targets_delete ih hs]
      cases q.ignore with
      | true => rfl
      | false =>
        show afterIgnore (tablesToks cx (sem cx m) d (toks cx d m) [] q.tables) = _
        unfold afterIgnore
        split
        · rename_i w r' e'
          exfalso
          cases hts : q.tables with
          | nil => rw [hts] at e'; cases e'
          | cons t ts =>
            have hn : ∃ s, t.name = .str s := by
              have : t ∈ kept.map fun p => (⟨p.1, p.2, []⟩ : Table) := by rw [← hk, hts]; simp
              obtain ⟨p, hpm, rfl⟩ := List.mem_map.mp this
              obtain ⟨s, _, rfl⟩ := hp p hpm
              exact ⟨s, rfl⟩
            obtain ⟨s, hn⟩ := hn
            rw [hts] at e'
            exact first_name hn (hs.1 t (by rw [hts]; simp)).1.1 e'
        · rfl
    rw [key, hk]
    cases hkept : kept with
    | nil => rfl
    | cons p ps =>
      rw [← hkept]
      have hne : kept ≠ [] := by rw [hkept]; simp
      have hsafe : ∀ p ∈ kept, safeRef cx.backend.quote (Safe cx.backend.quote m) p.1 := fun p hpm =>
        (hs.1 ⟨p.1, p.2, []⟩ (by rw [hk]; exact List.mem_map_of_mem (f := fun p => (⟨p.1, p.2, []⟩ : Table)) hpm)).1.1
      rw [tablesToks_named hne hp]
      have hpc : pieces (.sym ',') (joinT [.sym ','] (kept.map fun p => refToksOf cx (toks cx d m) p.1)) =
          kept.map fun p => refToksOf cx (toks cx d m) p.1 := by
        refine pieces_joinT (by simpa using hne) ?_ (by decide) (by decide)
        intro x hx
        obtain ⟨p, hpm, rfl⟩ := List.mem_map.mp hx
        exact (expr_facts (by decide) (g_ref ih (hsafe p hpm))).1
      rw [if_neg, hpc]
      · refine List.map_congr_left fun p hpm => ?_
        obtain ⟨s, _, rfl⟩ := hp p hpm
        exact (column_toks hf hc (hsafe _ hpm)).symm
      · intro h0
        rw [h0, hkept] at hpc
        have h1 := (List.cons.inj hpc).1
        have hsp := hsafe p (by rw [hkept]; simp)
        obtain ⟨s, _, rfl⟩ := hp p (by rw [hkept]; simp)
        exact refToks_ne (refParts_ne hsp.1 hsp.2) h1.symm
  · by_contra hne
    rw [where_delete ih hs hne] at he
    exact conj_ne hne hs.2.2 he

/-- After any calls the tables named in `delete` are kept, each once, in the order of first use. -/
theorem targets_kept (cx : Ctx) (n : Nat) {ops : List DeleteOp} {uses : List (List (Obj × Obj))}
    (hg : List.Forall₂ TargetNames ops uses) (hp : ∀ ps ∈ uses, ∀ p ∈ ps, ExactTable p) :
    FirstUses (uses.flatten.map fun p => (⟨p.1, p.2, []⟩ : Table))
      (runOps (deleteStep cx (sem cx (n + 1))) {} ops).tables := by
  have h := history_uses (f := DeleteS.tables) (P := PlainTable) (E := ExactTable)
    (conv := fun p => (⟨p.1, p.2, []⟩ : Table)) (Gives := TargetNames) (step := deleteStep cx (sem cx (n + 1)))
    ?_ hg hp {} [] .nil (by simp)
  · simpa using h
  intro q op ps given h he hs hf
  have skip : ∀ q' : Delete, q'.tables = q.tables → ps = [] →
      FirstUses (given ++ ps.map fun p => (⟨p.1, p.2, []⟩ : Table)) q'.tables ∧ ∀ c ∈ q'.tables, PlainTable c := by
    rintro q' h2 rfl
    rw [h2, List.map_nil, List.append_nil]
    exact ⟨hf, hs⟩
  cases op with
  | delete ts => exact tables_step cx n h.1 h.2 he hs hf
  | str =>
    refine skip _ ?_ h
    show (deleteStr cx _ q).1.tables = _
    unfold deleteStr
    split
    · rfl
    · have hp := strTables_plain cx (sem cx (n + 1)) hs
      dsimp only
      split <;> first | rfl | exact hp
  | _ => exact skip _ rfl h

/-- C73 for DELETE: any calls on a DELETE. The tables after FROM are listed and joined by name, each listed once and each
joined once (C71); `delete` names tables without alias; conditions of `where` compare a column with a value. Then the
server deletes what makes up those combined rows of the tables and joins asked for in which all conditions given are
true, and no others, in the tables named in `delete`, each read once, in the order of first use. -/
theorem C73_delete_partial (hf : Fits cx d) (hc : NamesSeen cx d column) (hh : ConditionsSeen cx d sv holds)
    (hm : MirrorsAgree sv) (ch : Changer V) {n m : Nat} {ops : List DeleteOp} {es : List TableEvent}
    (h0 : List.Forall₂ (DeleteEvent cx) ops es) (hne : listedTables es ≠ []) (hd : (listedTables es).Nodup)
    (hj : DistinctJoins es) {targets conds : List (List (Obj × Obj))}
    (h1 : List.Forall₂ TargetNames ops targets) (h1e : ∀ ps ∈ targets, ∀ p ∈ ps, NamedTable p)
    (h2 : List.Forall₂ DeletePairs ops conds) (h2e : ∀ ps ∈ conds, ∀ p ∈ ps, ExactCond p) {t : Str}
    (h : NoRaw cx.backend.quote .stmt (.delete (runOps (deleteStep cx (sem cx (n + 2))) {} ops)))
    (e : (sem cx m).str (.delete (runOps (deleteStep cx (sem cx (n + 2))) {} ops)) = .ok t) :
    ∃ kept, FirstUses targets.flatten kept ∧
      carryOutDeletes sv src ch (lex d t) =
        ch.delete (rowsAsked src column holds es conds.flatten) (kept.map fun p => seenName column p.1) := by
  have k0 := C71_delete_partial (src := src) hf hc hh hm h0 hne hd hj h e
  have k1 := targets_kept cx (n + 1) h1 fun ps hps p hp => by
    obtain ⟨s, hs, rfl⟩ := h1e ps hps p hp
    exact ⟨⟨s, hs, rfl⟩, .inl rfl⟩
  have k2 := C20_delete_partial cx n ops conds h2 h2e
  have w := fun row hne => C56_delete_partial hf (hh row) h2e hne (n := n) (m := m) h2 h e
  generalize runOps (deleteStep cx (sem cx (n + 2))) {} ops = q at *
  have hk : q.tables = (q.tables.map fun t => (t.name, t.alias)).map fun p => (⟨p.1, p.2, []⟩ : Table) := by
    rw [List.map_map]
    conv => lhs; rw [← List.map_id q.tables]
    refine List.map_congr_left fun t ht => ?_
    obtain ⟨p, _, rfl⟩ := List.mem_map.mp ((k1.mem_iff t).mp ht)
    rfl
  have k3 : FirstUses targets.flatten (q.tables.map fun t => (t.name, t.alias)) := by
    have := k1.map_on (g := fun t : Table => (t.name, t.alias)) (by
      intro a ha b hb e
      obtain ⟨p, _, rfl⟩ := List.mem_map.mp ha
      obtain ⟨p', _, rfl⟩ := List.mem_map.mp hb
      have e : p = p' := e
      rw [e])
    rw [List.map_map] at this
    have e : ((fun t : Table => (t.name, t.alias)) ∘ fun p : Obj × Obj => (⟨p.1, p.2, []⟩ : Table)) = id := rfl
    rwa [e, List.map_id] at this
  obtain ⟨r1, r2⟩ := delete_parts hf hc hk (fun p hp => by
    obtain ⟨ps, h3, h4⟩ := List.mem_flatten.mp ((k3.mem_iff p).mp hp)
    exact h1e ps h3 p h4) h e
  refine ⟨_, k3, ?_⟩
  unfold carryOutDeletes rowsDeleted rowsAsked
  rw [r1, k0, chosen ((empties k2).trans r2) w]

end

/-- C73 for the assignments in full: the server is told nothing but the value given last to each column. (In an UPDATE of
several tables MySQL promises no order of the assignments; PostgreSQL accepts no second one to a column.) -/
def C73_claim : Prop :=
  ∀ (cx : Ctx) (d : Dialect) (V : Type) (sv : Server V) (column : Str → List Tok) (value : Obj → V) (n m : Nat)
    (ops : List UpdateOp) (sets : List (List (Obj × Obj))) (t : Str),
    Fits cx d → NamesSeen cx d column → ValuesSeen cx d sv value →
    List.Forall₂ SetPairs ops sets → (∀ ps ∈ sets, ∀ p ∈ ps, ExactAssignment p) →
    NoRaw cx.backend.quote .stmt (.update (runOps (updateStep cx (sem cx (n + 2))) {} ops)) →
    (sem cx m).str (.update (runOps (updateStep cx (sem cx (n + 2))) {} ops)) = .ok t →
    ∀ x v, (x, v) ∈ assignmentsOf sv (lex d t) →
      ∃ c o, LastValue sets.flatten (.str c) o ∧ x = column c ∧ v = value o

private def tokenServer : Server (List Tok) := ⟨id, fun _ _ => .t, fun _ => []⟩

private theorem setTo (i : Int) : SetPairs (.set { pos := [.str L!"y", .int i] }) [(.str L!"y", .int i)] :=
  .usual (ps := [(.str L!"y", .int i)]) (.direct _ (by rintro _ ⟨⟩)) ⟨[], .nil, .nil, rfl⟩ (by simp [KwFree])

private theorem tableNamed (s : Str) (h : s ≠ []) : ListsTables { pos := [.str s] } [(.str s, .none)] := by
  refine ⟨.usual (ps := [(.str s, .none)]) (by rintro _ ⟨⟩) (.cons (.name (by rintro _ ⟨⟩)) .nil)
    ⟨[], .nil, .nil, rfl⟩ (by simp [KwFree]), by simp, ?_⟩
  intro p hp
  cases List.mem_singleton.mp hp
  exact ⟨⟨s, h, rfl⟩, .inl rfl⟩

private theorem pairNamed (s t : Str) : GivesPairs { pos := [.str s, .str t] } [(.str s, .str t)] :=
  .usual (ps := [(.str s, .str t)]) (.direct _ (by rintro _ ⟨⟩)) ⟨[], .nil, .nil, rfl⟩ (by simp [KwFree])

private theorem onNamed (s t : Str) : GivesOns { pos := [.str s, .str t] } [(.str s, .str t)] := by
  refine ⟨pairNamed s t, ?_⟩
  intro p hp
  cases List.mem_singleton.mp hp
  exact ⟨⟨_, rfl⟩, trivial⟩

/-- `update('a').join('b').on('a.x', 'b.x').set('y', 1).set('y', 2).where('b.z', 'v')`. -/
private def reset : List UpdateOp :=
  [.table (.str L!"a"), .join (.str L!"b"), .on { pos := [.str L!"a.x", .str L!"b.x"] },
   .set { pos := [.str L!"y", .int 1] }, .set { pos := [.str L!"y", .int 2] },
   .where_ { pos := [.str L!"b.z", .str L!"v"] }]

private def resetText : Str :=
  L!"UPDATE \"a\" JOIN \"b\" ON \"a\".\"x\" = \"b\".\"x\" SET \"y\" = 1, \"y\" = 2 WHERE \"b\".\"z\" = 'v'"

/-- It is false: after `set('y', 1)` and `set('y', 2)` the server is told both. -/
theorem C73_refuted : ¬ C73_claim := by
  intro h
  obtain ⟨⟨column, hc⟩, ⟨value, hv⟩, _⟩ := C68_seen_exists cx0 standardDialect tokenServer
  obtain ⟨c, o, hl, _, ho⟩ := h cx0 standardDialect (List Tok) tokenServer column value 2 6 reset
    [[], [], [], [(.str L!"y", .int 1)], [(.str L!"y", .int 2)], []] resetText rfl hc hv
    (.cons rfl (.cons rfl (.cons rfl (.cons (setTo 1) (.cons (setTo 2) (.cons rfl .nil))))))
    (by simp [ExactAssignment, ExactScalar]) ⟨6, by decide +kernel⟩ (by decide +kernel) [.ident L!"y"] [.num L!"1"]
    (by decide +kernel)
  have hl : LastValue ([(.str L!"y", .int 1)] ++ [((.str L!"y", .int 2) : Obj × Obj)]) (.str c) o := hl
  have two : value (.int 2) = [.num L!"2"] := by
    rw [hv (.int 2) 1 L!"2" (by decide +kernel)]
    decide +kernel
  rcases lastValue_snoc.mp hl with ⟨_, rfl⟩ | ⟨h1, h2⟩
  · rw [two] at ho
    revert ho
    decide
  · have := lastValue_mem h2
    simp only [List.mem_singleton, Prod.mk.injEq] at this
    exact h1 this.1.symm

/-- The calls meet the hypotheses of `C73_update_partial`. -/
example : List.Forall₂ (UpdateEvent cx0) reset
      [.tables [(.str L!"a", .none)], .join .inner (.str L!"b") .none, .on [(.str L!"a.x", .str L!"b.x")], .other, .other,
       .other] ∧
    List.Forall₂ SetPairs reset [[], [], [], [(.str L!"y", .int 1)], [(.str L!"y", .int 2)], []] ∧
    List.Forall₂ UpdatePairs reset [[], [], [], [], [], [(.str L!"b.z", .str L!"v")]] ∧
    ExactAssignment (.str L!"y", .int 1) ∧ ExactCond (.str L!"b.z", .str L!"v") ∧
    NoRaw '"' .stmt (.update (runOps (updateStep cx0 (sem cx0 4)) {} reset)) ∧
    (sem cx0 6).str (.update (runOps (updateStep cx0 (sem cx0 4)) {} reset)) = .ok resetText :=
  ⟨.cons (.table (tableNamed _ (by decide))) (.cons (.join ⟨.name _, .inl ⟨_, rfl⟩, .inl rfl, by simp⟩)
    (.cons (.on (onNamed _ _)) (.cons (.other trivial) (.cons (.other trivial) (.cons (.other trivial) .nil))))),
    .cons rfl (.cons rfl (.cons rfl (.cons (setTo 1) (.cons (setTo 2) (.cons rfl .nil))))),
    .cons rfl (.cons rfl (.cons rfl (.cons rfl (.cons rfl (.cons (pairNamed _ _) .nil))))),
    ⟨⟨_, rfl⟩, trivial⟩, ⟨⟨_, rfl⟩, trivial⟩, ⟨6, by decide +kernel⟩, by decide +kernel⟩

/-- What the server is told: of the rows of `a` joined with those of `b`, the ones with `v` in `b.z`; both assignments. -/
example : (rowsUpdated (V := List Tok) ⟨id, fun row ts => if row [] = ts.drop 4 then .t else .f, fun _ => []⟩
      ⟨fun n _ => if n = [.ident L!"b"] then [fun _ => [.str L!"u"], fun _ => [.str L!"v"]] else [fun _ => []],
        fun _ xs ys _ => xs.flatMap fun _ => ys, List.flatten⟩ (lex standardDialect resetText)).map (· []) =
      [[.str L!"v"]] ∧
    assignmentsOf tokenServer (lex standardDialect resetText) =
      [([.ident L!"y"], [.num L!"1"]), ([.ident L!"y"], [.num L!"2"])] := by
  decide +kernel

/-- `delete('a', 'b').delete('a').from_('a').left_join('b').on('a.x', 'b.x').where('b.z', 'v').ignore()`. -/
private def removed : List DeleteOp :=
  [.delete [.str L!"a", .str L!"b"], .delete [.str L!"a"], .from_ { pos := [.str L!"a"] }, .leftJoin (.str L!"b"),
   .on { pos := [.str L!"a.x", .str L!"b.x"] }, .where_ { pos := [.str L!"b.z", .str L!"v"] }, .ignore (.bool true)]

private def removedText : Str :=
  L!"DELETE IGNORE \"a\", \"b\" FROM \"a\" LEFT JOIN \"b\" ON \"a\".\"x\" = \"b\".\"x\" WHERE \"b\".\"z\" = 'v'"

/-- They meet the hypotheses of `C73_delete_partial`; the server is told to delete from both tables. -/
example : List.Forall₂ (DeleteEvent cx0) removed
      [.other, .other, .tables [(.str L!"a", .none)], .join .left (.str L!"b") .none, .on [(.str L!"a.x", .str L!"b.x")],
       .other, .other] ∧
    List.Forall₂ TargetNames removed
      [[(.str L!"a", .none), (.str L!"b", .none)], [(.str L!"a", .none)], [], [], [], [], []] ∧
    List.Forall₂ DeletePairs removed [[], [], [], [], [], [(.str L!"b.z", .str L!"v")], []] ∧
    NamedTable (.str L!"a", .none) ∧
    NoRaw '"' .stmt (.delete (runOps (deleteStep cx0 (sem cx0 4)) {} removed)) ∧
    (sem cx0 6).str (.delete (runOps (deleteStep cx0 (sem cx0 4)) {} removed)) = .ok removedText ∧
    targetTables (lex standardDialect removedText) = [[.ident L!"a"], [.ident L!"b"]] := by
  refine ⟨.cons (.other trivial) (.cons (.other trivial) (.cons (.from_ (tableNamed _ (by decide)))
    (.cons (.leftJoin ⟨.name _, .inl ⟨_, rfl⟩, .inl rfl, by simp⟩) (.cons (.on (onNamed _ _)) (.cons (.other trivial)
    (.cons (.other trivial) .nil)))))), .cons ?_ (.cons ⟨(tableNamed _ (by decide)).1, by simp⟩ (.cons rfl (.cons rfl
    (.cons rfl (.cons rfl (.cons rfl .nil)))))),
    .cons rfl (.cons rfl (.cons rfl (.cons rfl (.cons rfl (.cons (pairNamed _ _) (.cons rfl .nil)))))),
    ⟨_, by decide, rfl⟩, ⟨6, by decide +kernel⟩, by decide +kernel, by decide +kernel⟩
  exact ⟨.usual (ps := [(.str L!"a", .none), (.str L!"b", .none)]) (by rintro _ ⟨⟩) (.cons (.name (by rintro _ ⟨⟩))
    (.cons (.name (by rintro _ ⟨⟩)) .nil)) ⟨[], .nil, .nil, rfl⟩ (by simp [KwFree]), by simp⟩

end SqlPuzzle
