import Verif.Proofs.Effects
import Verif.Props.Assign
import Verif.Props.WhereMeaning
import Verif.Proofs.RenderCalls
import Verif.Props.Inserts

/-!
C68: what a server does with the statements.
-/

namespace SqlPuzzle

open Spec

private def cx0 : Ctx := ⟨.sql, ⟨id, id, fun _ => true, fun _ => [], fun _ => []⟩⟩

section
variable {cx : Ctx} {d : Dialect} {V : Type} {sv : Server V}

theorem column_toks (hf : Fits cx d) {column : Str → List Tok} (hc : NamesSeen cx d column) {c : Str}
    (h : SafeName cx.backend.quote c) : column c = refToks (refParts cx.backend.quote c) := by
  have e : (sem cx 1).str (.sqlRef (.str c)) = .ok (reference cx.backend.quote c) := rfl
  rw [hc c 1 _ e, (rt_reference hf h).reads.lex]

theorem value_toks (hf : Fits cx d) {value : Obj → V} (hv : ValuesSeen cx d sv value) {v : Obj} {m : Nat} {u : Str}
    (h : safeVal cx.backend.quote (Safe cx.backend.quote m) v) (e : sqlValueText cx (sem cx m) v = .ok u) :
    value v = sv.literal (valToks cx d (toks cx d m) v) := by
  have e' : (sem cx (m + 1)).str (.sqlValue v) = .ok u := e
  rw [hv v (m + 1) u e', (rt_val hf (inner_sem hf m) h e).reads.lex]

/-- One assignment, on the Python side. -/
private def setSeen (column : Str → List Tok) (value : Obj → V) (row : Tuple V) (p : Obj × Obj) : Tuple V :=
  match p.1 with
  | .str c => fun x => if x = column c then value p.2 else row x
  | _ => row

private theorem setSeen_fold {column : Str → List Tok} {value : Obj → V} {ps : List (Obj × Obj)}
    (hd : ∀ p ∈ ps, ∀ p' ∈ ps, ∀ c c', p.1 = .str c → p'.1 = .str c' → column c = column c' → c = c')
    (row : Tuple V) {c : Str} {v : Obj} (h : LastValue ps (.str c) v) :
    ps.foldl (setSeen column value) row (column c) = value v := by
  induction ps using List.reverseRecOn with
  | nil => generalize e : ([] : List (Obj × Obj)) = xs at h; cases h <;> simp at e
  | append_singleton ps x ih =>
    obtain ⟨k, u⟩ := x
    rw [List.foldl_append, List.foldl_cons, List.foldl_nil]
    rcases lastValue_snoc.mp h with ⟨rfl, rfl⟩ | ⟨h1, h2⟩
    · exact if_pos rfl
    · have := ih (fun p hp p' hp' => hd p (List.mem_append_left _ hp) p' (List.mem_append_left _ hp')) h2
      rw [← this]
      cases k with
      | str c' =>
        refine if_neg fun e => h1 ?_
        rw [hd (.str c, v) (List.mem_append_left _ (lastValue_mem h2)) (.str c', u) (by simp) c c' rfl rfl e]
      | _ => rfl

private theorem setSeen_other {column : Str → List Tok} {value : Obj → V} {ps : List (Obj × Obj)} {x : List Tok}
    (h : ∀ c v, (.str c, v) ∈ ps → x ≠ column c) (row : Tuple V) :
    ps.foldl (setSeen column value) row x = row x := by
  induction ps generalizing row with
  | nil => rfl
  | cons p ps ih =>
    obtain ⟨k, v⟩ := p
    rw [List.foldl_cons, ih fun c v hm => h c v (List.mem_cons_of_mem _ hm)]
    cases k with
    | str c => exact if_neg (h c v List.mem_cons_self)
    | _ => rfl

private theorem setOnce_fold (hf : Fits cx d) {column : Str → List Tok} {value : Obj → V}
    (hc : NamesSeen cx d column) (hv : ValuesSeen cx d sv value) {m : Nat} {ps : List (Obj × Obj)}
    (hp : ∀ p ∈ ps, ExactAssignment p)
    (h : ∀ p ∈ ps, safeAssign cx.backend.quote (Safe cx.backend.quote m) (.value p.1 p.2))
    (ht : ∀ p ∈ ps, ∃ u, sqlValueText cx (sem cx m) p.2 = .ok u) (row : Tuple V) :
    (ps.map fun p => assignToks cx d (toks cx d m) (.value p.1 p.2)).foldl (setOnce sv) row =
      ps.foldl (setSeen column value) row := by
  induction ps generalizing row with
  | nil => rfl
  | cons p ps ih =>
    rw [List.map_cons, List.foldl_cons, List.foldl_cons, ih (fun q hq => hp q (List.mem_cons_of_mem _ hq))
      (fun q hq => h q (List.mem_cons_of_mem _ hq)) (fun q hq => ht q (List.mem_cons_of_mem _ hq))]
    congr 1
    obtain ⟨k, v⟩ := p
    obtain ⟨⟨c, rfl⟩, _⟩ := hp _ List.mem_cons_self
    have hs := h _ List.mem_cons_self
    obtain ⟨u, hu⟩ := ht _ List.mem_cons_self
    unfold setOnce
    rw [pieces_assign (phrases_sem cx d m) hs]
    show (fun x => if x = refToks (refParts cx.backend.quote c) then _ else row x) =
      fun x => if x = column c then value v else row x
    rw [column_toks hf hc hs.1, value_toks hf hv hs.2 hu]

private theorem keeps_update (S : Sem) {ts : List Table} (ht : ∀ t ∈ ts, t.joins = []) {ops : List UpdateOp}
    (hk : ∀ op ∈ ops, KeepsTable op) (q : Update) (hq : q.tables = ts) :
    (runOps (updateStep cx S) q ops).tables = ts := by
  induction ops generalizing q with
  | nil => exact hq
  | cons op ops ih =>
    refine ih (fun o ho => hk o (List.mem_cons_of_mem _ ho)) _ ?_
    have := hk op List.mem_cons_self
    cases op with
    | str =>
      show (updateStr cx S q).1.tables = ts
      unfold updateStr
      split
      · exact hq
      · rw [← hq] at ht ⊢
        exact RenderCalls.noJoins_str cx S ht
    | set a => exact hq
    | where_ a => exact hq
    | _ => first | exact this.elim | exact hq

private theorem keeps_delete (S : Sem) {ts : List Table} (ht : ∀ t ∈ ts, t.joins = []) {ops : List DeleteOp}
    (hk : ∀ op ∈ ops, KeepsFrom op) (q : Delete) (hq : q.references = ts) (hn : q.tables = []) :
    (runOps (deleteStep cx S) q ops).references = ts := by
  induction ops generalizing q with
  | nil => exact hq
  | cons op ops ih =>
    have := hk op List.mem_cons_self
    have key : (deleteStep cx S q op).1.references = ts ∧ (deleteStep cx S q op).1.tables = [] := by
      cases op with
      | str =>
        show (deleteStr cx S q).1.references = ts ∧ (deleteStr cx S q).1.tables = []
        unfold deleteStr
        split
        · exact ⟨hq, hn⟩
        · rw [← hq] at ht ⊢
          rw [hn]
          dsimp only
          split
          · exact ⟨RenderCalls.noJoins_str cx S ht, rfl⟩
          · exact ⟨RenderCalls.noJoins_str cx S ht, rfl⟩
      | where_ a => exact ⟨hq, hn⟩
      | _ => first | exact this.elim | exact ⟨hq, hn⟩
    exact ih (fun o ho => hk o (List.mem_cons_of_mem _ ho)) _ key.1 key.2

private theorem mapR_mem_ok {α β : Type} {r : α → β → Prop} {xs : List α} {ys : List β}
    (h : List.Forall₂ r xs ys) {x : α} (hx : x ∈ xs) : ∃ y, y ∈ ys ∧ r x y := by
  induction h with
  | nil => cases hx
  | cons h1 _ ih =>
    rcases List.mem_cons.mp hx with rfl | hx
    · exact ⟨_, List.mem_cons_self, h1⟩
    · obtain ⟨y, hy, hr⟩ := ih hx
      exact ⟨y, List.mem_cons_of_mem _ hy, hr⟩

theorem conj_ne {m : Nat} {ps : List Cond} (hne : ps ≠ [])
    (h : safeConds cx.backend.quote (Safe cx.backend.quote m) ps) : conjToks cx d (toks cx d m) ps ≠ [] := by
  have := g_conds (cx := cx) (d := d) (phrases_sem cx d m) hne h
  intro e
  rw [e] at this
  generalize hz : ([] : List Tok) = ts at this
  cases this with
  | conjOne h => exact (tight_cond h).2 hz.symm
  | conjMore h _ => exact (tight_cond h).2 (List.append_eq_nil_iff.mp hz.symm).1

theorem assigns_ok {S : Sem} {vs : List Value} {u : Str} (e : valuesText cx S [] vs = .ok u) :
    ∀ c v, .value c v ∈ vs → ∃ u, sqlValueText cx S v = .ok u := by
  intro c v hm
  unfold valuesText partsText at e
  have hne : vs.isEmpty = false := by cases vs <;> simp_all
  rw [hne] at e
  simp only [Bool.false_eq_true, if_false, bind_ok] at e
  obtain ⟨ts, e1, _⟩ := e
  obtain ⟨w, _, hw⟩ := mapR_mem_ok (mapR_ok_iff.mp e1) hm
  simp only [valueText, bind_ok] at hw
  obtain ⟨_, _, y, hy, _⟩ := hw
  exact ⟨y, hy⟩

/-- The table, the assignments and the conditions that a server reads in an UPDATE. -/
private theorem update_read (hf : Fits cx d) {column : Str → List Tok} {value : Obj → V}
    (hc : NamesSeen cx d column) (hv : ValuesSeen cx d sv value) {q : Update} {name : Str} {n : Nat} {t : Str}
    (hq : q.tables = [⟨.str name, .none, []⟩]) {kept : List (Obj × Obj)}
    (hk : q.values = kept.map fun p => (.value p.1 p.2 : Value)) (hp : ∀ p ∈ kept, ExactAssignment p)
    (h : NoRaw cx.backend.quote .stmt (.update q)) (e : (sem cx n).str (.update q) = .ok t) :
    updatedTable (lex d t) = column name ∧
    (∀ row, (pieces (.sym ',') (clauseBody updateClauses L!"SET" (lex d t))).foldl (setOnce sv) row =
      kept.foldl (setSeen column value) row) ∧
    (q.where_ = [] ↔ clauseBody updateClauses L!"WHERE" (lex d t) = []) := by
  obtain ⟨m, hs, he, r⟩ := stmt_level hf h e
  have hs : safeUpdate cx.backend.quote (Safe cx.backend.quote m) q := hs
  have hr : toks cx d (m + 1) (.update q) = updateToks cx (sem cx m) d (toks cx d m) q := rfl
  rw [r, hr]
  have ih := phrases_sem cx d m
  have htab : safeTable cx.backend.quote (Safe cx.backend.quote m) ⟨.str name, .none, []⟩ :=
    hs.1 _ (by rw [hq]; simp)
  refine ⟨?_, fun row => ?_, nowhere_update ih hs, fun he => ?_⟩
  · unfold updatedTable
    rw [table_update ih hs, hq, tablesToks_one, column_toks hf hc htab.1.1]
    cases q.ignore with
    | true => rfl
    | false =>
      show (match refToks (refParts cx.backend.quote name) with
        | .word w :: r => if w = L!"IGNORE" then r else .word w :: r
        | r => r) = _
      split
      · rename_i w r' e'
        cases hps : refParts cx.backend.quote name with
        | nil => rw [hps] at e'; cases e'
        | cons p ps =>
          rw [hps] at e'
          have : segmentTok p = .word w := by
            cases ps <;> · injection e'
          unfold segmentTok at this
          split at this <;> cases this
      · rfl
  · rw [set_update ih hs]
    cases hkept : kept with
    | nil =>
      rw [hk, hkept]
      rfl
    | cons p ps =>
      have hne : q.values ≠ [] := by rw [hk, hkept]; simp
      rw [pieces_assigns ih hne hs.2.1, hk, List.map_map, ← hkept]
      have he' : updateText cx (sem cx m) q = .ok t := he
      unfold updateText at he'
      split at he'
      · cases he'
      · simp only [bind_ok] at he'
        obtain ⟨_, _, _, _, x, hx, _⟩ := he'
        obtain ⟨u, hu⟩ := clause_text_ok hx (by simpa using hne)
        have hm : ∀ p ∈ kept, (.value p.1 p.2 : Value) ∈ q.values := fun p hp => by
          rw [hk]; exact List.mem_map_of_mem (f := fun p : Obj × Obj => (.value p.1 p.2 : Value)) hp
        exact setOnce_fold hf hc hv hp (fun p hp => hs.2.1 _ (hm p hp))
          (fun p hp => assigns_ok hu p.1 p.2 (hm p hp)) row
  · by_contra hne
    rw [where_update ih hs hne] at he
    exact conj_ne hne hs.2.2 he

/-- C68 for UPDATE: `update(table)`, then any calls of `set`, `where`, `ignore`, `allow_update_all` and so on. The
statement changes no other table; in its table it changes the rows in which all the conditions given are true, and no
others; in such a row it leaves in every column given the value given last, and no other column is changed. -/
theorem C68_update_partial (hf : Fits cx d) {column : Str → List Tok} {value : Obj → V}
    {holds : Tuple V → Obj → Tri} (hc : NamesSeen cx d column) (hv : ValuesSeen cx d sv value)
    (hh : ConditionsSeen cx d sv holds) {name : Str} (hname : name ≠ []) {n m : Nat} {q0 : Update}
    (hq : mkUpdate cx (sem cx (n + 2)) (.str name) = .ok q0) {ops : List UpdateOp} (hk : ∀ op ∈ ops, KeepsTable op)
    {sets conds : List (List (Obj × Obj))} (hs : List.Forall₂ SetPairs ops sets)
    (hse : ∀ ps ∈ sets, ∀ p ∈ ps, ExactAssignment p) (hw : List.Forall₂ UpdatePairs ops conds)
    (hwe : ∀ ps ∈ conds, ∀ p ∈ ps, ExactCond p) (hr : NoReturn sets.flatten)
    (hd : ∀ p ∈ sets.flatten, ∀ p' ∈ sets.flatten, ∀ c c', p.1 = .str c → p'.1 = .str c' →
      column c = column c' → c = c') {t : Str}
    (h : NoRaw cx.backend.quote .stmt (.update (runOps (updateStep cx (sem cx (n + 2))) q0 ops)))
    (e : (sem cx m).str (.update (runOps (updateStep cx (sem cx (n + 2))) q0 ops)) = .ok t) (db : Database V) :
    ∃ change : Tuple V → Tuple V,
      (∀ row c v, LastValue sets.flatten (.str c) v → change row (column c) = value v) ∧
      (∀ row x, (∀ c v, (.str c, v) ∈ sets.flatten → x ≠ column c) → change row x = row x) ∧
      carryOutUpdate sv (lex d t) db = fun tb =>
        if tb = column name then
          (db tb).map fun row =>
            if Tri.all (conds.flatten.map fun p => holds row (.conds [condOf p.1 p.2])) = .t then change row else row
        else db tb := by
  obtain ⟨ch, cs, rfl⟩ := List.exists_cons_of_ne_nil hname
  have h0 : q0 = { tables := [⟨.str (ch :: cs), .none, []⟩] } := by injection hq with hq; exact hq.symm
  have hrun : runOps (updateStep cx (sem cx (n + 2))) q0 ops =
      runOps (updateStep cx (sem cx (n + 2))) {} (.table (.str (ch :: cs)) :: ops) := by rw [h0]; rfl
  have htab := keeps_update (cx := cx) (sem cx (n + 2)) (ts := [⟨.str (ch :: cs), .none, []⟩]) (by simp) hk q0
    (by rw [h0])
  have hs' : List.Forall₂ SetPairs (.table (.str (ch :: cs)) :: ops) ([] :: sets) := .cons rfl hs
  have hw' : List.Forall₂ UpdatePairs (.table (.str (ch :: cs)) :: ops) ([] :: conds) := .cons rfl hw
  have hse' : ∀ ps ∈ [] :: sets, ∀ p ∈ ps, ExactAssignment p := by
    intro ps hps p hp
    rcases List.mem_cons.mp hps with rfl | hps
    · cases hp
    · exact hse ps hps p hp
  have hwe' : ∀ ps ∈ [] :: conds, ∀ p ∈ ps, ExactCond p := by
    intro ps hps p hp
    rcases List.mem_cons.mp hps with rfl | hps
    · cases hp
    · exact hwe ps hps p hp
  obtain ⟨kept, k1, k2⟩ := kept_pairs (C21_values_partial cx (n + 1) _ _ hs' hse')
  rw [← hrun] at k2
  have k1 : FirstUses sets.flatten kept := k1
  have hex : ∀ p ∈ kept, ExactAssignment p := fun p hp => by
    obtain ⟨ps, h1, h2⟩ := List.mem_flatten.mp ((k1.mem_iff p).mp hp)
    exact hse ps h1 p h2
  obtain ⟨r1, r2, r3⟩ := update_read (sv := sv) hf hc hv htab k2 hex h e
  refine ⟨fun row => kept.foldl (setSeen column value) row, ?_, ?_, ?_⟩
  · intro row c v hl
    exact setSeen_fold (fun p hp p' hp' => hd p ((k1.mem_iff p).mp hp) p' ((k1.mem_iff p').mp hp')) row
      (firstUses_last k1 hr hl)
  · intro row x hx
    exact setSeen_other (fun c v hm => hx c v ((k1.mem_iff _).mp hm)) row
  · funext tb
    unfold carryOutUpdate
    rw [r1]
    by_cases htb : tb = column (ch :: cs)
    · rw [if_pos htb, if_pos htb]
      refine List.map_congr_left fun row _ => ?_
      have hch : chooses sv updateClauses (lex d t) row = true ↔
          Tri.all (conds.flatten.map fun p => holds row (.conds [condOf p.1 p.2])) = .t := by
        by_cases hne : conds.flatten = []
        · have hw0 : (runOps (updateStep cx (sem cx (n + 2))) q0 ops).where_ = [] := by
            have := C20_update_partial cx n _ _ hw' hwe'
            rw [← hrun] at this
            have hz : ([] :: conds).flatten = [] := hne
            rw [hz] at this
            generalize hg : (runOps (updateStep cx (sem cx (n + 2))) q0 ops).where_ = ws at this
            cases ws with
            | nil => rfl
            | cons w ws =>
              have := (this.mem_iff w).mp (by simp)
              cases this
          unfold chooses
          rw [r3.mp hw0, hne]
          exact ⟨fun _ => rfl, fun _ => rfl⟩
        · have hlen : clauseBody updateClauses L!"WHERE" (lex d t) ≠ [] := fun h0 => by
            have := C20_update_partial cx n _ _ hw' hwe'
            rw [← hrun, r3.mpr h0] at this
            obtain ⟨p, hp⟩ := List.exists_mem_of_ne_nil _ hne
            have := (this.mem_iff (condOf p.1 p.2)).mpr
              (List.mem_map_of_mem (f := fun p : Obj × Obj => condOf p.1 p.2) hp)
            cases this
          have key := C56_update_partial hf (hh row) hwe' (n := n) (m := m) (t := t) (by exact hne) hw'
            (by rw [← hrun]; exact h) (by rw [← hrun]; exact e)
          unfold chooses
          simp only [key, hlen, decide_false, Bool.false_or, decide_eq_true_eq]
          exact Iff.rfl
      by_cases hb : chooses sv updateClauses (lex d t) row = true
      · rw [if_pos hb, if_pos (hch.mp hb), r2]
      · rw [if_neg hb, if_neg (fun k => hb (hch.mpr k))]
    · rw [if_neg htb, if_neg htb]

private theorem delete_read (hf : Fits cx d) {column : Str → List Tok} (hc : NamesSeen cx d column) {q : Delete}
    {name : Str} {n : Nat} {t : Str} (hq : q.references = [⟨.str name, .none, []⟩])
    (h : NoRaw cx.backend.quote .stmt (.delete q)) (e : (sem cx n).str (.delete q) = .ok t) :
    clauseBody deleteClauses L!"FROM" (lex d t) = column name ∧
    (q.where_ = [] ↔ clauseBody deleteClauses L!"WHERE" (lex d t) = []) := by
  obtain ⟨m, hs, he, r⟩ := stmt_level hf h e
  have hs : safeDelete cx.backend.quote (Safe cx.backend.quote m) q := hs
  have hr : toks cx d (m + 1) (.delete q) = deleteToks cx (sem cx m) d (toks cx d m) q := rfl
  rw [r, hr]
  have ih := phrases_sem cx d m
  have htab : safeTable cx.backend.quote (Safe cx.backend.quote m) ⟨.str name, .none, []⟩ :=
    hs.2.1 _ (by rw [hq]; simp)
  refine ⟨?_, nowhere_delete ih hs, fun he => ?_⟩
  · rw [from_delete ih hs, hq, tablesToks_one, column_toks hf hc htab.1.1]
  · by_contra hne
    rw [where_delete ih hs hne] at he
    exact conj_ne hne hs.2.2 he

/-- C68 for DELETE: `delete_from(table)`, then any calls of `where`, `ignore`, `allow_delete_all` and so on. The
statement deletes from its table the rows in which all the conditions given are true, and no others, in no other table. -/
theorem C68_delete_partial (hf : Fits cx d) {column : Str → List Tok} {holds : Tuple V → Obj → Tri}
    (hc : NamesSeen cx d column) (hh : ConditionsSeen cx d sv holds) {name : Str} (hname : name ≠ []) {n m : Nat}
    {q0 : Delete} (hq : mkDeleteFrom cx (sem cx (n + 2)) { pos := [.str name] } = .ok q0) {ops : List DeleteOp}
    (hk : ∀ op ∈ ops, KeepsFrom op) {conds : List (List (Obj × Obj))} (hw : List.Forall₂ DeletePairs ops conds)
    (hwe : ∀ ps ∈ conds, ∀ p ∈ ps, ExactCond p) {t : Str}
    (h : NoRaw cx.backend.quote .stmt (.delete (runOps (deleteStep cx (sem cx (n + 2))) q0 ops)))
    (e : (sem cx m).str (.delete (runOps (deleteStep cx (sem cx (n + 2))) q0 ops)) = .ok t) (db : Database V) :
    carryOutDelete sv (lex d t) db = fun tb =>
      if tb = column name then
        (db tb).filter fun row =>
          !decide (Tri.all (conds.flatten.map fun p => holds row (.conds [condOf p.1 p.2])) = .t)
      else db tb := by
  obtain ⟨ch, cs, rfl⟩ := List.exists_cons_of_ne_nil hname
  have h0 : q0 = { references := [⟨.str (ch :: cs), .none, []⟩] } := by injection hq with hq; exact hq.symm
  have hrun : runOps (deleteStep cx (sem cx (n + 2))) q0 ops =
      runOps (deleteStep cx (sem cx (n + 2))) {} (.from_ { pos := [.str (ch :: cs)] } :: ops) := by rw [h0]; rfl
  have htab := keeps_delete (cx := cx) (sem cx (n + 2)) (ts := [⟨.str (ch :: cs), .none, []⟩]) (by simp) hk q0
    (by rw [h0]) (by rw [h0])
  have hw' : List.Forall₂ DeletePairs (.from_ { pos := [.str (ch :: cs)] } :: ops) ([] :: conds) := .cons rfl hw
  have hwe' : ∀ ps ∈ [] :: conds, ∀ p ∈ ps, ExactCond p := by
    intro ps hps p hp
    rcases List.mem_cons.mp hps with rfl | hps
    · cases hp
    · exact hwe ps hps p hp
  obtain ⟨r1, r3⟩ := delete_read hf hc htab h e
  have huses := C20_delete_partial cx n _ _ hw' hwe'
  rw [← hrun] at huses
  funext tb
  unfold carryOutDelete
  rw [r1]
  by_cases htb : tb = column (ch :: cs)
  · rw [if_pos htb, if_pos htb]
    refine List.filter_congr fun row _ => ?_
    congr 1
    by_cases hne : conds.flatten = []
    · have hw0 : (runOps (deleteStep cx (sem cx (n + 2))) q0 ops).where_ = [] := by
        have hz : ([] :: conds).flatten = [] := hne
        rw [hz] at huses
        generalize hg : (runOps (deleteStep cx (sem cx (n + 2))) q0 ops).where_ = ws at huses
        cases ws with
        | nil => rfl
        | cons w ws =>
          have := (huses.mem_iff w).mp (by simp)
          cases this
      unfold chooses
      rw [r3.mp hw0, hne]
      rfl
    · have hlen : clauseBody deleteClauses L!"WHERE" (lex d t) ≠ [] := fun h0 => by
        rw [r3.mpr h0] at huses
        obtain ⟨p, hp⟩ := List.exists_mem_of_ne_nil _ hne
        have := (huses.mem_iff (condOf p.1 p.2)).mpr
          (List.mem_map_of_mem (f := fun p : Obj × Obj => condOf p.1 p.2) hp)
        cases this
      have key := C56_delete_partial hf (hh row) hwe' (n := n) (m := m) (t := t) (by exact hne) hw'
        (by rw [← hrun]; exact h) (by rw [← hrun]; exact e)
      unfold chooses
      simp only [key, hlen, decide_false, Bool.false_or]
      rfl
  · rw [if_neg htb, if_neg htb]

private theorem map_pairs {α β γ : Type} {r : α → β → Prop} {xs : List α} {ys : List β} (h : List.Forall₂ r xs ys)
    {f : β → γ} {g : α → γ} (hfg : ∀ x y, r x y → f y = g x) : ys.map f = xs.map g := by
  induction h with
  | nil => rfl
  | cons h1 _ ih => rw [List.map_cons, List.map_cons, ih, hfg _ _ h1]

private theorem newTuple_other (sv : Server V) {w : Str → List Tok} {z : Str → List Tok} {cols : List Str} {x : List Tok}
    (h : ∀ c ∈ cols, x ≠ w c) : newTuple sv (cols.map w) (cols.map z) x = sv.default x := by
  induction cols with
  | nil => rfl
  | cons c cs ih =>
    refine (if_neg (h c List.mem_cons_self)).trans ?_
    exact ih fun c hc => h c (List.mem_cons_of_mem _ hc)

private theorem newTuple_here (sv : Server V) {w : Str → List Tok} {z : Str → List Tok} {cols : List Str}
    (hd : ∀ c ∈ cols, ∀ c' ∈ cols, w c = w c' → c = c') {c : Str} (h : c ∈ cols) :
    newTuple sv (cols.map w) (cols.map z) (w c) = sv.literal (z c) := by
  induction cols with
  | nil => cases h
  | cons c' cs ih =>
    by_cases e : w c = w c'
    · have := hd c h c' List.mem_cons_self e
      subst this
      exact if_pos rfl
    · refine (if_neg e).trans ?_
      rcases List.mem_cons.mp h with rfl | h
      · exact absurd rfl e
      · exact ih (fun a ha b hb => hd a (List.mem_cons_of_mem _ ha) b (List.mem_cons_of_mem _ hb)) h

/-- C68 for INSERT: `insert_into(table)`, then a call `values(**row)` for each row. The statement adds to its table one
row per call, in this order, and changes nothing else; each new row has in every column used by some call the value
given for it in its own call, `NULL` if there is none, and its default in every other column. -/
theorem C68_insert_partial (hf : Fits cx d) {column : Str → List Tok} {value : Obj → V}
    (hc : NamesSeen cx d column) (hv : ValuesSeen cx d sv value) {table : Str} (hname : table ≠ []) {n m : Nat}
    {q0 : Insert} (hq : mkInsertInto cx (sem cx (n + 1)) (.str table) = .ok q0) {rows : List Row} (hne : rows ≠ [])
    (hk : ∀ r ∈ rows, KwFree r) (hn : ∀ r ∈ rows, (r.map Prod.fst).Nodup)
    (hfit : ∀ r ∈ rows, ∀ p ∈ r, Fit .setValue p.2)
    (hd : ∀ r ∈ rows, ∀ p ∈ r, ∀ r' ∈ rows, ∀ p' ∈ r', column p.1 = column p'.1 → p.1 = p'.1) {t : Str}
    (h : NoRaw cx.backend.quote .stmt (.insert (runOps (insertStep cx (sem cx (n + 1))) q0
      (rows.map fun r => .values { kw := r }))))
    (e : (sem cx m).str (.insert (runOps (insertStep cx (sem cx (n + 1))) q0
      (rows.map fun r => .values { kw := r }))) = .ok t) (db : Database V) :
    ∃ new : Row → Tuple V,
      (∀ row ∈ rows, ∀ r ∈ rows, ∀ p ∈ r, new row (column p.1) = value (given row p.1)) ∧
      (∀ row ∈ rows, ∀ x, (∀ r ∈ rows, ∀ p ∈ r, x ≠ column p.1) → new row x = sv.default x) ∧
      carryOutInsert sv (lex d t) db = fun tb =>
        if tb = column table then db tb ++ rows.map new else db tb := by
  obtain ⟨ch, cs, rfl⟩ := List.exists_cons_of_ne_nil hname
  have h0 : q0 = { tables := [⟨.str (ch :: cs), .none, []⟩] } := by injection hq with hq; exact hq.symm
  obtain ⟨rows', hp, hr⟩ := values_run cx n q0 rows hk hn hfit
  rw [hr] at h e
  subst h0
  have hrows : ({ tables := [⟨.str (ch :: cs), .none, []⟩] } : Insert).rows ++ rows'.map rowOf = rows'.map rowOf := rfl
  obtain ⟨k, hs, he, hlex⟩ := stmt_level hf h e
  obtain ⟨cols, hcols, hlist⟩ := allColumns_spec rows'
  have hic : insertColumns (rows'.map rowOf) = cols := by unfold insertColumns; rw [hcols]
  have hne' : rows' ≠ [] := by
    rintro rfl
    cases hp
    exact hne rfl
  have hsafe : safeInsert cx.backend.quote (Safe cx.backend.quote k)
      ({ tables := [⟨.str (ch :: cs), .none, []⟩], rows := rows'.map rowOf } : Insert) := hs
  have ih := phrases_sem cx d k
  have key := insert_read (S := sem cx k) (d := d) ih hsafe (name := ch :: cs) rfl (by simpa using hne') rfl rfl sv db
  rw [hlex]
  have htab : safeTable cx.backend.quote (Safe cx.backend.quote k) ⟨.str (ch :: cs), .none, []⟩ :=
    hsafe.1 _ (by simp)
  -- the texts of the values
  have he' : insertText cx (sem cx k) { tables := [⟨.str (ch :: cs), .none, []⟩], rows := rows'.map rowOf } =
    .ok t := he
  unfold insertText at he'
  simp only [bind_ok] at he'
  obtain ⟨_, _, _, _, _, _, _, _, _, _, x, hx, _⟩ := he'
  obtain ⟨u, hu⟩ := clause_text_ok hx (by simpa using hne')
  obtain ⟨cols', _, cells, hlist', _, hcells, _⟩ := (rowsText_rowOf cx k).mp hu
  have hused : ∀ c, c ∈ cols ↔ ∃ r ∈ rows, ∃ v, (c, v) ∈ r := by
    intro c
    rw [hlist.used]
    constructor
    · rintro ⟨r', hr', v, hm⟩
      obtain ⟨r, hr, hperm, _⟩ := mapR_mem_ok hp.flip hr'
      exact ⟨r, hr, v, hperm.mem_iff.mpr hm⟩
    · rintro ⟨r, hr, v, hm⟩
      obtain ⟨r', hr', hperm, _⟩ := mapR_mem_ok hp hr
      exact ⟨r', hr', v, hperm.mem_iff.mp hm⟩
  have hcol : ∀ c ∈ cols, column c = refToks (refParts cx.backend.quote c) := by
    intro c hm
    have := (insertColumns_spec (q := cx.backend.quote) hsafe.2.1 (by simpa using hne')).2.2 c (by rw [hic]; exact hm)
    exact column_toks hf hc this
  have hval : ∀ row ∈ rows, ∀ c ∈ cols,
      value (given row c) = sv.literal (valToks cx d (toks cx d k) (given row c)) := by
    intro row hrow c hm
    obtain ⟨row', hrow', hperm, hnd⟩ := mapR_mem_ok hp hrow
    obtain ⟨cl, _, hcl⟩ := mapR_mem_ok hcells hrow'
    obtain ⟨cell, _, hcell⟩ := mapR_mem_ok hcl ((hlist'.used c).mpr ((hlist.used c).mp hm))
    have hg := given_perm hperm hnd c
    have hsv := safe_lookup c (hsafe.2.1 (rowOf row') (List.mem_map_of_mem hrow')).2
    rw [lookupValue_given, ← hg] at hsv
    rw [← hg] at hcell
    exact value_toks hf hv hsv hcell
  have hdc : ∀ c ∈ cols, ∀ c' ∈ cols, column c = column c' → c = c' := by
    intro c h1 c' h2 e
    obtain ⟨r, hr, v, hm⟩ := (hused c).mp h1
    obtain ⟨r', hr', v', hm'⟩ := (hused c').mp h2
    exact hd r hr (c, v) hm r' hr' (c', v') hm' e
  have hcm : cols.map column = cols.map fun c => refToks (refParts cx.backend.quote c) := List.map_congr_left hcol
  refine ⟨fun row => newTuple sv (cols.map column) (cols.map fun c => valToks cx d (toks cx d k) (given row c)),
    ?_, ?_, ?_⟩
  · intro row hrow r hr p hp
    have hm := (hused p.1).mpr ⟨r, hr, p.2, hp⟩
    rw [hval row hrow p.1 hm]
    exact newTuple_here sv hdc hm
  · intro row _ x hx
    refine newTuple_other sv fun c hm => ?_
    obtain ⟨r, hr, v, hm⟩ := (hused c).mp hm
    exact hx r hr (c, v) hm
  · refine key.trans ?_
    funext tb
    rw [column_toks hf hc htab.1.1]
    split
    · congr 1
      show (rows'.map rowOf).map _ = _
      rw [List.map_map]
      simp only [Function.comp_def, hic, lookupValue_given, ← hcm]
      refine map_pairs hp fun r r' hrr => ?_
      simp only [given_perm hrr.1 hrr.2]
    · rfl

end

/-- What the server sees of names, values and conditions always exists. -/
theorem C68_seen_exists (cx : Ctx) (d : Dialect) {V : Type} (sv : Server V) :
    (∃ column, NamesSeen cx d column) ∧ (∃ value, ValuesSeen cx d sv value) ∧ ∃ holds, ConditionsSeen cx d sv holds := by
  classical
  have same : ∀ {o : Obj} {n m : Nat} {u w : Str}, (sem cx n).str o = .ok u → (sem cx m).str o = .ok w → u = w := by
    intro o n m u w h1 h2
    have a := ((sem_le cx (Nat.le_max_left n m)).str o).ok h1
    have b := ((sem_le cx (Nat.le_max_right n m)).str o).ok h2
    rw [a] at b
    injection b
  refine ⟨⟨fun c => lex d (reference cx.backend.quote c), ?_⟩, ⟨fun v =>
    if h : ∃ u n, (sem cx n).str (.sqlValue v) = .ok u then sv.literal (lex d h.choose) else sv.literal [], ?_⟩, ?_⟩
  · intro c n u e
    rw [same e (show (sem cx 1).str (.sqlRef (.str c)) = .ok (reference cx.backend.quote c) from rfl)]
  · intro v n u e
    have h : ∃ u n, (sem cx n).str (.sqlValue v) = .ok u := ⟨u, n, e⟩
    obtain ⟨k, hk⟩ := h.choose_spec
    simp only [dif_pos h, same hk e]
  · refine ⟨fun row => (C36_leaf_exists cx d (sv.predicate row)).choose, fun row => ?_⟩
    exact (C36_leaf_exists cx d (sv.predicate row)).choose_spec

/-- C68 for UPDATE in full: the value set last is left in every column, whatever was set before. -/
def C68_claim : Prop :=
  ∀ (cx : Ctx) (d : Dialect) (V : Type) (sv : Server V) (column : Str → List Tok) (value : Obj → V) (name : Str)
    (n m : Nat) (q0 : Update) (ops : List UpdateOp) (sets : List (List (Obj × Obj))) (t : Str) (db : Database V),
    Fits cx d → NamesSeen cx d column → ValuesSeen cx d sv value → name ≠ [] →
    mkUpdate cx (sem cx (n + 2)) (.str name) = .ok q0 → (∀ op ∈ ops, KeepsTable op) →
    List.Forall₂ SetPairs ops sets → (∀ ps ∈ sets, ∀ p ∈ ps, ExactAssignment p) →
    NoRaw cx.backend.quote .stmt (.update (runOps (updateStep cx (sem cx (n + 2))) q0 ops)) →
    (sem cx m).str (.update (runOps (updateStep cx (sem cx (n + 2))) q0 ops)) = .ok t →
    (∀ row, chooses sv updateClauses (lex d t) row = true) →
    ∀ c v, LastValue sets.flatten (.str c) v → ∀ row ∈ carryOutUpdate sv (lex d t) db (column name),
      row (column c) = value v

private def tokenServer : Server (List Tok) := ⟨id, fun _ _ => .t, fun _ => []⟩

private def setBack : List UpdateOp :=
  [.allowUpdateAll, .set { kw := [(L!"a", .int 1)] }, .set { kw := [(L!"a", .int 2)] },
    .set { kw := [(L!"a", .int 1)] }]

private theorem setA (i : Int) : SetPairs (.set { kw := [(L!"a", .int i)] }) [(.str L!"a", .int i)] :=
  .usual .nothing ⟨[(L!"a", .int i)], .refl _, by simp, rfl⟩ (by simp [KwFree])

/-- It is false: `update('t').allow_update_all().set(a=1).set(a=2).set(a=1)` leaves 2 in the column. -/
theorem C68_refuted : ¬ C68_claim := by
  intro h
  obtain ⟨⟨column, hc⟩, ⟨value, hv⟩, _⟩ := C68_seen_exists cx0 standardDialect tokenServer
  have key := h cx0 standardDialect (List Tok) tokenServer column value L!"t" 2 6
    { tables := [⟨.str L!"t", .none, []⟩] } setBack
    [[], [(.str L!"a", .int 1)], [(.str L!"a", .int 2)], [(.str L!"a", .int 1)]]
    L!"UPDATE \"t\" SET \"a\" = 1, \"a\" = 2" (fun _ => [fun _ => []]) rfl hc hv (by decide) rfl
    (by intro op hop; simp only [setBack, List.mem_cons, List.not_mem_nil, or_false] at hop
        rcases hop with rfl | rfl | rfl | rfl <;> trivial)
    (.cons rfl (.cons (setA 1) (.cons (setA 2) (.cons (setA 1) .nil))))
    (by simp [ExactAssignment, ExactScalar]) ⟨6, by decide +kernel⟩ (by decide +kernel)
    (fun row => by
      have : clauseBody updateClauses L!"WHERE" (lex standardDialect L!"UPDATE \"t\" SET \"a\" = 1, \"a\" = 2") = [] := by
        decide +kernel
      unfold chooses
      rw [this]
      rfl) L!"a" (.int 1)
    (LastValue.here [((.str L!"a", .int 1) : Obj × Obj), (.str L!"a", .int 2)] (.str L!"a") (.int 1))
  have ht : column L!"t" = [.ident L!"t"] := by
    rw [hc L!"t" 1 L!"\"t\"" (by decide +kernel)]
    decide +kernel
  have ha : column L!"a" = [.ident L!"a"] := by
    rw [hc L!"a" 1 L!"\"a\"" (by decide +kernel)]
    decide +kernel
  have hone : value (.int 1) = [.num L!"1"] := by
    rw [hv (.int 1) 1 L!"1" (by decide +kernel)]
    decide +kernel
  rw [ht, ha, hone] at key
  have hrun : (carryOutUpdate tokenServer (lex standardDialect L!"UPDATE \"t\" SET \"a\" = 1, \"a\" = 2")
      (fun _ => [fun _ => []]) [.ident L!"t"]).map (fun row => row [.ident L!"a"]) = [[.num L!"2"]] := by
    decide +kernel
  obtain ⟨row, hrow, e⟩ := List.mem_map.mp (show [Tok.num L!"2"] ∈ (carryOutUpdate tokenServer
    (lex standardDialect L!"UPDATE \"t\" SET \"a\" = 1, \"a\" = 2") (fun _ => [fun _ => []]) [.ident L!"t"]).map
    (fun row => row [.ident L!"a"]) by rw [hrun]; simp)
  rw [key row hrow] at e
  revert e
  decide

/-- Calls that meet the hypotheses: `update('t').set(a=1).where('b', 'x').set(a=2)`. -/
private def changed : List UpdateOp :=
  [.set { kw := [(L!"a", .int 1)] }, .where_ { pos := [.str L!"b", .str L!"x"] }, .set { kw := [(L!"a", .int 2)] }]

private theorem whereB : GivesPairs { pos := [.str L!"b", .str L!"x"] } [(.str L!"b", .str L!"x")] :=
  .usual (ps := [(.str L!"b", .str L!"x")]) (.direct _ (by rintro _ ⟨⟩)) ⟨[], .nil, .nil, rfl⟩ (by simp [KwFree])

example : mkUpdate cx0 (sem cx0 4) (.str L!"t") = .ok { tables := [⟨.str L!"t", .none, []⟩] } ∧
    (∀ op ∈ changed, KeepsTable op) ∧
    List.Forall₂ SetPairs changed [[(.str L!"a", .int 1)], [], [(.str L!"a", .int 2)]] ∧
    List.Forall₂ UpdatePairs changed [[], [(.str L!"b", .str L!"x")], []] ∧
    ExactCond (.str L!"b", .str L!"x") ∧ ExactAssignment (.str L!"a", .int 1) ∧
    NoReturn [[(.str L!"a", .int 1)], [], [((.str L!"a", .int 2) : Obj × Obj)]].flatten ∧
    NoRaw '"' .stmt (.update (runOps (updateStep cx0 (sem cx0 4)) { tables := [⟨.str L!"t", .none, []⟩] } changed)) ∧
    (sem cx0 6).str (.update (runOps (updateStep cx0 (sem cx0 4)) { tables := [⟨.str L!"t", .none, []⟩] } changed)) =
      .ok L!"UPDATE \"t\" SET \"a\" = 1, \"a\" = 2 WHERE \"b\" = 'x'" := by
  refine ⟨rfl, ?_, .cons (setA 1) (.cons rfl (.cons (setA 2) .nil)), .cons rfl (.cons whereB (.cons rfl .nil)),
    ⟨⟨_, rfl⟩, trivial⟩, ⟨⟨_, rfl⟩, trivial⟩, ?_, ⟨6, by decide +kernel⟩, by decide +kernel⟩
  · intro op hop
    simp only [changed, List.mem_cons, List.not_mem_nil, or_false] at hop
    rcases hop with rfl | rfl | rfl <;> trivial
  · rw [show [[(.str L!"a", .int 1)], [], [((.str L!"a", .int 2) : Obj × Obj)]].flatten =
      ([] ++ [(.str L!"a", .int 1)]) ++ [(.str L!"a", .int 2)] from rfl, noReturn_snoc, noReturn_snoc]
    exact ⟨⟨by intro a b k v e; simp at e, by simp⟩, by simp⟩

/-- `delete_from('t').where('b', 'x')`, and `insert_into('t').values(a=1).values(b='x')`. -/
example : mkDeleteFrom cx0 (sem cx0 4) { pos := [.str L!"t"] } = .ok { references := [⟨.str L!"t", .none, []⟩] } ∧
    List.Forall₂ DeletePairs [.where_ { pos := [.str L!"b", .str L!"x"] }] [[(.str L!"b", .str L!"x")]] ∧
    NoRaw '"' .stmt (.delete (runOps (deleteStep cx0 (sem cx0 4)) { references := [⟨.str L!"t", .none, []⟩] }
      [.where_ { pos := [.str L!"b", .str L!"x"] }])) ∧
    (sem cx0 6).str (.delete (runOps (deleteStep cx0 (sem cx0 4)) { references := [⟨.str L!"t", .none, []⟩] }
      [.where_ { pos := [.str L!"b", .str L!"x"] }])) = .ok L!"DELETE FROM \"t\" WHERE \"b\" = 'x'" :=
  ⟨rfl, .cons whereB .nil, ⟨6, by decide +kernel⟩, by decide +kernel⟩

example : mkInsertInto cx0 (sem cx0 4) (.str L!"t") = .ok { tables := [⟨.str L!"t", .none, []⟩] } ∧
    NoRaw '"' .stmt (.insert (runOps (insertStep cx0 (sem cx0 4)) { tables := [⟨.str L!"t", .none, []⟩] }
      ([[(L!"a", .int 1)], [(L!"b", .str L!"x")]].map fun r => .values { kw := r }))) ∧
    (sem cx0 6).str (.insert (runOps (insertStep cx0 (sem cx0 4)) { tables := [⟨.str L!"t", .none, []⟩] }
      ([[(L!"a", .int 1)], [(L!"b", .str L!"x")]].map fun r => .values { kw := r }))) =
      .ok L!"INSERT INTO \"t\" (\"a\", \"b\") VALUES (1, NULL), (NULL, 'x')" :=
  ⟨rfl, ⟨6, by decide +kernel⟩, by decide +kernel⟩

end SqlPuzzle
