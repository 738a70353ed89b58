import Verif.Proofs.Accepted
import Verif.Proofs.Minimize
import Verif.Proofs.Changes
import Verif.Proofs.Written
import Verif.Spec.AcceptedChanges

/-!
Reading the tables of a statement.
-/

namespace SqlPuzzle

open Spec

theorem collapse_types {g : Join × List Join} {j : Join} (h : j ∈ collapseGroup g) :
    j.type = .inner ∨ ∃ j0 ∈ g.1 :: g.2, j.type = j0.type := by
  unfold collapseGroup at h
  simp only at h
  split at h
  · rw [List.mem_singleton.mp h]; exact .inl rfl
  · split at h
    · rw [List.mem_singleton.mp h]; exact .inr ⟨g.1, by simp, rfl⟩
    · exact .inr ⟨j, h, rfl⟩

section
variable {cx : Ctx} {S : Sem} {d : Dialect} {T : Obj → List Tok} {P : Kind → Obj → Prop}

theorem minimize_types {js js' : List Join} (h : minimizeJoins cx S js = .ok js') {j : Join}
    (hj : j ∈ js') : j.type = .inner ∨ ∃ j0 ∈ js, j.type = j0.type := by
  unfold minimizeJoins at h
  rw [bind_ok] at h
  obtain ⟨gs, h1, h2⟩ := h
  cases h2
  obtain ⟨g, hg, hj⟩ := List.mem_flatMap.mp hj
  rcases collapse_types hj with h | ⟨j0, h0, h3⟩
  · exact .inl h
  refine .inr ⟨j0, ?_, h3⟩
  have := (groupJoins_members cx S h1).mem_iff (a := j0)
  simp only [members, List.flatMap_nil, List.nil_append] at this
  exact this.mp (List.mem_flatMap.mpr ⟨g, hg, h0⟩)

theorem safe_kept {t : Table} (h : safeTable cx.backend.quote P t) {j : Join} (hj : j ∈ keptJoins cx S t) :
    safeJoin cx.backend.quote P j := by
  unfold keptJoins at hj
  split at hj
  · next js e =>
    obtain ⟨j0, h0, h1, h2, h3⟩ := minimizeJoins_mem cx S e hj
    have := h.2 j0 h0
    unfold safeJoin at this ⊢
    rw [h1, h2, h3]
    exact this
  · cases hj

theorem commas_tables (ih : Phrases T P) {ts : List Table} (hne : ts ≠ [])
    (h : ∀ t ∈ ts, safeTable cx.backend.quote P t) :
    pieces (.sym ',') (tablesToks cx S d T [] ts) = ts.map (tableToks cx S d T) := by
  have e1 : tablesToks cx S d T [] ts = joinT [.sym ','] (ts.map (tableToks cx S d T)) := by
    unfold tablesToks
    have : ts.isEmpty = false := by simpa using hne
    rw [this]
    rfl
  rw [e1]
  refine pieces_joinT (by simpa using hne) ?_ (by decide) (by decide)
  intro x hx
  obtain ⟨t, ht, rfl⟩ := List.mem_map.mp hx
  exact ((aliased_facts ih (h t ht).1).1 _ (by decide)).append (whole_joins ih fun j hj => safe_kept (h t ht) hj)

theorem joins_table (ih : Phrases T P) {t : Table} (h : safeTable cx.backend.quote P t) :
    pieces (.word L!"JOIN") (tableToks cx S d T t) =
      joinPieces cx d T (aliasedToks cx T t.name t.alias) (keptJoins cx S t) :=
  pieces_joins ih (fun j hj => safe_kept h hj) ((aliased_facts ih h.1).1 _ (by decide))

theorem joinPieces_length (ts : List Tok) (js : List Join) : (joinPieces cx d T ts js).length = js.length + 1 := by
  induction js generalizing ts with
  | nil => rfl
  | cons j js ih => rw [joinPieces, List.length_cons, ih, List.length_cons]

theorem tablesToks_ne (ih : Phrases T P) {ts : List Table} (h : ∀ t ∈ ts, safeTable cx.backend.quote P t) :
    tablesToks cx S d T [] ts = [] ↔ ts = [] := by
  constructor
  · intro e0
    by_contra hne
    have hp := commas_tables (S := S) (d := d) ih hne h
    rw [e0] at hp
    have hp : [[]] = ts.map (tableToks cx S d T) := hp
    have hm : ([] : List Tok) ∈ ts.map (tableToks cx S d T) := by rw [← hp]; simp
    obtain ⟨b, hb, eb⟩ := List.mem_map.mp hm
    have := (expr_word (w := L!"FROM") (by decide) (g_ref ih (h b hb).1.1)).2.1
    unfold tableToks aliasedToks at eb
    simp only [List.append_eq_nil_iff] at eb
    exact this eb.1.1
  · rintro rfl; rfl

theorem kept_nil {t : Table} (hm : ∃ js, minimizeJoins cx S t.joins = .ok js) : keptJoins cx S t = [] ↔ t.joins = [] := by
  obtain ⟨js, e⟩ := hm
  have hk : keptJoins cx S t = js := by unfold keptJoins; rw [e]
  rw [hk]
  constructor
  · rintro rfl
    by_contra hne
    exact minimizeJoins_ne_nil cx S e hne rfl
  · intro h
    rw [h] at e
    injection e with e
    exact e.symm

theorem onlyTable_iff (ih : Phrases T P) {ts : List Table} (h : ∀ t ∈ ts, safeTable cx.backend.quote P t)
    (hm : ∀ t ∈ ts, ∃ js, minimizeJoins cx S t.joins = .ok js) :
    onlyTable (tablesToks cx S d T [] ts) = true ↔ OneTable ts := by
  unfold onlyTable
  by_cases hne : ts = []
  · subst hne
    constructor
    · intro h; simp [tablesToks, optToks] at h
    · rintro ⟨t, e, _⟩; cases e
  have h0 : tablesToks cx S d T [] ts ≠ [] := fun e => hne ((tablesToks_ne ih h).mp e)
  rw [commas_tables ih hne h]
  simp only [h0, ne_eq, not_false_eq_true, decide_true, Bool.true_and, Bool.and_eq_true, beq_iff_eq, List.length_map]
  constructor
  · rintro ⟨h1, h2⟩
    obtain ⟨t, rfl⟩ := List.length_eq_one_iff.mp h1
    refine ⟨t, rfl, (kept_nil (hm t (by simp))).mp ?_⟩
    have e : tablesToks cx S d T [] [t] = tableToks cx S d T t := by
      simp [tablesToks, optToks, words, commas, joinT]
    rw [e, joins_table ih (h t (by simp)), joinPieces_length] at h2
    exact List.length_eq_zero_iff.mp (by omega)
  · rintro ⟨t, rfl, hj⟩
    refine ⟨rfl, ?_⟩
    have e : tablesToks cx S d T [] [t] = tableToks cx S d T t := by
      simp [tablesToks, optToks, words, commas, joinT]
    rw [e, joins_table ih (h t (by simp)), joinPieces_length, (kept_nil (hm t (by simp))).mpr hj]
    rfl

theorem joinPieces_kinds (ih : Phrases T P) {ts : List Tok} {js : List Join}
    (h : ∀ j ∈ js, safeJoin cx.backend.quote P j) (hk : Kindless ts) :
    ((joinPieces cx d T ts js).dropLast.map fun p => (cutKind p).2) = js.map fun j => kindSeen j.type := by
  induction js generalizing ts with
  | nil => rfl
  | cons j js ih' =>
    have hne : joinPieces cx d T (joinedToks cx d T j) js ≠ [] := by
      intro e
      have := joinPieces_length (cx := cx) (d := d) (T := T) (joinedToks cx d T j) js
      rw [e] at this
      cases this
    rw [joinPieces, List.dropLast_cons_of_ne_nil hne, List.map_cons, cutKind_kind hk,
      ih' (fun k hk => h k (by simp [hk])) (joined_facts ih (h j (by simp))).2]
    rfl

theorem joinKinds_tables (ih : Phrases T P) {ts : List Table} (h : ∀ t ∈ ts, safeTable cx.backend.quote P t) :
    joinKinds (tablesToks cx S d T [] ts) = ts.flatMap fun t => (keptJoins cx S t).map fun j => kindSeen j.type := by
  unfold joinKinds
  by_cases hne : ts = []
  · subst hne; rfl
  rw [commas_tables ih hne h, List.flatMap_map]
  refine List.flatMap_congr fun t ht => ?_
  rw [joins_table ih (h t ht), joinPieces_kinds ih (fun j hj => safe_kept (h t ht) hj) (aliased_facts ih (h t ht).1).2]

theorem ignore_head (ih : Phrases T P) {ts : List Table} (h : ∀ t ∈ ts, safeTable cx.backend.quote P t) (b : Bool)
    {w : Str} {r : List Tok} (hw : w ≠ L!"IGNORE") :
    ((optToks b (words [L!"IGNORE"]) ++ (tablesToks cx S d T [] ts ++ .word w :: r)).head? =
      some (.word L!"IGNORE")) ↔ b = true := by
  have hq := (quiet_tables (S := S) (d := d) (ws := [L!"IGNORE"]) ih (by decide) h).head (w := L!"IGNORE") (by simp)
  cases b with
  | true => simp [optToks, words]
  | false =>
    simp only [optToks, Bool.false_eq_true, if_false, List.nil_append, iff_false]
    cases ht : tablesToks cx S d T [] ts with
    | nil => simpa using hw
    | cons t ts =>
      rw [ht] at hq
      simpa using hq

theorem afterIgnore_tables (ih : Phrases T P) {ts : List Table} (h : ∀ t ∈ ts, safeTable cx.backend.quote P t)
    (b : Bool) : afterIgnore (optToks b (words [L!"IGNORE"]) ++ tablesToks cx S d T [] ts) =
      tablesToks cx S d T [] ts := by
  have hq := (quiet_tables (S := S) (d := d) (ws := [L!"IGNORE"]) ih (by decide) h).head (w := L!"IGNORE") (by simp)
  cases b with
  | true => rfl
  | false =>
    show afterIgnore (tablesToks cx S d T [] ts) = _
    unfold afterIgnore
    split
    · next w r e =>
      rw [e] at hq
      split
      · next hw => subst hw; simp at hq
      · exact e.symm
    · rfl

end

end SqlPuzzle
