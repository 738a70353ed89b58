import Verif.Proofs.Inserted
import Verif.Props.Written
import Verif.Props.Inserts
import Verif.Props.Assign

/-!
C77: what an INSERT tells a server.
-/

namespace SqlPuzzle

open Spec

private def cx0 : Ctx := ⟨.mysql, ⟨id, id, fun _ => true, fun _ => [], fun _ => []⟩⟩

section
variable {cx : Ctx} {d : Dialect} {V : Type} {sv : Server V} {ref lit : Obj → List Tok}

private theorem tuple_other {w : Str → List Tok} {z : Str → List Tok} {cols : List Str} {x : List Tok}
    (h : ∀ c ∈ cols, x ≠ w c) : newTuple sv (cols.map w) (cols.map z) x = sv.default x := by
  induction cols with
  | nil => rfl
  | cons c cs ih =>
    refine (if_neg (h c List.mem_cons_self)).trans ?_
    exact ih fun c hc => h c (List.mem_cons_of_mem _ hc)

private theorem tuple_here {w : Str → List Tok} {z : Str → List Tok} {cols : List Str}
    (hd : ∀ c ∈ cols, ∀ c' ∈ cols, w c = w c' → c = c') {c : Str} (h : c ∈ cols) :
    newTuple sv (cols.map w) (cols.map z) (w c) = sv.literal (z c) := by
  induction cols with
  | nil => cases h
  | cons c' cs ih =>
    by_cases e : w c = w c'
    · have := hd c h c' List.mem_cons_self e
      subst this
      exact if_pos rfl
    · refine (if_neg e).trans ?_
      rcases List.mem_cons.mp h with rfl | h
      · exact absurd rfl e
      · exact ih (fun a ha b hb => hd a (List.mem_cons_of_mem _ ha) b (List.mem_cons_of_mem _ hb)) h

private theorem name_ref (hf : Fits cx d) (hr : RefsSeen cx d ref) {c : Str} (h : SafeName cx.backend.quote c) :
    refToks (refParts cx.backend.quote c) = ref (.str c) := by
  have e : (sem cx 1).str (.sqlRef (.str c)) = .ok (reference cx.backend.quote c) := rfl
  rw [hr (.str c) 1 _ e, (rt_reference hf h).reads.lex]

private theorem ref_of (hf : Fits cx d) (hr : RefsSeen cx d ref) {m : Nat} {o : Obj} {u : Str}
    (h : safeRef cx.backend.quote (Safe cx.backend.quote m) o) (e : sqlRefText cx (sem cx m) o = .ok u) :
    refToksOf cx (toks cx d m) o = ref o := by
  rw [hr o (m + 1) u e, (rt_ref hf (inner_sem hf m) h e).reads.lex]

private theorem lit_of (hf : Fits cx d) (hl : LiteralsSeen cx d lit) {m : Nat} {v : Obj} {u : Str}
    (h : safeVal cx.backend.quote (Safe cx.backend.quote m) v) (e : sqlValueText cx (sem cx m) v = .ok u) :
    valToks cx d (toks cx d m) v = lit v := by
  rw [hl v (m + 1) u e, (rt_val hf (inner_sem hf m) h e).reads.lex]

private theorem mapR_mem_ok {α β : Type} {r : α → β → Prop} {xs : List α} {ys : List β}
    (h : List.Forall₂ r xs ys) {x : α} (hx : x ∈ xs) : ∃ y, y ∈ ys ∧ r x y := by
  induction h with
  | nil => cases hx
  | cons h1 _ ih =>
    rcases List.mem_cons.mp hx with rfl | hx
    · exact ⟨_, List.mem_cons_self, h1⟩
    · obtain ⟨y, hy, hr⟩ := ih hx
      exact ⟨y, List.mem_cons_of_mem _ hy, hr⟩

private theorem each_text {α : Type} {f : α → R Str} {kw sep dflt : Str} {xs : List α} {u : Str}
    (e : partsText kw sep dflt f xs = .ok u) {x : α} (hx : x ∈ xs) : ∃ t, f x = .ok t := by
  unfold partsText at e
  have hne : xs.isEmpty = false := by cases xs <;> simp_all
  rw [hne] at e
  simp only [Bool.false_eq_true, if_false, bind_ok] at e
  obtain ⟨ts, e1, _⟩ := e
  obtain ⟨t, _, ht⟩ := mapR_mem_ok (mapR_ok_iff.mp e1) hx
  exact ⟨t, ht⟩

private theorem filled {α : Type} {xs : List α} {x : α} (h : x ∈ xs) : (!xs.isEmpty) = true := by
  cases xs with
  | nil => cases h
  | cons => rfl

/-- C77. An INSERT of any rows into a table, without custom SQL: the server reads `REPLACE` or `INSERT`, `IGNORE` or not, the
table, one new row for each row of the query, in order, with the values given in this row, and the assignments of ON
DUPLICATE KEY UPDATE in order.  Values may be anything, also queries. -/
theorem C77_insert (hf : Fits cx d) (hr : RefsSeen cx d ref) (hl : LiteralsSeen cx d lit) {q : Insert} {name : Str}
    {rows : List Row} (hq : q.tables = [⟨.str name, .none, []⟩]) (hrows : q.rows = rows.map rowOf) (hne : rows ≠ [])
    (hconf : q.onConflict = [])
    (hd : ∀ r ∈ rows, ∀ p ∈ r, ∀ r' ∈ rows, ∀ p' ∈ r', ref (.str p.1) = ref (.str p'.1) → p.1 = p'.1) {n : Nat} {t : Str}
    (h : NoRaw cx.backend.quote .stmt (.insert q)) (e : (sem cx n).str (.insert q) = .ok t) :
    ∃ tuples, readInsert sv (lex d t) =
        { replace := q.isReplace, ignore := q.ignore, table := ref (.str name), rows := tuples,
          updates := assignmentsWritten sv ref lit q.onDup } ∧
      List.Forall₂ (TupleWritten sv ref lit rows) rows tuples := by
  obtain ⟨k, hs, he, hlex⟩ := stmt_level hf h e
  have hs : safeInsert cx.backend.quote (Safe cx.backend.quote k) q := hs
  have he : insertText cx (sem cx k) q = .ok t := he
  have ih := phrases_sem cx d k
  have hne' : q.rows ≠ [] := by rw [hrows]; simpa using hne
  have key := insert_order (S := sem cx k) (d := d) ih hs hq hne' hconf sv
  rw [hlex]
  obtain ⟨cols, hcols, hlist⟩ := allColumns_spec rows
  have hic : insertColumns q.rows = cols := by unfold insertColumns; rw [hrows, hcols]
  have htab : safeTable cx.backend.quote (Safe cx.backend.quote k) ⟨.str name, .none, []⟩ := hs.1 _ (by simp [hq])
  unfold insertText at he
  simp only [bind_ok] at he
  obtain ⟨_, _, _, _, _, _, y, hy, _, _, x, hx, _⟩ := he
  obtain ⟨u, hu⟩ := clause_text_ok hx (by simpa using hne')
  rw [hrows] at hu
  obtain ⟨cols', _, cells, hlist', _, hcells, _⟩ := (rowsText_rowOf cx k).mp hu
  have hcol : ∀ c ∈ cols, refToks (refParts cx.backend.quote c) = ref (.str c) := fun c hm =>
    name_ref hf hr ((insertColumns_spec (q := cx.backend.quote) hs.2.1 hne').2.2 c (by rw [hic]; exact hm))
  have hval : ∀ row ∈ rows, ∀ c ∈ cols, valToks cx d (toks cx d k) (lookupValue c (rowOf row)) = lit (given row c) := by
    intro row hrow c hm
    obtain ⟨cl, _, hcl⟩ := mapR_mem_ok hcells hrow
    obtain ⟨cell, _, hcell⟩ := mapR_mem_ok hcl ((hlist'.used c).mpr ((hlist.used c).mp hm))
    have hsv := safe_lookup c (hs.2.1 (rowOf row) (by rw [hrows]; exact List.mem_map_of_mem hrow)).2
    rw [lookupValue_given] at hsv ⊢
    exact lit_of hf hl hsv hcell
  have hdc : ∀ c ∈ cols, ∀ c' ∈ cols, ref (.str c) = ref (.str c') → c = c' := by
    intro c h1 c' h2 e
    obtain ⟨r, hr, v, hm⟩ := (hlist.used c).mp h1
    obtain ⟨r', hr', v', hm'⟩ := (hlist.used c').mp h2
    exact hd r hr (c, v) hm r' hr' (c', v') hm' e
  refine ⟨rows.map fun row => newTuple sv (cols.map fun c => ref (.str c)) (cols.map fun c => lit (given row c)), ?_, ?_⟩
  · refine key.trans ?_
    rw [InsertOrder.mk.injEq]
    refine ⟨rfl, rfl, name_ref hf hr htab.1.1, ?_, ?_⟩
    · unfold insertNames
      rw [hic, List.map_congr_left hcol, hrows, List.map_map]
      refine List.map_congr_left fun row hrow => ?_
      simp only [Function.comp_def]
      rw [List.map_congr_left (hval row hrow)]
    · unfold assignmentsWritten
      refine List.filterMap_congr fun v hv => ?_
      have hsv := hs.2.2.1 v hv
      cases v with
      | item o => exact hsv.elim
      | value c w =>
        obtain ⟨u, hu⟩ := clause_text_ok hy (filled hv)
        obtain ⟨u', hu'⟩ := each_text hu hv
        simp only [valueText, bind_ok] at hu'
        obtain ⟨a, ha, b, hb, _⟩ := hu'
        unfold readAssignment
        rw [pieces_assign ih hsv, ref_of hf hr hsv.1 ha, lit_of hf hl hsv.2 hb]
  · rw [List.forall₂_map_right_iff, List.forall₂_same]
    intro row _
    constructor
    · intro r hr p hp
      exact tuple_here (w := fun c => ref (.str c)) hdc ((hlist.used p.1).mpr ⟨r, hr, p.2, hp⟩)
    · intro x hx
      refine tuple_other (w := fun c => ref (.str c)) fun c hm => ?_
      obtain ⟨r, hr, v, hm⟩ := (hlist.used c).mp hm
      exact hx r hr (c, v) hm

/-- C77 for a history of calls, failing ones included: `insert_into(table)`, then any calls of `values`, `ignore`,
`on_duplicate_key_update` and `str` in any order and any notation. -/
theorem C77_history (hf : Fits cx d) (hr : RefsSeen cx d ref) (hl : LiteralsSeen cx d lit) {table : Str}
    (hname : table ≠ []) {n m : Nat} {q0 : Insert} (hq : mkInsertInto cx (sem cx (n + 1)) (.str table) = .ok q0)
    {ops : List InsertOp} (hi : ∀ op ∈ ops, ∀ t, op ≠ .into t)
    (hb : cx.backend = .postgresql → ∀ op ∈ ops, ∀ a, op ≠ .onDuplicateKeyUpdate a)
    {rowss : List (List Row)} (hrows : List.Forall₂ RowGiven ops rowss) (hne : rowss.flatten ≠ [])
    {dups : List (List (Obj × Obj))} (hdup : List.Forall₂ DuplicatePairs ops dups)
    (hex : ∀ ps ∈ dups, ∀ p ∈ ps, ExactAssignment p)
    (hd : ∀ r ∈ rowss.flatten, ∀ p ∈ r, ∀ r' ∈ rowss.flatten, ∀ p' ∈ r',
      ref (.str p.1) = ref (.str p'.1) → p.1 = p'.1) {t : Str}
    (h : NoRaw cx.backend.quote .stmt (.insert (runOps (insertStep cx (sem cx (n + 1))) q0 ops)))
    (e : (sem cx m).str (.insert (runOps (insertStep cx (sem cx (n + 1))) q0 ops)) = .ok t) :
    ∃ tuples kept, readInsert sv (lex d t) =
        { replace := replaceGiven cx.backend ops, ignore := ignoreGiven ops, table := ref (.str table),
          rows := tuples, updates := kept.map fun p => (ref p.1, sv.literal (lit p.2)) } ∧
      List.Forall₂ (TupleWritten sv ref lit rowss.flatten) rowss.flatten tuples ∧
      FirstUses (if cx.backend = .mysql then dups.flatten else []) kept := by
  obtain ⟨ch, cs, rfl⟩ := List.exists_cons_of_ne_nil hname
  have h0 : q0 = { tables := [⟨.str (ch :: cs), .none, []⟩] } := by injection hq with hq; exact hq.symm
  have hj : ∀ t ∈ q0.tables, t.joins = [] := by
    subst h0
    intro t ht
    rw [List.mem_singleton.mp ht]
  obtain ⟨h1, h2, h3⟩ := run_rest cx (sem cx (n + 1)) hi hb hj
  have h4 := run_ignore cx (sem cx (n + 1)) hi hb hj (by rw [h0])
  have h5 := run_rows cx n hrows q0
  obtain ⟨kept, k1, k2⟩ := run_updates cx n hdup hex (q := q0) (by rw [h0])
  rw [show q0.tables = [⟨.str (ch :: cs), .none, []⟩] by rw [h0]] at h1
  rw [show q0.onConflict = [] by rw [h0]] at h2
  rw [show q0.isReplace = false by rw [h0], Bool.false_or] at h3
  rw [show q0.rows = [] by rw [h0], List.nil_append] at h5
  obtain ⟨tuples, e1, e2⟩ := C77_insert (sv := sv) hf hr hl h1 h5 hne h2 hd h e
  refine ⟨tuples, kept, ?_, e2, k1⟩
  rw [e1, h3, h4, k2]
  congr 1
  unfold assignmentsWritten
  rw [List.filterMap_map]
  exact congrFun List.filterMap_eq_map kept

end

/-! ### The hypotheses are met -/

/-- Two rows with different columns, a call that raises, `ignore` and two calls of `on_duplicate_key_update`. -/
private def calls0 : List InsertOp :=
  [.values { kw := [(L!"a", .int 1)] }, .ignore (.bool true), .values { kw := [(L!"a", .list [])] },
   .onDuplicateKeyUpdate { kw := [(L!"a", .int 2)] }, .str, .values { pos := [.str L!"b", .str L!"it's"] },
   .onDuplicateKeyUpdate { kw := [(L!"a", .int 2), (L!"b", .none)] }]

private def insertText0 : Str :=
  L!"INSERT IGNORE INTO `t` (`a`, `b`) VALUES (1, NULL), (NULL, 'it''s') ON DUPLICATE KEY UPDATE `a` = 2, `b` = NULL"

private def query0 : Insert := runOps (insertStep cx0 (sem cx0 4)) { tables := [⟨.str L!"t", .none, []⟩] } calls0

private theorem kwPairs {k : Str} {v : Obj} (h : KwFree [(k, v)]) : GivesPairs { kw := [(k, v)] } [(.str k, v)] :=
  .usual .nothing ⟨[(k, v)], .refl _, by simp, rfl⟩ h

private theorem rowGiven0 : List.Forall₂ RowGiven calls0
    [[[(L!"a", .int 1)]], [], [], [], [], [[(L!"b", .str L!"it's")]], []] := by
  refine .cons ⟨[(L!"a", .int 1)], kwPairs (by unfold KwFree; decide), by decide, ?_⟩ (.cons rfl
    (.cons ⟨[(L!"a", .list [])], kwPairs (by unfold KwFree; decide), by decide, ?_⟩ (.cons rfl (.cons rfl
    (.cons ⟨[(L!"b", .str L!"it's")], ?_, by decide, ?_⟩ (.cons rfl .nil))))))
  · rw [if_pos (by decide)]
  · rw [if_neg (by decide)]
  · exact .usual (ps := [(.str L!"b", .str L!"it's")]) (.direct _ (by rintro _ ⟨⟩)) ⟨[], .nil, .nil, rfl⟩
      (by simp [KwFree])
  · rw [if_pos (by decide)]

example : mkInsertInto cx0 (sem cx0 4) (.str L!"t") = .ok { tables := [⟨.str L!"t", .none, []⟩] } ∧
    (∀ op ∈ calls0, ∀ t, op ≠ .into t) ∧
    List.Forall₂ DuplicatePairs calls0 [[], [], [], [(.str L!"a", .int 2)], [], [],
      [(.str L!"a", .int 2), (.str L!"b", .none)]] ∧
    NoRaw '`' .stmt (.insert query0) ∧ (sem cx0 6).str (.insert query0) = .ok insertText0 := by
  refine ⟨rfl, ?_, ?_, ⟨6, by decide +kernel⟩, by decide +kernel⟩
  · intro op h t
    simp only [calls0, List.mem_cons, List.not_mem_nil, or_false] at h
    rcases h with rfl | rfl | rfl | rfl | rfl | rfl | rfl <;> simp
  · refine .cons rfl (.cons rfl (.cons rfl (.cons ?_ (.cons rfl (.cons rfl (.cons ?_ .nil))))))
    · exact kwPairs (by unfold KwFree; decide)
    · refine .usual .nothing ⟨[(L!"a", .int 2), (L!"b", .none)], .refl _, ?_, rfl⟩ (by unfold KwFree; decide)
      simp only [List.pairwise_cons, List.mem_singleton, forall_eq]
      exact ⟨.here _ _ (by decide), by simp⟩

/-- What a server reads in this statement. -/
example : (readInsert (V := List Tok) ⟨id, fun _ _ => .t, fun _ => []⟩
    (lex mysqlDialect insertText0)).updates =
      [([.ident L!"a"], [.num L!"2"]), ([.ident L!"b"], [.word L!"NULL"])] := by
  decide +kernel

end SqlPuzzle
