import Verif.Proofs.InList
import Verif.Proofs.ClauseBody
import Verif.Props.Grammar
import Verif.Props.Relations

/-!
C36 (trees of conditions keep their boolean structure) and C12 (`IN` and `NOT IN` with `None`).

`truth pred ts` (`Spec/Truth.lean`) is the truth value that a server gives to the tokens `ts` of a
condition; `CondTree` (`Spec/CondTree.lean`) are the trees; `clauseBody` (`Spec/Clauses.lean`) are the
tokens of a clause.
-/

namespace SqlPuzzle

open Spec

/-! ### C36 -/

/-- C36. The text of a tree of conditions, read with the precedence of SQL, has the truth value of the
tree.  What is missing: calls of `Q` with several arguments of which one is a `Not` (`C36_refuted`). -/
theorem C36_tree_partial {cx : Ctx} {d : Dialect} (hf : Fits cx d) {pred : List Tok → Tri}
    {leaf : Obj → Tri} (hl : LeafTruth cx d pred leaf) {tr : CondTree} {n : Nat} {t : Str}
    (h : NoRaw cx.backend.quote .cond tr.obj) (e : (sem cx n).str tr.obj = .ok t) :
    truth pred (lex d t) = tr.value leaf := by
  obtain ⟨N, hs, r⟩ := read_noRaw hf h e
  rw [r (max N n) (Nat.le_max_left _ _)]
  exact truth_tree hf hl tr _ (safe_le (Nat.le_max_left _ _) hs)
    ⟨t, ((sem_le cx (Nat.le_max_right N n)).str _).ok e⟩

/-- The truth values of the conditions, each written on its own, always exist. -/
theorem C36_leaf_exists (cx : Ctx) (d : Dialect) (pred : List Tok → Tri) :
    ∃ leaf, LeafTruth cx d pred leaf := by
  classical
  refine ⟨fun o => if h : ∃ u n, (sem cx n).str o = .ok u then truth pred (lex d h.choose) else .u, ?_⟩
  intro o n u e
  have h : ∃ u n, (sem cx n).str o = .ok u := ⟨u, n, e⟩
  have h2 : h.choose = u := by
    obtain ⟨m, hm⟩ := h.choose_spec
    have a := ((sem_le cx (Nat.le_max_left m n)).str o).ok hm
    have b := ((sem_le cx (Nat.le_max_right m n)).str o).ok e
    rw [a] at b
    cases b
    rfl
  simp only [dif_pos h, h2]

theorem clause_text_ok {b : Bool} {r : R Str} {t : Str} (e : clause b r = .ok t) (hb : b = true) :
    ∃ u, r = .ok u := by
  subst hb
  simp only [clause, if_true, bind_ok] at e
  obtain ⟨u, e, _⟩ := e
  exact ⟨u, e⟩

theorem parts_ne {trs : List CondTree} (h : trs ≠ []) : CondTree.parts trs ≠ [] := by
  cases trs with
  | nil => exact absurd rfl h
  | cons t ts => rw [parts_cons]; simp

theorem truth_clause {cx : Ctx} {d : Dialect} (hf : Fits cx d) {pred : List Tok → Tri}
    {leaf : Obj → Tri} (hl : LeafTruth cx d pred leaf) {trs : List CondTree} (hne : trs ≠ []) {m : Nat}
    {kw u : Str} (h : safeConds cx.backend.quote (Safe cx.backend.quote m) (CondTree.parts trs))
    (e : condsText cx (sem cx m) kw (CondTree.parts trs) = .ok u) :
    truth pred (conjToks cx d (toks cx d m) (CondTree.parts trs)) = Tri.all (CondTree.values leaf trs) := by
  rw [truth_parts (parts_ne hne) h, truth_trees hf hl trs m h (conds_ok e)]

/-- What is needed to read a statement: it is safe and has a text at a common depth. -/
theorem stmt_level {cx : Ctx} {d : Dialect} (hf : Fits cx d) {o : Obj} {n : Nat} {t : Str}
    (h : NoRaw cx.backend.quote .stmt o) (e : (sem cx n).str o = .ok t) :
    ∃ m, Safe cx.backend.quote (m + 1) .stmt o ∧ (sem cx (m + 1)).str o = .ok t ∧
      lex d t = toks cx d (m + 1) o := by
  obtain ⟨N, hs, r⟩ := read_noRaw hf h e
  have h1 := safe_le (Nat.le_max_left N n) hs
  have h2 := ((sem_le cx (Nat.le_max_right N n)).str o).ok e
  have h3 := r (max N n) (Nat.le_max_left _ _)
  obtain ⟨m, hm⟩ := safe_pos h1
  rw [hm] at h1 h2 h3
  exact ⟨m, h1, h2, h3⟩

section
variable {cx : Ctx} {d : Dialect} (hf : Fits cx d) {pred : List Tok → Tri} {leaf : Obj → Tri}
  (hl : LeafTruth cx d pred leaf) {trs : List CondTree} (hne : trs ≠ []) {n : Nat} {t : Str}
include hf hl hne

/-- C36. The `WHERE` clause of a select is true exactly where all its trees are. -/
theorem C36_where_select_partial {q : Select} (hw : q.where_ = CondTree.parts trs)
    (h : NoRaw cx.backend.quote .stmt (.select q)) (e : (sem cx n).str (.select q) = .ok t) :
    truth pred (clauseBody selectClauses L!"WHERE" (lex d t)) = Tri.all (CondTree.values leaf trs) := by
  obtain ⟨m, hs, he, r⟩ := stmt_level hf h e
  have hp := parts_ne hne
  rw [← hw] at hp
  rw [r]
  have he' : selectText cx (sem cx m) q = .ok t := he
  unfold selectText at he'
  simp only [bind_ok] at he'
  obtain ⟨_, _, _, _, _, _, _, _, _, _, _, _, _, _, _, _, _, _, x, hx, _⟩ := he'
  obtain ⟨u, hu⟩ := clause_text_ok hx (by simpa using hp)
  have hs' : safeSelect cx.backend.quote (Safe cx.backend.quote m) q := hs
  show truth pred (clauseBody selectClauses L!"WHERE" (selectToks cx (sem cx m) d (toks cx d m) q)) = _
  rw [where_select (phrases_sem cx d m) hs' hp]
  have h3 := hs'.2.2.1
  rw [hw] at h3 hu ⊢
  exact truth_clause hf hl hne h3 hu

/-- C36. The `HAVING` clause of a select is true exactly where all its trees are. -/
theorem C36_having_select_partial {q : Select} (hw : q.having = CondTree.parts trs)
    (h : NoRaw cx.backend.quote .stmt (.select q)) (e : (sem cx n).str (.select q) = .ok t) :
    truth pred (clauseBody selectClauses L!"HAVING" (lex d t)) = Tri.all (CondTree.values leaf trs) := by
  obtain ⟨m, hs, he, r⟩ := stmt_level hf h e
  have hp := parts_ne hne
  rw [← hw] at hp
  rw [r]
  have he' : selectText cx (sem cx m) q = .ok t := he
  unfold selectText at he'
  simp only [bind_ok] at he'
  obtain ⟨_, _, _, _, x, hx, _⟩ := he'
  obtain ⟨u, hu⟩ := clause_text_ok hx (by simpa using hp)
  have hs' : safeSelect cx.backend.quote (Safe cx.backend.quote m) q := hs
  show truth pred (clauseBody selectClauses L!"HAVING" (selectToks cx (sem cx m) d (toks cx d m) q)) = _
  rw [having_select (phrases_sem cx d m) hs' hp]
  have h3 := hs'.2.2.2.2.1
  rw [hw] at h3 hu ⊢
  exact truth_clause hf hl hne h3 hu

/-- C36. The `WHERE` clause of an update is true exactly where all its trees are. -/
theorem C36_where_update_partial {q : Update} (hw : q.where_ = CondTree.parts trs)
    (h : NoRaw cx.backend.quote .stmt (.update q)) (e : (sem cx n).str (.update q) = .ok t) :
    truth pred (clauseBody updateClauses L!"WHERE" (lex d t)) = Tri.all (CondTree.values leaf trs) := by
  obtain ⟨m, hs, he, r⟩ := stmt_level hf h e
  have hp := parts_ne hne
  rw [← hw] at hp
  rw [r]
  have he' : updateText cx (sem cx m) q = .ok t := he
  unfold updateText at he'
  rw [if_neg (by simp [hp])] at he'
  simp only [bind_ok] at he'
  obtain ⟨_, _, _, _, _, _, x, hx, _⟩ := he'
  obtain ⟨u, hu⟩ := clause_text_ok hx (by simpa using hp)
  have hs' : safeUpdate cx.backend.quote (Safe cx.backend.quote m) q := hs
  show truth pred (clauseBody updateClauses L!"WHERE" (updateToks cx (sem cx m) d (toks cx d m) q)) = _
  rw [where_update (phrases_sem cx d m) hs' hp]
  have h3 := hs'.2.2
  rw [hw] at h3 hu ⊢
  exact truth_clause hf hl hne h3 hu

/-- C36. The `WHERE` clause of a delete is true exactly where all its trees are. -/
theorem C36_where_delete_partial {q : Delete} (hw : q.where_ = CondTree.parts trs)
    (h : NoRaw cx.backend.quote .stmt (.delete q)) (e : (sem cx n).str (.delete q) = .ok t) :
    truth pred (clauseBody deleteClauses L!"WHERE" (lex d t)) = Tri.all (CondTree.values leaf trs) := by
  obtain ⟨m, hs, he, r⟩ := stmt_level hf h e
  have hp := parts_ne hne
  rw [← hw] at hp
  rw [r]
  have he' : deleteText cx (sem cx m) q = .ok t := he
  unfold deleteText at he'
  rw [if_neg (by simp [hp])] at he'
  simp only [bind_ok] at he'
  obtain ⟨_, _, _, _, _, _, x, hx, _⟩ := he'
  obtain ⟨u, hu⟩ := clause_text_ok hx (by simpa using hp)
  have hs' : safeDelete cx.backend.quote (Safe cx.backend.quote m) q := hs
  show truth pred (clauseBody deleteClauses L!"WHERE" (deleteToks cx (sem cx m) d (toks cx d m) q)) = _
  rw [where_delete (phrases_sem cx d m) hs' hp]
  have h3 := hs'.2.2
  rw [hw] at h3 hu ⊢
  exact truth_clause hf hl hne h3 hu

end

/-! #### The calls that build trees -/

/-- `Q(c, v)` builds a tree that is one condition. -/
theorem C36_api_pair {cx : Ctx} {S : Sem} {c : Str} {v o : Obj}
    (h : mkConds cx S { pos := [.str c, v] } = .ok o) : ∃ k w, o = (CondTree.cond (.str c) k w).obj := by
  rcases C13_default_relation cx S c v o h with ⟨k, w, _, rfl⟩ | ⟨_, w, rfl, _⟩
  · exact ⟨k, w, by simp only [CondTree.obj]⟩
  · exact ⟨relationFor (unwrap v), w, by simp only [CondTree.obj]⟩

/-- `l & r` and `l | r` build the trees `both` and `either`. -/
theorem C36_api_binary (l r : CondTree) (o : Obj) :
    (mkBinary .and l.obj r.obj = .ok o → o = (CondTree.both l r).obj) ∧
    (mkBinary .or l.obj r.obj = .ok o → o = (CondTree.either l r).obj) := by
  constructor <;>
  · intro h
    unfold mkBinary at h
    split at h
    · cases h; simp only [CondTree.obj]
    · cases h

theorem parts_items {trs : List CondTree} (hc : ∀ tr ∈ trs, ∀ c k v, tr ≠ .cond c k v) :
    CondTree.parts trs = trs.map fun tr => .item tr.obj := by
  induction trs with
  | nil => simp [CondTree.parts]
  | cons tr trs ih =>
    rw [parts_cons, ih fun t ht => hc t (List.mem_cons_of_mem _ ht), List.map_cons]
    congr 1
    cases tr with
    | cond c k v => exact absurd rfl (hc _ (by simp) c k v)
    | _ => rfl

theorem appendAll {cx : Ctx} {S : Sem} {xs : List Obj} : ∀ {ps : List Cond},
    (ps ++ xs.map CondPart.item).Pairwise (fun a b : Cond => condEq cx S a b = .ok false) →
    forUpd (fun ps o => appendUnique (condEq cx S) ps (.item o)) ps xs = (ps ++ xs.map CondPart.item, none) := by
  induction xs with
  | nil => intro ps _; simp [forUpd]
  | cons x xs ih =>
    intro ps h
    have h1 : anyR (fun q => condEq cx S q (.item x)) ps = .ok false := by
      refine anyR_false.mpr fun q hq => ?_
      exact (List.pairwise_append.mp h).2.2 q hq _ (by simp)
    have h2 := ih (ps := ps ++ [.item x]) (by simpa using h)
    have h3 : appendUnique (condEq cx S) ps (.item x) = (ps ++ [.item x], none) := by
      unfold appendUnique
      rw [h1]
    simp only [forUpd, h3]
    rw [h2]
    simp

/-- `Q(…)` and `Not(…)` of trees, no two of them equal, build the trees `all` and `neg`. -/
theorem C36_api_q {cx : Ctx} {n : Nat} {trs : List CondTree} (hne : trs ≠ [])
    (hc : ∀ tr ∈ trs, IsCondition tr.obj ∧ ∀ c k v, tr ≠ .cond c k v)
    (hd : (trs.map CondTree.obj).Pairwise (fun a b => (sem cx n).eq a b = .ok false)) :
    mkConds cx (sem cx n) { pos := trs.map CondTree.obj } = .ok (CondTree.all trs).obj ∧
    mkNot cx (sem cx n) { pos := trs.map CondTree.obj } = .ok (CondTree.neg trs).obj := by
  generalize sem cx n = S at *
  simp only [← isConds_iff] at hc
  replace hd : (CondTree.parts trs).Pairwise (fun a b => condEq cx S a b = .ok false) := by
    rw [parts_items fun tr ht => (hc tr ht).2]
    rw [List.pairwise_map] at hd ⊢
    exact hd
  have key : condsWhere cx S false [] { pos := trs.map CondTree.obj } = (CondTree.parts trs, none) := by
    have hp := parts_items fun tr ht => (hc tr ht).2
    have hsql : ∀ o : Obj, o.isConds = true → o.isSql = true := by
      intro o ho; cases o <;> first | rfl | cases ho
    unfold condsWhere
    rw [if_neg (by simp [kwSelf])]
    match trs, hne with
    | [tr], _ =>
      have := hsql _ (hc tr (by simp)).1
      simp only [customArg, List.map_cons, List.map_nil, this, if_true]
      rw [hp]; rfl
    | a :: b :: trs, _ =>
      simp only [customArg, List.map_cons]
      have hall : ((a.obj :: b.obj :: trs.map CondTree.obj).all Obj.isConds) = true := by
        rw [List.all_eq_true]
        intro o ho
        have : o ∈ (a :: b :: trs).map CondTree.obj := ho
        obtain ⟨tr, ht, rfl⟩ := List.mem_map.mp this
        exact (hc tr ht).1
      rw [hall]
      simp only [List.isEmpty_cons, Bool.not_false, Bool.and_self, if_true]
      have hpp : CondTree.parts (a :: b :: trs) =
          (a.obj :: b.obj :: trs.map CondTree.obj).map .item := by
        rw [hp]; simp
      rw [hpp] at hd ⊢
      exact appendAll (ps := []) hd
  unfold mkConds mkNot
  rw [key]
  simp only [CondTree.obj, and_self]

/-! #### An example -/

private def cx0 : Ctx := ⟨.sql, ⟨id, id, fun _ => true, fun _ => [], fun _ => []⟩⟩

private def condA : CondTree := .cond (.str L!"a") .eq (.int 1)
private def condB : CondTree := .cond (.str L!"b") .gt (.int 2)
private def condC : CondTree := .cond (.str L!"c") .in_ (.list [.int 1, .none])

/-- `(Q(a=1) & Q(b=GT(2), c=[1, None])) | Q(Not(a=1, b=GT(2)))` -/
private def tree0 : CondTree :=
  .either (.both condA (.all [condB, condC])) (.all [.neg [condA, condB]])

example : NoRaw cx0.backend.quote .cond tree0.obj := ⟨7, by decide +kernel⟩

example : (sem cx0 7).str tree0.obj = .ok L!"((\"a\" = 1 AND (\"b\" > 2 AND (\"c\" IN (1) OR \"c\" IS NULL))) OR NOT(\"a\" = 1 AND \"b\" > 2))" := by
  decide +kernel

example (leaf : Obj → Tri) : tree0.value leaf =
    ((leaf condA.obj).and (Tri.all [leaf condB.obj, leaf condC.obj])).or
      (Tri.all [(Tri.all [leaf condA.obj, leaf condB.obj]).not]) := by
  simp only [tree0, condA, condB, condC, CondTree.value, CondTree.values, CondTree.obj]

example : NoRaw cx0.backend.quote .stmt (.select { columns := [], where_ := CondTree.parts [tree0, condB] }) :=
  ⟨8, by decide +kernel⟩

example : (CondTree.all [condA]).obj.isConds = true ∧
    (CondTree.parts [.all [condA], .all [condB]]).Pairwise (fun a b => condEq cx0 (sem cx0 3) a b = .ok false) := by
  decide +kernel

/-! #### What does not hold -/

/-- C36 in full, for calls of `Q` with several trees. -/
def C36_claim : Prop :=
  ∀ (cx : Ctx) (d : Dialect) (pred : List Tok → Tri) (leaf : Obj → Tri) (trs : List CondTree) (n : Nat)
    (o : Obj) (t : Str), Fits cx d → LeafTruth cx d pred leaf → trs ≠ [] →
    (∀ tr ∈ trs, NoRaw cx.backend.quote .cond tr.obj) →
    mkConds cx (sem cx n) { pos := trs.map CondTree.obj } = .ok o → (sem cx n).str o = .ok t →
    truth pred (lex d t) = Tri.all (CondTree.values leaf trs)

private def mixed : List CondTree := [.neg [condA], .all [condB]]

private theorem mixed_str :
    (mkConds cx0 (sem cx0 5) { pos := mixed.map CondTree.obj }).bind (sem cx0 5).str =
      .ok L!"NOT(\"a\" = 1) = \"b\" > 2" := by
  decide +kernel

/-- C36 fails for `Q(Not(a=1), Q(b=GT(2)))`: the two arguments are taken as a column and its value, and
the text is `NOT("a" = 1) = "b" > 2`. -/
theorem C36_refuted : ¬ C36_claim := by
  intro h
  obtain ⟨leaf, hl⟩ := C36_leaf_exists cx0 standardDialect (fun _ => .f)
  have h1 : leaf condA.obj = .f := by
    rw [hl condA.obj 3 L!"\"a\" = 1" (by decide +kernel)]
    decide +kernel
  have h2 : leaf condB.obj = .f := by
    rw [hl condB.obj 3 L!"\"b\" > 2" (by decide +kernel)]
    decide +kernel
  have e := mixed_str
  cases ho : mkConds cx0 (sem cx0 5) { pos := mixed.map CondTree.obj } with
  | error err => rw [ho] at e; cases e
  | ok o =>
    rw [ho] at e
    have key := h cx0 standardDialect (fun _ => .f) leaf mixed 5 o _ rfl hl (by simp [mixed]) (by
      intro tr ht
      have : tr = .neg [condA] ∨ tr = .all [condB] := by simpa [mixed] using ht
      rcases this with rfl | rfl
      · exact ⟨5, by decide +kernel⟩
      · exact ⟨5, by decide +kernel⟩) ho e
    have h3 : Tri.all (CondTree.values leaf mixed) = .f := by
      simp only [mixed, condA, condB, CondTree.values, CondTree.value] at *
      simp only [CondTree.obj] at h1 h2
      rw [h1, h2]
      rfl
    rw [h3] at key
    exact absurd key (by decide +kernel)

/-! ### C12 -/

section
variable {cx : Ctx} {d : Dialect} {V : Type} [DecidableEq V] {val : List Tok → Option V}
  {other : List Tok → Tri} {col v : Obj} {xs : List Obj} {c : Option V} {vals : Obj → Option V}

/-- `c` is the value of the column in the row at hand. -/
def ColumnValue (cx : Ctx) (d : Dialect) (val : List Tok → Option V) (col : Obj) (c : Option V) : Prop :=
  ∀ n u, (sem cx n).str (.sqlRef col) = .ok u → c = val (lex d u)

/-- `vals x` is the value that the server reads for `x`. -/
def ItemValues (cx : Ctx) (d : Dialect) (val : List Tok → Option V) (xs : List Obj)
    (vals : Obj → Option V) : Prop :=
  ∀ x ∈ xs, ∀ n u, (sem cx n).str (.sqlValue x) = .ok u → vals x = val (lex d u)

omit [DecidableEq V] in
theorem list_items (hf : Fits cx d) {m : Nat} {t : Str} {ys : List Obj} (hv : ItemValues cx d val ys vals)
    (h : ∀ x ∈ ys, Safe cx.backend.quote m .expr (.sqlValue x)) (e : listText (sem cx m) ys = .ok t) :
    (ys.map fun x => toks cx d m (.sqlValue x)).map val = ys.map vals := by
  unfold listText at e
  rw [bind_ok] at e
  obtain ⟨ts, e1, e2⟩ := e
  have hf2 := mapR_ok_iff.mp e1
  clear e1 e2
  rw [List.map_map]
  induction hf2 with
  | nil => rfl
  | @cons x u ys ts h1 _ ih =>
    rw [List.map_cons, List.map_cons, ih (fun y hy => hv y (List.mem_cons_of_mem _ hy))
      (fun y hy => h y (List.mem_cons_of_mem _ hy))]
    congr 1
    show val (toks cx d m (.sqlValue x)) = vals x
    rw [hv x (by simp) m u h1, (rt_main hf m (h x (by simp)) h1).reads.lex]

theorem plain_ok {S : Sem} {k : Rel} {vt : Obj → R Str} {w : Obj} {t : Str}
    (e : plainCondText cx S col k vt w = .ok t) :
    (∃ u, sqlRefText cx S col = .ok u) ∧ ∃ u, vt w = .ok u := by
  unfold plainCondText at e
  simp only [bind_ok] at e
  obtain ⟨u, e1, u2, e2, _⟩ := e
  exact ⟨⟨u, e1⟩, u2, e2⟩

/-- Both relations at once: what the text means in terms of the values. -/
theorem in_truth (hf : Fits cx d) {k : Rel} (hk : k = .in_ ∨ k = .notIn) (hi : v.iterate = some xs)
    (hc : ColumnValue cx d val col c) (hv : ItemValues cx d val xs vals) {n : Nat} {t : Str}
    (h : NoRaw cx.backend.quote .cond (.conds [.cond false col k v]))
    (e : (sem cx n).str (.conds [.cond false col k v]) = .ok t) :
    xs ≠ [] ∧ truth (predicate val other) (lex d t) =
      let ys := xs.filter fun x => !x.isNone
      let m := memberOf c (ys.map vals)
      match k, xs.any Obj.isNone, ys.isEmpty with
      | .in_, true, true => if c.isNone then .t else .f
      | .in_, true, false => m.or (if c.isNone then .t else .f)
      | .in_, false, _ => m
      | _, true, true => if c.isNone then .f else .t
      | _, true, false => m.not.and (if c.isNone then .f else .t)
      | _, false, _ => m.not := by
  obtain ⟨N, hs, r⟩ := read_noRaw hf h e
  have h1 := safe_le (Nat.le_max_left N n) hs
  have h2 := ((sem_le cx (Nat.le_max_right N n)).str _).ok e
  have h3 := r (max N n) (Nat.le_max_left _ _)
  obtain ⟨m, hm⟩ := safe_pos h1
  rw [hm] at h1 h2 h3
  rw [h3]
  have hsc : safeCond cx.backend.quote (Safe cx.backend.quote m) (.cond false col k v) :=
    h1.2 _ (List.mem_singleton_self _)
  have h2' : condsText cx (sem cx m) [] [.cond false col k v] = .ok t := h2
  obtain ⟨u, hu⟩ := conds_ok h2' _ (List.mem_singleton_self _)
  have hg : G .expr (refToksOf cx (toks cx d m) col) := g_ref (phrases_sem cx d m) hsc.1
  have hcol : ∀ u, sqlRefText cx (sem cx m) col = .ok u → val (refToksOf cx (toks cx d m) col) = c := by
    intro u hu
    rw [hc (m + 1) u hu, (rt_ref hf (inner_sem hf m) hsc.1 hu).reads.lex]
  have hsx : xs ≠ [] ∧ ∀ x ∈ xs, x.isNone = false → Safe cx.backend.quote m .expr (.sqlValue x) := by
    rcases hk with rfl | rfl <;>
    · have := hsc.2
      simp only [hi] at this
      exact this.2
  refine ⟨hsx.1, ?_⟩
  set ys := xs.filter fun x => !x.isNone with hys
  have hy : ∀ x ∈ ys, Safe cx.backend.quote m .expr (.sqlValue x) := fun x hx => by
    obtain ⟨a, b⟩ := List.mem_filter.mp hx
    exact hsx.2 x a (by simpa using b)
  have hvy : ItemValues cx d val ys vals := fun x hx => hv x (List.mem_filter.mp hx).1
  have hgy : ∀ z ∈ ys.map fun x => toks cx d m (.sqlValue x), G .expr z := by
    intro z hz
    obtain ⟨x, hx, rfl⟩ := List.mem_map.mp hz
    exact g_main cx d m (hy x hx)
  have hlist : ys ≠ [] → ∀ w, sqlValueText cx (sem cx m) (.list ys) = .ok w →
      (ys.map fun x => toks cx d m (.sqlValue x)).map val = ys.map vals := by
    intro hne w hw
    have : sqlValueText cx (sem cx m) (.list ys) = listText (sem cx m) ys := by
      have : ys.isEmpty = false := by simpa using hne
      simp only [sqlValueText, this, Bool.false_eq_true, if_false]
    rw [this] at hw
    exact list_items hf hvy hy hw
  have hb : ∀ {us : List Tok}, G .expr us → Whole (.word L!"OR") us ∧ Whole (.word L!"AND") us :=
    fun h => ⟨(expr_facts (by decide) h).1, (expr_facts (by decide) h).1⟩
  have hl : ∀ {w : Str}, w ≠ L!"OR" → w ≠ L!"AND" → ∀ {us : List Tok},
      Whole (.word L!"OR") us ∧ Whole (.word L!"AND") us →
      Whole (.word L!"OR") (.word w :: us) ∧ Whole (.word L!"AND") (.word w :: us) := fun h1 h2 _ h =>
    ⟨.cons (by simp) (by simp) (by simpa using h1) h.1, .cons (by simp) (by simp) (by simpa using h2) h.2⟩
  have hnull : Whole (.word L!"OR") [Tok.word L!"NULL"] ∧ Whole (.word L!"AND") [Tok.word L!"NULL"] :=
    hl (by decide) (by decide) ⟨whole_nil _, whole_nil _⟩
  show truth (predicate val other) (condToks cx d (toks cx d m) (.cond false col k v)) = _
  have hu' : formatCond cx (sem cx m) col k (sqlValueText cx (sem cx m)) v = .ok u := hu
  rcases hk with rfl | rfl
  · have e1 : inCondText cx (sem cx m) col .in_ L!" OR " L!" IS NULL" (sqlValueText cx (sem cx m)) v = .ok u := hu'
    show truth (predicate val other) (inCondToks cx (toks cx d m) col .in_ .is L!"OR"
      (valToks cx d (toks cx d m)) v) = _
    unfold inCondText at e1
    unfold inCondToks
    rw [hi] at e1 ⊢
    dsimp only at e1 ⊢
    rw [← hys] at e1 ⊢
    have hnil : truth (predicate val other)
        (refToksOf cx (toks cx d m) col ++ (relToks .is ++ [.word L!"NULL"])) =
        if (val (refToksOf cx (toks cx d m) col)).isNone then .t else .f := truth_isNull val other hg
    cases ha : xs.any Obj.isNone with
    | false =>
      have hyne : ys ≠ [] := by
        rw [hys, List.filter_eq_self.mpr]
        · exact hsx.1
        · intro x hx
          have := List.any_eq_false.mp ha x hx
          simpa using this
      rw [ha] at e1
      simp only [Bool.false_eq_true, if_false] at e1 ⊢
      obtain ⟨⟨w, hw⟩, w2, hw2⟩ := plain_ok e1
      have := truth_in val other hg (by simpa using hyne) hgy
      rw [hcol w hw, hlist hyne w2 hw2] at this
      exact this
    | true =>
      rw [ha] at e1
      simp only [if_true] at e1 ⊢
      cases hye : ys.isEmpty with
      | true =>
        rw [hye] at e1
        simp only [if_true, bind_ok] at e1 ⊢
        obtain ⟨w, hw, _⟩ := e1
        rw [hnil, hcol w hw]
      | false =>
        rw [hye] at e1
        have hyne : ys ≠ [] := by intro h; rw [h] at hye; cases hye
        simp only [Bool.false_eq_true, if_false, bind_ok] at e1 ⊢
        obtain ⟨p, hp, _⟩ := e1
        obtain ⟨⟨w, hw⟩, w2, hw2⟩ := plain_ok hp
        have := truth_in val other hg (by simpa using hyne) hgy
        rw [hcol w hw, hlist hyne w2 hw2] at this
        have hin : truth (predicate val other) (plainCondToks cx (toks cx d m) col .in_
          (valToks cx d (toks cx d m)) (.list ys)) = memberOf c (ys.map vals) := this
        rw [truth_either, hin, hnil, hcol w hw]
        · exact .conjOne (.compare hg (by decide) (g_listToks (phrases_sem cx d m) hyne hy))
        · exact .conjOne (.compare (r := [.word L!"IS"]) hg (by decide) (.lit .null))
  · have e1 : inCondText cx (sem cx m) col .notIn L!" AND " L!" IS NOT NULL" (sqlValueText cx (sem cx m)) v = .ok u := hu'
    show truth (predicate val other) (inCondToks cx (toks cx d m) col .notIn .isNot L!"AND"
      (valToks cx d (toks cx d m)) v) = _
    unfold inCondText at e1
    unfold inCondToks
    rw [hi] at e1 ⊢
    dsimp only at e1 ⊢
    rw [← hys] at e1 ⊢
    have hnil : truth (predicate val other)
        (refToksOf cx (toks cx d m) col ++ (relToks .isNot ++ [.word L!"NULL"])) =
        if (val (refToksOf cx (toks cx d m) col)).isNone then .f else .t := truth_isNotNull val other hg
    cases ha : xs.any Obj.isNone with
    | false =>
      have hyne : ys ≠ [] := by
        rw [hys, List.filter_eq_self.mpr]
        · exact hsx.1
        · intro x hx
          have := List.any_eq_false.mp ha x hx
          simpa using this
      rw [ha] at e1
      simp only [Bool.false_eq_true, if_false] at e1 ⊢
      obtain ⟨⟨w, hw⟩, w2, hw2⟩ := plain_ok e1
      have := truth_notIn val other hg (by simpa using hyne) hgy
      rw [hcol w hw, hlist hyne w2 hw2] at this
      exact this
    | true =>
      rw [ha] at e1
      simp only [if_true] at e1 ⊢
      cases hye : ys.isEmpty with
      | true =>
        rw [hye] at e1
        simp only [if_true, bind_ok] at e1 ⊢
        obtain ⟨w, hw, _⟩ := e1
        rw [hnil, hcol w hw]
      | false =>
        rw [hye] at e1
        have hyne : ys ≠ [] := by intro h; rw [h] at hye; cases hye
        simp only [Bool.false_eq_true, if_false, bind_ok] at e1 ⊢
        obtain ⟨p, hp, _⟩ := e1
        obtain ⟨⟨w, hw⟩, w2, hw2⟩ := plain_ok hp
        have := truth_notIn val other hg (by simpa using hyne) hgy
        rw [hcol w hw, hlist hyne w2 hw2] at this
        have hin : truth (predicate val other) (plainCondToks cx (toks cx d m) col .notIn
          (valToks cx d (toks cx d m)) (.list ys)) = (memberOf c (ys.map vals)).not := this
        rw [truth_both, hin, hnil, hcol w hw]
        · exact .conjOne (.compare hg (by decide) (g_listToks (phrases_sem cx d m) hyne hy))
        · exact .conjOne (.compare (r := [.word L!"IS", .word L!"NOT"]) hg (by decide) (.lit .null))

/-- C12. `IN`: a row is selected exactly when its column equals one of the values, where `NULL` counts
as equal to `None`. -/
theorem C12_in (hf : Fits cx d) (hi : v.iterate = some xs)
    (hc : ColumnValue cx d val col c) (hv : ItemValues cx d val xs vals) {n : Nat} {t : Str}
    (h : NoRaw cx.backend.quote .cond (.conds [.cond false col .in_ v]))
    (e : (sem cx n).str (.conds [.cond false col .in_ v]) = .ok t) :
    truth (predicate val other) (lex d t) = .t ↔
      (∃ x ∈ xs, x.isNone = false ∧ c ≠ none ∧ vals x = c) ∨ ((∃ x ∈ xs, x.isNone = true) ∧ c = none) := by
  obtain ⟨hne, k⟩ := in_truth (other := other) hf (.inl rfl) hi hc hv h e
  rw [k]
  dsimp only
  have hmem : memberOf c ((xs.filter fun x => !x.isNone).map vals) = .t ↔
      ∃ x ∈ xs, x.isNone = false ∧ c ≠ none ∧ vals x = c := by
    rw [memberOf_t, List.mem_map]
    constructor
    · rintro ⟨hc, x, hx, rfl⟩
      obtain ⟨a, b⟩ := List.mem_filter.mp hx
      exact ⟨x, a, by simpa using b, hc, rfl⟩
    · rintro ⟨x, hx, hn, hc, rfl⟩
      exact ⟨hc, x, List.mem_filter.mpr ⟨hx, by simpa using hn⟩, rfl⟩
  have hor : ∀ a b : Tri, a.or b = .t ↔ a = .t ∨ b = .t := by
    intro a b; cases a <;> cases b <;> simp [Tri.or]
  cases ha : xs.any Obj.isNone with
  | false =>
    have : ¬ ∃ x ∈ xs, x.isNone = true := fun ⟨x, hx, hn⟩ => List.any_eq_false.mp ha x hx hn
    simp only [hmem, this, false_and, or_false]
  | true =>
    have hex : ∃ x ∈ xs, x.isNone = true := List.any_eq_true.mp ha
    simp only [hex, true_and]
    cases hye : (xs.filter fun x => !x.isNone).isEmpty with
    | true =>
      have hno : ¬ ∃ x ∈ xs, x.isNone = false ∧ c ≠ none ∧ vals x = c := by
        rintro ⟨x, hx, hn, _⟩
        have : x ∈ xs.filter fun x => !x.isNone := List.mem_filter.mpr ⟨hx, by simpa using hn⟩
        rw [List.isEmpty_iff.mp hye] at this
        cases this
      simp only [hno, false_or]
      cases c <;> simp
    | false =>
      simp only [hor, hmem]
      cases c <;> simp

/-- C12. `NOT IN`: a row is selected exactly when its column is not `NULL` and differs from all values
other than `None`. -/
theorem C12_not_in (hf : Fits cx d) (hi : v.iterate = some xs)
    (hc : ColumnValue cx d val col c) (hv : ItemValues cx d val xs vals)
    (hnn : ∀ x ∈ xs, x.isNone = false → vals x ≠ none) {n : Nat} {t : Str}
    (h : NoRaw cx.backend.quote .cond (.conds [.cond false col .notIn v]))
    (e : (sem cx n).str (.conds [.cond false col .notIn v]) = .ok t) :
    truth (predicate val other) (lex d t) = .t ↔
      c ≠ none ∧ ∀ x ∈ xs, x.isNone = false → vals x ≠ c := by
  obtain ⟨hne, k⟩ := in_truth (other := other) hf (.inr rfl) hi hc hv h e
  rw [k]
  dsimp only
  have hmem : ∀ hy : (xs.filter fun x => !x.isNone) ≠ [],
      (memberOf c ((xs.filter fun x => !x.isNone).map vals)).not = .t ↔
      c ≠ none ∧ ∀ x ∈ xs, x.isNone = false → vals x ≠ c := by
    intro hy
    have hnot : ∀ a : Tri, a.not = .t ↔ a = .f := by intro a; cases a <;> simp [Tri.not]
    rw [hnot, memberOf_f _ _ (by simpa using hy)]
    · constructor
      · rintro ⟨a, b⟩
        refine ⟨a, fun x hx hn he => b ?_⟩
        exact List.mem_map.mpr ⟨x, List.mem_filter.mpr ⟨hx, by simpa using hn⟩, he⟩
      · rintro ⟨a, b⟩
        refine ⟨a, fun hm => ?_⟩
        obtain ⟨x, hx, he⟩ := List.mem_map.mp hm
        obtain ⟨p, q⟩ := List.mem_filter.mp hx
        exact b x p (by simpa using q) he
    · intro hm
      obtain ⟨x, hx, he⟩ := List.mem_map.mp hm
      obtain ⟨p, q⟩ := List.mem_filter.mp hx
      exact hnn x p (by simpa using q) he
  have hand : ∀ a b : Tri, a.and b = .t ↔ a = .t ∧ b = .t := by
    intro a b; cases a <;> cases b <;> simp [Tri.and]
  have htest : (if c.isNone then Tri.f else Tri.t) = .t ↔ c ≠ none := by cases c <;> simp
  cases hye : (xs.filter fun x => !x.isNone).isEmpty with
  | true =>
    have hall : ∀ x ∈ xs, x.isNone = true := by
      intro x hx
      cases hn : x.isNone with
      | true => rfl
      | false =>
        have : x ∈ xs.filter fun x => !x.isNone := List.mem_filter.mpr ⟨hx, by simpa using hn⟩
        rw [List.isEmpty_iff.mp hye] at this
        cases this
    have ha : xs.any Obj.isNone = true := by
      cases xs with
      | nil => exact absurd rfl hne
      | cons x xs => simp [hall x (by simp)]
    have hv2 : ∀ x ∈ xs, x.isNone = false → vals x ≠ c := fun x hx hn => by
      rw [hall x hx] at hn; cases hn
    simp only [ha, htest]
    exact ⟨fun h => ⟨h, hv2⟩, fun h => h.1⟩
  | false =>
    have hy : (xs.filter fun x => !x.isNone) ≠ [] := by intro h; rw [h] at hye; cases hye
    cases ha : xs.any Obj.isNone with
    | false => exact hmem hy
    | true =>
      simp only [hand, hmem hy, htest]
      exact ⟨fun h => h.1, fun h => ⟨h, h.1⟩⟩

end

/-- C12. The empty list raises when the condition is written. -/
theorem C12_empty (cx : Ctx) (n : Nat) (col v : Obj) (k : Rel) (hk : k = .in_ ∨ k = .notIn)
    (hi : v.iterate = some []) (c : Str) (hc : (sem cx (n + 1)).str (.sqlRef col) = .ok c) :
    (sem cx (n + 1)).str (.conds [.cond false col k v]) = .error .invalidArgument := by
  have hc' : sqlRefText cx (sem cx n) col = .ok c := hc
  have key : ∀ k g z, inCondText cx (sem cx n) col k g z (sqlValueText cx (sem cx n)) v =
      .error .invalidArgument := by
    intro k g z
    unfold inCondText
    rw [hi]
    simp only [List.filter_nil, List.any_nil, Bool.false_eq_true, if_false]
    unfold plainCondText
    rw [hc']
    rfl
  have : condText cx (sem cx n) (.cond false col k v) = .error .invalidArgument := by
    rcases hk with rfl | rfl <;> exact key _ _ _
  show condsText cx (sem cx n) [] [.cond false col k v] = _
  unfold condsText partsText
  simp only [List.isEmpty_cons, Bool.false_eq_true, if_false, mapR, this]
  rfl

/-- C12. The conditions come from a list, tuple, range or generator given as a value, and from `IN` and
`NOT_IN` with any such value or with several arguments. -/
theorem C12_api (cx : Ctx) (S : Sem) (c : Str) (xs : List Obj) :
    mkConds cx S { pos := [.str c, .list xs] } = .ok (.conds [.cond false (.str c) .in_ (.list xs)]) ∧
    mkConds cx S { pos := [.str c, .tuple xs] } = .ok (.conds [.cond false (.str c) .in_ (.list xs)]) ∧
    mkConds cx S { pos := [.str c, .gen xs] } = .ok (.conds [.cond false (.str c) .in_ (.list xs)]) ∧
    (∀ (k : Rel) (args : List Obj) (r : Obj), k = .in_ ∨ k = .notIn → mkRel k args = .ok r →
      (args = [.list xs] ∨ args = [.tuple xs] ∨ args = [.set xs] ∨ args = [.gen xs] ∨
        args = xs ∧ xs.length ≠ 1) →
      mkConds cx S { pos := [.str c, r] } = .ok (.conds [.cond false (.str c) k (.list xs)])) := by
  refine ⟨by rw [mkConds_pair]; rfl, by rw [mkConds_pair]; rfl, by rw [mkConds_pair]; rfl, ?_⟩
  intro k args r hk e ha
  have hr : r = .rel k (.list xs) := by
    rcases ha with rfl | rfl | rfl | rfl | ⟨rfl, hl⟩ <;> rcases hk with rfl | rfl <;>
      first
      | (cases e; rfl)
      | (match args, hl, e with
        | [], _, e => cases e; rfl
        | [_], hl, _ => exact absurd rfl hl
        | _ :: _ :: _, _, e => cases e; rfl)
  subst hr
  rw [mkConds_pair]
  rfl

/-- C12, what does not hold: a list wrapped in `V` keeps its `None` inside the parentheses, where it
matches no row. -/
theorem C12_wrapped_list (cx : Ctx) (n : Nat) :
    ∃ q a, mkConds cx (sem cx (n + 3)) { pos := [.str L!"a", .sqlValue (.list [.int 1, .none])] } =
      .ok q ∧ (sem cx (n + 3)).str (.sqlRef (.str L!"a")) = .ok a ∧
      (sem cx (n + 3)).str q = .ok (a ++ L!" IN (1, NULL)") := by
  rw [mkConds_pair]
  refine ⟨_, _, rfl, rfl, ?_⟩
  show Except.ok ((reference cx.backend.quote L!"a" ++ L!" IN") ++ L!" (1, NULL)") = _
  rw [List.append_assoc]
  rfl

/-! Both theorems on `Q(a=NOT_IN([1, None, 2]))` and `Q(a=[1, None])`. -/

private def val0 : List Tok → Option Str
  | [.num s] => some s
  | [.ident _] => some L!"1"
  | _ => none

example : NoRaw cx0.backend.quote .cond (.conds [.cond false (.str L!"a") .notIn (.list [.int 1, .none, .int 2])]) :=
  ⟨3, by decide +kernel⟩

example : (sem cx0 3).str (.conds [.cond false (.str L!"a") .notIn (.list [.int 1, .none, .int 2])]) =
    .ok L!"(\"a\" NOT IN (1, 2) AND \"a\" IS NOT NULL)" := by decide +kernel

example : truth (predicate val0 fun _ => .u)
    (lex standardDialect L!"(\"a\" IN (1) OR \"a\" IS NULL)") = .t := by decide +kernel

example : truth (predicate val0 fun _ => .u)
    (lex standardDialect L!"(\"a\" NOT IN (1, 2) AND \"a\" IS NOT NULL)") = .f := by decide +kernel

end SqlPuzzle
