import Mathlib.Data.List.Nodup
import Verif.Proofs.Joins
import Verif.Spec.JoinHistory

/-!
The tables of a query after a history of calls.
-/

namespace SqlPuzzle.JoinHistory

open Spec Classical

/-! ### Conditions without repetition -/

noncomputable def addOn (cs : List Cond) (c : Cond) : List Cond :=
  if cs.any fun x => decide (SameOn x c) then cs else cs ++ [c]

theorem foldl_addOn (gs r : List Cond) :
    gs.foldl addOn r = r ++ (firsts (fun a b => decide (SameOn a b)) gs).filter
      fun g => !r.any fun x => decide (SameOn x g) := by
  induction gs generalizing r with
  | nil => simp [firsts]
  | cons g gs ih =>
    rw [List.foldl_cons, ih, firsts, addOn]
    by_cases hg : (r.any fun x => decide (SameOn x g)) = true
    · rw [if_pos hg, List.filter_cons_of_neg (by simp [hg]), List.filter_filter]
      congr 1
      refine List.filter_congr fun y _ => ?_
      obtain ⟨x, hx, hxg⟩ := List.any_eq_true.mp hg
      by_cases hgy : SameOn g y
      · have : (r.any fun x => decide (SameOn x y)) = true :=
          List.any_eq_true.mpr ⟨x, hx, decide_eq_true (sameOn_trans (of_decide_eq_true hxg) hgy)⟩
        simp [this]
      · simp [hgy]
    · rw [if_neg hg, List.filter_cons_of_pos (by simpa using hg), List.filter_filter,
        List.append_assoc, List.singleton_append]
      congr 2
      refine List.filter_congr fun y _ => ?_
      rw [List.any_append]
      simp [Bool.not_or]

theorem foldl_addOn_nil (gs : List Cond) :
    gs.foldl addOn [] = firsts (fun a b => decide (SameOn a b)) gs := by
  rw [foldl_addOn]
  simp

/-! ### One event -/

def mapLast {α : Type} (f : α → α) : List α → List α
  | [] => []
  | [x] => [f x]
  | x :: y :: ys => x :: mapLast f (y :: ys)

theorem mapLast_concat {α : Type} (f : α → α) (xs : List α) (x : α) :
    mapLast f (xs ++ [x]) = xs ++ [f x] := by
  induction xs with
  | nil => rfl
  | cons y ys ih =>
    cases ys with
    | nil => rfl
    | cons z zs => exact congrArg (y :: ·) ih

def bare (p : Obj × Obj) : Table := ⟨p.1, p.2, []⟩

def onsOf (ps : List (Obj × Obj)) : List Cond := ps.map fun p => joinCondOf p.1 p.2

noncomputable def evStep (ts : List Table) : TableEvent → List Table
  | .tables ps => ts ++ ps.map bare
  | .join ty n al => mapLast (fun t => { t with joins := t.joins ++ [⟨ty, n, al, []⟩] }) ts
  | .on ps => mapLast (fun t => { t with
      joins := mapLast (fun j => { j with ons := (onsOf ps).foldl addOn j.ons }) t.joins }) ts
  | .rendered | .other => ts

/-! ### The events together -/

/-- The joins of a table that has joins, after more events. -/
noncomputable def extend (js : List Join) (es : List TableEvent) : List Join :=
  mapLast (fun j => { j with ons := (onsUntilJoin es).foldl addOn j.ons }) js ++ joinsGiven es

theorem extend_nil (js : List Join) : extend js [] = js := by
  rcases List.eq_nil_or_concat' js with rfl | ⟨ks, j, rfl⟩
  · rfl
  · simp [extend, mapLast_concat, onsUntilJoin, joinsGiven]

theorem givenTogether_concat (ps : List (Obj × Obj)) (p : Obj × Obj) (js : List Join) :
    givenTogether (ps ++ [p]) js = ps.map bare ++ [⟨p.1, p.2, js⟩] := by
  induction ps with
  | nil => rfl
  | cons q ps ih =>
    cases ps with
    | nil => rfl
    | cons r ps => exact congrArg (bare q :: ·) ih

theorem fold_last (es : List TableEvent) (us : List Table) (t : Table) :
    es.foldl evStep (us ++ [t]) =
      us ++ [{ t with joins := extend t.joins (untilTable es) }] ++ tablesGiven es := by
  induction es generalizing us t with
  | nil => simp [untilTable, extend_nil, tablesGiven]
  | cons e es ih =>
    rw [List.foldl_cons]
    cases e with
    | tables ps =>
      rcases List.eq_nil_or_concat' ps with rfl | ⟨qs, q, rfl⟩
      · simp only [evStep, List.map_nil, List.append_nil, ih, tablesGiven, givenTogether,
          List.nil_append, untilTable]
        rfl
      · have h1 : evStep (us ++ [t]) (.tables (qs ++ [q])) =
            (us ++ [t] ++ qs.map bare) ++ [bare q] := by
          simp [evStep]
        have h2 : untilTable (.tables (qs ++ [q]) :: es) = [] := by cases qs <;> rfl
        rw [h1, ih, h2, extend_nil, tablesGiven, givenTogether_concat]
        simp [bare, extend, mapLast]
    | join ty n al =>
      rw [evStep, mapLast_concat, ih]
      show _ = _ ++ tablesGiven es
      congr 3
      simp only [untilTable, extend, mapLast_concat, onsUntilJoin, joinsGiven, List.foldl_nil,
        foldl_addOn_nil, List.append_assoc, List.singleton_append]
      congr 1
      rcases List.eq_nil_or_concat' t.joins with h | ⟨ks, j, h⟩
      · rw [h]; rfl
      · rw [h, mapLast_concat]
    | on ps =>
      rw [evStep, mapLast_concat, ih]
      show _ = _ ++ tablesGiven es
      congr 3
      simp only [untilTable, extend, onsUntilJoin, joinsGiven]
      congr 1
      rcases List.eq_nil_or_concat' t.joins with h | ⟨ks, j, h⟩
      · rw [h]; rfl
      · rw [h, mapLast_concat, mapLast_concat, mapLast_concat, List.foldl_append]
        rfl
    | rendered => rw [evStep, ih]; rfl
    | other => rw [evStep, ih]; rfl

theorem fold_all (es : List TableEvent) : es.foldl evStep [] = tablesGiven es := by
  induction es with
  | nil => rfl
  | cons e es ih =>
    rw [List.foldl_cons]
    cases e with
    | tables ps =>
      rcases List.eq_nil_or_concat' ps with rfl | ⟨qs, q, rfl⟩
      · simp only [evStep, List.map_nil, List.append_nil, ih, tablesGiven, givenTogether,
          List.nil_append]
      · have h1 : evStep [] (.tables (qs ++ [q])) = qs.map bare ++ [bare q] := by simp [evStep]
        rw [h1, fold_last, tablesGiven, givenTogether_concat]
        simp [bare, extend, mapLast]
    | join ty n al => exact ih
    | on ps => exact ih
    | rendered => exact ih
    | other => exact ih

/-! ### Calls -/

def named (t : Table) : Obj × Obj := (t.name, t.alias)

def joinNamed (j : Join) : Obj × Obj := (j.name, j.alias)

/-- What is known of the tables before a call. -/
structure Inv (r : Prop) (seen : List (Obj × Obj)) (ts : List Table) : Prop where
  names : ∀ t ∈ ts, t.name.scalar = true ∧ t.alias.scalar = true
  ons : ∀ t ∈ ts, ∀ j ∈ t.joins, ∀ c ∈ j.ons, PlainOn c
  joins : r → ∀ t ∈ ts, (t.joins.map joinNamed).Nodup ∧
    ∀ j ∈ t.joins, (j.name.scalar = true ∧ j.alias.scalar = true) ∧ joinNamed j ∈ seen

theorem exactTable_scalar {p : Obj × Obj} (h : ExactTable p) :
    p.1.scalar = true ∧ p.2.scalar = true :=
  ⟨(exactTable_mk h).2.1, (exactTable_mk h).2.2.1⟩

theorem tableEq_other (cx : Ctx) (n : Nat) {a b : Table}
    (ha : a.name.scalar = true ∧ a.alias.scalar = true)
    (hb : b.name.scalar = true ∧ b.alias.scalar = true) (h : named a ≠ named b) :
    tableEq cx (sem cx (n + 1)) a b = .ok false := by
  obtain ⟨r, e1, e2⟩ := eqF_scalar cx (sem cx n) ha.1 hb.1
  obtain ⟨r', e3, e4⟩ := eqF_scalar cx (sem cx n) ha.2 hb.2
  have e1 : (sem cx (n + 1)).eq a.name b.name = .ok r := e1
  have e3 : (sem cx (n + 1)).eq a.alias b.alias = .ok r' := e3
  have h0 : (r && r') = false := by
    cases r with
    | false => rfl
    | true =>
      cases r' with
      | false => rfl
      | true => exact absurd (Prod.ext (e2.mp rfl) (e4.mp rfl)) h
  rw [tableEq, e1, e3, andR_ok, h0]
  rfl

theorem tablesSet_distinct (cx : Ctx) (n : Nat) {a : Args} {ps : List (Obj × Obj)} {ts : List Table}
    (hl : ListsTables a ps) (ht : ∀ t ∈ ts, t.name.scalar = true ∧ t.alias.scalar = true)
    (hd : (ts.map named ++ ps).Nodup) :
    tablesSet cx (sem cx (n + 1)) ts a = (ts ++ ps.map bare, none) := by
  obtain ⟨hg, hne, hp⟩ := hl
  obtain ⟨h1, h2⟩ := givesNames_parse hg (sem cx (n + 1))
  simp only [tablesSet, tables_filter hg hne hp, h1, h2, Bool.false_eq_true, if_false, withR]
  clear h1 h2 hne hg
  induction ps generalizing ts with
  | nil => simp [rows2, forUpd]
  | cons p ps ih =>
    have hx := exactTable_mk (hp p (by simp))
    have hs := exactTable_scalar (hp p (by simp))
    have hany : anyR (fun q => tableEq cx (sem cx (n + 1)) q (bare p)) ts = .ok false := by
      rw [anyR_false]
      intro t htm
      refine tableEq_other cx n (ht t htm) hs fun h => ?_
      rw [List.nodup_append] at hd
      exact hd.2.2 (named t) (List.mem_map_of_mem htm) p (by simp) h
    have hb : pairOf [p.1, p.2] = p := rfl
    have hstep : appendUnique (tableEq cx (sem cx (n + 1))) ts ⟨p.1, p.2, []⟩ =
        (ts ++ [bare p], none) := by
      show appendUnique _ ts (bare p) = _
      rw [appendUnique, hany]
    have := ih (ts := ts ++ [bare p])
      (by
        intro t htm
        rcases List.mem_append.mp htm with h | h
        · exact ht t h
        · cases List.mem_singleton.mp h; exact hs)
      (by simpa [named, bare] using hd) (fun q hq => hp q (by simp [hq]))
    simp only [rows2, List.map_cons, forUpd, hb, hx.1, hstep] at this ⊢
    rw [this]
    simp

theorem exactOn_mk {p : Obj × Obj} (h : ExactCond p) :
    mkCond true p.1 p.2 = .ok (joinCondOf p.1 p.2) ∧ PlainOn (joinCondOf p.1 p.2) := by
  obtain ⟨h1, h2⟩ := exactCond_mk h
  obtain ⟨s, hs⟩ := h.1
  unfold mkCond at h1 ⊢
  obtain ⟨_, h0, h1⟩ := bind_ok.mp h1
  obtain ⟨⟨k, w⟩, h3, h4⟩ := bind_ok.mp h1
  have h4 : Except.ok (CondPart.cond false p.1 k w) = Except.ok (condOf p.1 p.2) := h4
  injection h4 with h4
  rw [h0, ok_bind, h3, joinCondOf, ← h4]
  rw [← h4] at h2
  refine ⟨rfl, ?_⟩
  show PlainOn (.cond true p.1 k w)
  rw [hs]
  exact h2.2.2

theorem addOn_plain {cs : List Cond} {c : Cond} (hc : ∀ c ∈ cs, PlainOn c) (h : PlainOn c) :
    ∀ x ∈ addOn cs c, PlainOn x := by
  intro x hx
  unfold addOn at hx
  split at hx
  · exact hc x hx
  · rcases List.mem_append.mp hx with hx | hx
    · exact hc x hx
    · cases List.mem_singleton.mp hx; exact h

theorem condsOn_exact (cx : Ctx) (n : Nat) {a : Args} {ps : List (Obj × Obj)} {cs : List Cond}
    (hg : GivesOns a ps) (hc : ∀ c ∈ cs, PlainOn c) :
    condsWhere cx (sem cx (n + 2)) true cs a = ((onsOf ps).foldl addOn cs, none) ∧
      ∀ c ∈ (onsOf ps).foldl addOn cs, PlainOn c := by
  obtain ⟨hg, hp⟩ := hg
  obtain ⟨h1, h2⟩ := givesPairs_parse hg (sem cx (n + 2))
  have hq : (!a.pos.isEmpty && a.pos.all Obj.isConds) = false := by
    have hstr : ∀ x y, (x, y) ∈ ps → ∃ s, x = .str s := fun x y h => (hp _ h).1
    cases hg with
    | usual h3 _ _ =>
      cases h3 with
      | nothing => rfl
      | @direct x y _ =>
        obtain ⟨s, rfl⟩ := hstr x y (by simp)
        rfl
      | listed h _ => cases h <;> rfl
      | several h =>
        cases h with
        | cons h _ =>
          simp only [List.isEmpty_cons, Bool.not_false, List.all_cons, Bool.true_and,
            Bool.and_eq_false_iff]
          left
          cases h with
          | two h => cases h <;> rfl
          | one h => cases h <;> rfl
          | zero h => cases h <;> rfl
    | dict _ _ => rfl
  simp only [condsWhere, h1, h2, givesPairs_custom hg, hq, Bool.false_eq_true, if_false, withR]
  clear h1 h2 hq hg
  induction ps generalizing cs with
  | nil => exact ⟨rfl, hc⟩
  | cons p ps ih =>
    obtain ⟨hm, hpl⟩ := exactOn_mk (hp p (by simp))
    have hstep : appendUnique (condEq cx (sem cx (n + 2))) cs (joinCondOf p.1 p.2) =
        (addOn cs (joinCondOf p.1 p.2), none) := by
      have hany : anyR (fun q => condEq cx (sem cx (n + 2)) q (joinCondOf p.1 p.2)) cs =
          .ok (cs.any fun x => decide (SameOn x (joinCondOf p.1 p.2))) := by
        clear ih
        induction cs with
        | nil => rfl
        | cons c cs ih =>
          obtain ⟨r, e, f⟩ := condEq_on cx n (hc c (by simp)) hpl
          have hr : r = decide (SameOn c (joinCondOf p.1 p.2)) := by
            cases r with
            | true => exact (decide_eq_true (f.mp rfl)).symm
            | false => exact (decide_eq_false fun h => by cases f.mpr h).symm
          rw [anyR, e, ih fun x hx => hc x (by simp [hx]), orR_ok, hr, List.any_cons]
      rw [appendUnique, hany, addOn]
      cases cs.any fun x => decide (SameOn x (joinCondOf p.1 p.2)) <;> rfl
    have hb : pairOf [p.1, p.2] = p := rfl
    have := ih (cs := addOn cs (joinCondOf p.1 p.2)) (addOn_plain hc hpl)
      (fun q hq => hp q (by simp [hq]))
    simp only [rows2, List.map_cons, forUpd, hb, hm, hstep, onsOf, List.foldl_cons] at this ⊢
    exact this

/-! ### Rendering -/

theorem mergedJoins_distinct {js : List Join} (h : (js.map joinNamed).Nodup) :
    mergedJoins (fun a b => decide (SameJoin a b)) js = js := by
  have hne : ∀ js : List Join, (js.map joinNamed).Nodup →
      ∀ j ∈ js, ∀ k ∈ js, SameJoin j k → j = k := by
    intro js h j hj k hk hs
    exact List.inj_on_of_nodup_map h hj hk (Prod.ext hs.1 hs.2.1)
  have h1 : ∀ js : List Join, (js.map joinNamed).Nodup →
      firsts (fun a b => decide (SameJoin a b)) js = js := by
    intro js h
    induction js with
    | nil => rfl
    | cons j js ih =>
      rw [List.map_cons, List.nodup_cons] at h
      rw [firsts, ih h.2, List.filter_eq_self.mpr]
      intro k hk
      simp only [Bool.not_eq_true', decide_eq_false_iff_not]
      exact fun hs => h.1 (List.mem_map.mpr ⟨k, hk, (Prod.ext hs.1 hs.2.1).symm⟩)
  have h2 : ∀ j ∈ js, merged (js.filter fun k => decide (SameJoin j k)) = [j] := by
    intro j hj
    have : (js.filter fun k => decide (SameJoin j k)) = [j] := by
      have hn : js.Nodup := List.Nodup.of_map _ h
      have : (js.filter fun k => decide (SameJoin j k)) = js.filter fun k => decide (k = j) := by
        refine List.filter_congr fun k hk => ?_
        congr 1
        exact propext ⟨fun hs => (hne js h j hj k hk hs).symm, fun e => e ▸ sameJoin_refl k⟩
      rw [this]
      clear this h h1
      induction js with
      | nil => cases hj
      | cons x js ih =>
        rw [List.nodup_cons] at hn
        rcases List.mem_cons.mp hj with rfl | hj
        · rw [List.filter_cons_of_pos (by simp), List.filter_eq_nil_iff.mpr]
          intro k hk
          simp only [decide_eq_true_eq]
          rintro rfl
          exact hn.1 hk
        · rw [List.filter_cons_of_neg, ih hj hn.2]
          simp only [decide_eq_true_eq]
          rintro rfl
          exact hn.1 hj
    rw [this]
    rfl
  unfold mergedJoins
  rw [h1 js h]
  have : ∀ l : List Join, (∀ j ∈ l, merged (js.filter fun k => decide (SameJoin j k)) = [j]) →
      (l.flatMap fun h => merged (js.filter fun k => decide (SameJoin h k))) = l := by
    intro l hl
    induction l with
    | nil => rfl
    | cons x l ih =>
      rw [List.flatMap_cons, hl x (by simp), ih fun y hy => hl y (by simp [hy])]
      rfl
  exact this js h2

theorem strTables_distinct (cx : Ctx) (n : Nat) {ts : List Table}
    (h : ∀ t ∈ ts, (t.joins.map joinNamed).Nodup ∧ ∀ j ∈ t.joins, PlainJoin j) :
    (strTables cx (sem cx (n + 2)) ts).1 = ts := by
  have one : ∀ t : Table, (t.joins.map joinNamed).Nodup → (∀ j ∈ t.joins, PlainJoin j) →
      (strTable cx (sem cx (n + 2)) t).1 = t := by
    intro t h1 h2
    unfold strTable
    split
    · rfl
    · split
      · rfl
      · rw [minimizeJoins_plain cx n h2, mergedJoins_distinct h1]
  induction ts with
  | nil => rfl
  | cons t ts ih =>
    have h1 := one t (h t (by simp)).1 (h t (by simp)).2
    have h2 := ih fun u hu => h u (by simp [hu])
    unfold strTables
    split
    · next t' e he =>
      rw [he] at h1
      simp only at h1 ⊢
      rw [h1]
    · next t' he =>
      rw [he] at h1
      simp only at h1 ⊢
      rw [h1, h2]

/-! ### Histories -/

/-- What a call does to the tables. -/
inductive Does (cx : Ctx) (n : Nat) : (List Table → List Table) → TableEvent → Prop
  | set {a ps} : ListsTables a ps →
      Does cx n (fun ts => (tablesSet cx (sem cx (n + 2)) ts a).1) (.tables ps)
  | join {ty arg m al} : JoinsTable cx ty arg m al →
      Does cx n (fun ts => (tablesJoin cx (sem cx (n + 2)) ts ty arg).1) (.join ty m al)
  | on {a ps} : GivesOns a ps → Does cx n (fun ts => (tablesOn cx (sem cx (n + 2)) ts a).1) (.on ps)
  | str : Does cx n (fun ts => (strTables cx (sem cx (n + 2)) ts).1) .rendered
  | unrendered : Does cx n id .rendered
  | other : Does cx n id .other

theorem mem_mapLast {α : Type} {f : α → α} {xs : List α} {y : α} (h : y ∈ mapLast f xs) :
    y ∈ xs ∨ ∃ x ∈ xs, y = f x := by
  rcases List.eq_nil_or_concat' xs with rfl | ⟨ys, x, rfl⟩
  · exact .inl h
  · rw [mapLast_concat] at h
    rcases List.mem_append.mp h with h | h
    · exact .inl (by simp [h])
    · exact .inr ⟨x, by simp, List.mem_singleton.mp h⟩

theorem map_mapLast {α β : Type} {f : α → α} {g : α → β} (h : ∀ x, g (f x) = g x) (xs : List α) :
    (mapLast f xs).map g = xs.map g := by
  rcases List.eq_nil_or_concat' xs with rfl | ⟨ys, x, rfl⟩
  · rfl
  · rw [mapLast_concat]
    simp [h]

theorem does_step (cx : Ctx) (n : Nat) {r : Prop} {seen : List (Obj × Obj)} {ts : List Table}
    {g : List Table → List Table} {e : TableEvent} (hi : Inv r seen ts) (hd : Does cx n g e)
    (hn : (ts.map named ++ listedTables [e]).Nodup) (hr : e = .rendered → r)
    (hj : r → (seen ++ joinedTables [e]).Nodup ∧ ∀ p ∈ joinedTables [e], ExactTable p) :
    g ts = evStep ts e ∧ Inv r (seen ++ joinedTables [e]) (evStep ts e) ∧
      (evStep ts e).map named = ts.map named ++ listedTables [e] := by
  cases hd with
  | @set a ps h =>
    simp only [listedTables, List.append_nil] at hn ⊢
    refine ⟨by simp only [tablesSet_distinct cx (n + 1) h hi.names hn, evStep], ⟨?_, ?_, ?_⟩, ?_⟩
    · intro t ht
      rcases List.mem_append.mp ht with ht | ht
      · exact hi.names t ht
      · obtain ⟨p, hp, rfl⟩ := List.mem_map.mp ht
        exact exactTable_scalar (h.2.2 p hp)
    · intro t ht
      rcases List.mem_append.mp ht with ht | ht
      · exact hi.ons t ht
      · obtain ⟨p, hp, rfl⟩ := List.mem_map.mp ht
        rintro j ⟨⟩
    · intro hr' t ht
      simp only [joinedTables, List.append_nil]
      rcases List.mem_append.mp ht with ht | ht
      · exact hi.joins hr' t ht
      · obtain ⟨p, hp, rfl⟩ := List.mem_map.mp ht
        exact ⟨List.nodup_nil, by rintro j ⟨⟩⟩
    · simp only [evStep, List.map_append, List.map_map]
      congr 1
      exact List.map_id'' (fun _ => rfl) ps
  | @join ty arg m al h =>
    obtain ⟨h1, h2, h3, h4⟩ := h
    refine ⟨?_, ⟨?_, ?_, ?_⟩, ?_⟩
    · rcases List.eq_nil_or_concat' ts with rfl | ⟨us, t, rfl⟩
      · simp only [tablesJoin, updateLast, evStep, mapLast]
        split <;> rfl
      · simp only [tablesJoin_last cx _ h1 h2 h3 h4, evStep, mapLast_concat]
    · intro t ht
      rcases mem_mapLast ht with ht | ⟨u, hu, rfl⟩
      · exact hi.names t ht
      · exact hi.names u hu
    · intro t ht j hj
      rcases mem_mapLast ht with ht | ⟨u, hu, rfl⟩
      · exact hi.ons t ht j hj
      · rcases List.mem_append.mp hj with hj | hj
        · exact hi.ons u hu j hj
        · cases List.mem_singleton.mp hj
          rintro c ⟨⟩
    · intro hr' t ht
      obtain ⟨h5, h6⟩ := hj hr'
      have old : ∀ t ∈ ts, (t.joins.map joinNamed).Nodup ∧ ∀ j ∈ t.joins,
          (j.name.scalar = true ∧ j.alias.scalar = true) ∧ joinNamed j ∈ seen ++ [(m, al)] :=
        fun t ht => ⟨(hi.joins hr' t ht).1, fun j hj => ⟨((hi.joins hr' t ht).2 j hj).1,
          List.mem_append_left _ ((hi.joins hr' t ht).2 j hj).2⟩⟩
      rcases mem_mapLast ht with ht | ⟨u, hu, rfl⟩
      · exact old t ht
      · constructor
        · simp only [List.map_append, List.map_cons, List.map_nil]
          rw [List.nodup_append] at h5 ⊢
          refine ⟨(old u hu).1, by simp, ?_⟩
          intro p hp q hq
          obtain ⟨j, hj, rfl⟩ := List.mem_map.mp hp
          exact h5.2.2 _ ((hi.joins hr' u hu).2 j hj).2 q hq
        · intro j hj
          rcases List.mem_append.mp hj with hj | hj
          · exact (old u hu).2 j hj
          · cases List.mem_singleton.mp hj
            exact ⟨exactTable_scalar (h6 (m, al) (by simp [joinedTables])),
              by simp [joinedTables, joinNamed]⟩
    · simp only [evStep, listedTables, List.append_nil]
      exact map_mapLast (g := named) (fun _ => by rfl) ts
  | @on a ps h =>
    have hs : NoSelf a.kw := by
      have := (givesPairs_parse h.1 (sem cx 0)).2
      unfold kwSelf at this
      rw [List.any_eq_false] at this
      exact fun p hp => by simpa using this p hp
    refine ⟨?_, ⟨?_, ?_, ?_⟩, ?_⟩
    · rcases List.eq_nil_or_concat' ts with rfl | ⟨us, t, rfl⟩
      · simp only [tablesOn, updateLast, evStep, mapLast]
        split <;> rfl
      · rcases List.eq_nil_or_concat' t.joins with h0 | ⟨js, j, h0⟩
        · simp only [tablesOn, hs.kwSelf, updateLast_concat, tableOn, h0, updateLast, evStep,
            mapLast_concat, mapLast, Bool.false_eq_true, if_false]
          rw [← h0]
        · have hp := hi.ons t (by simp) j (by simp [h0])
          simp only [tablesOn_last cx _ hs us t js j h0, evStep, mapLast_concat, h0,
            (condsOn_exact cx n h hp).1]
    · intro t ht
      rcases mem_mapLast ht with ht | ⟨u, hu, rfl⟩
      · exact hi.names t ht
      · exact hi.names u hu
    · intro t ht j hj
      rcases mem_mapLast ht with ht | ⟨u, hu, rfl⟩
      · exact hi.ons t ht j hj
      · rcases mem_mapLast hj with hj | ⟨k, hk, rfl⟩
        · exact hi.ons u hu j hj
        · exact (condsOn_exact cx n h (hi.ons u hu k hk)).2
    · intro hr' t ht
      simp only [joinedTables, List.append_nil]
      rcases mem_mapLast ht with ht | ⟨u, hu, rfl⟩
      · exact hi.joins hr' t ht
      · refine ⟨?_, fun j hj => ?_⟩
        · simp only
          rw [map_mapLast (g := joinNamed) (fun _ => by rfl)]
          exact (hi.joins hr' u hu).1
        · rcases mem_mapLast hj with hj | ⟨k, hk, rfl⟩
          · exact (hi.joins hr' u hu).2 j hj
          · exact (hi.joins hr' u hu).2 k hk
    · simp only [evStep, listedTables, List.append_nil]
      exact map_mapLast (g := named) (fun _ => by rfl) ts
  | str =>
    simp only [listedTables, joinedTables, List.append_nil, evStep]
    refine ⟨strTables_distinct cx n fun t ht => ?_, hi, trivial⟩
    obtain ⟨h1, h2⟩ := hi.joins (hr rfl) t ht
    exact ⟨h1, fun j hj => ⟨(h2 j hj).1.1, (h2 j hj).1.2, hi.ons t ht j hj⟩⟩
  | unrendered =>
    simp only [listedTables, joinedTables, List.append_nil, evStep]
    exact ⟨rfl, hi, trivial⟩
  | other =>
    simp only [listedTables, joinedTables, List.append_nil, evStep]
    exact ⟨rfl, hi, trivial⟩

theorem listedTables_cons (e : TableEvent) (es : List TableEvent) :
    listedTables (e :: es) = listedTables [e] ++ listedTables es := by
  cases e <;> simp [listedTables]

theorem joinedTables_cons (e : TableEvent) (es : List TableEvent) :
    joinedTables (e :: es) = joinedTables [e] ++ joinedTables es := by
  cases e <;> simp [joinedTables]

theorem history_fold {σ ω : Type} {step : σ → ω → Upd σ} {f : σ → List Table}
    {Ev : ω → TableEvent → Prop} (cx : Ctx) (n : Nat) {r : Prop}
    (hstep : ∀ q op e, Ev op e → ∃ g, Does cx n g e ∧ f (step q op).1 = g (f q))
    {ops : List ω} {es : List TableEvent} (h : List.Forall₂ Ev ops es) (hr : .rendered ∈ es → r)
    {q : σ} {seen : List (Obj × Obj)} (hi : Inv r seen (f q))
    (hn : ((f q).map named ++ listedTables es).Nodup)
    (hj : r → (seen ++ joinedTables es).Nodup ∧ ∀ p ∈ joinedTables es, ExactTable p) :
    f (runOps step q ops) = es.foldl evStep (f q) := by
  induction h generalizing q seen with
  | nil => rfl
  | @cons op e ops es h _ ih =>
    obtain ⟨g, hg, hq⟩ := hstep q op e h
    rw [listedTables_cons, ← List.append_assoc] at hn
    rw [joinedTables_cons, ← List.append_assoc] at hj
    obtain ⟨h1, h2, h3⟩ := does_step cx n hi hg (List.nodup_append.mp hn).1
      (fun he => hr (by simp [he]))
      (fun x => ⟨(List.nodup_append.mp (hj x).1).1,
        fun p hp => (hj x).2 p (List.mem_append_left _ hp)⟩)
    rw [runOps_cons, List.foldl_cons]
    rw [← h1, ← hq] at h2 h3
    rw [ih (fun hm => hr (by simp [hm])) h2 (by rw [h3]; exact hn)
      (fun x => ⟨(hj x).1, fun p hp => (hj x).2 p (List.mem_append_right _ hp)⟩), hq, h1]

/-- The tables after a history that starts with a query without tables. -/
theorem history_tables {σ ω : Type} {step : σ → ω → Upd σ} {f : σ → List Table}
    {Ev : ω → TableEvent → Prop} (cx : Ctx) (n : Nat)
    (hstep : ∀ q op e, Ev op e → ∃ g, Does cx n g e ∧ f (step q op).1 = g (f q))
    {ops : List ω} {es : List TableEvent} (h : List.Forall₂ Ev ops es)
    (hn : (listedTables es).Nodup) (hj : .rendered ∈ es → DistinctJoins es) {q : σ}
    (hq : f q = []) :
    f (runOps step q ops) = tablesGiven es := by
  rw [history_fold cx n hstep h (r := .rendered ∈ es) id (seen := []) (q := q)
    (by rw [hq]; exact ⟨by simp, by simp, by simp⟩) (by simpa [hq] using hn)
    (fun h => by rw [List.nil_append]; exact hj h), hq, fold_all]

/-! ### No condition is lost -/

theorem firsts_all {truth : Cond → Prop} (hm : ∀ a b, mirror a = some b → (truth a ↔ truth b))
    (cs : List Cond) :
    (∀ c ∈ firsts (fun a b => decide (SameOn a b)) cs, truth c) ↔ ∀ c ∈ cs, truth c := by
  have same : ∀ a b, SameOn a b → (truth a ↔ truth b) := by
    rintro a b (rfl | h)
    · rfl
    · exact hm a b h
  induction cs with
  | nil => simp [firsts]
  | cons c cs ih =>
    rw [firsts, List.forall_mem_cons, List.forall_mem_cons]
    refine and_congr_right fun hc => ⟨fun h => ih.mp fun x hx => ?_,
      fun h x hx => ih.mpr h x (List.mem_filter.mp hx).1⟩
    by_cases hs : SameOn c x
    · exact (same c x hs).mp hc
    · exact h x (List.mem_filter.mpr ⟨hx, by simp [hs]⟩)

theorem join_kept {es es' : List TableEvent} {ty : JoinType} {name al : Obj}
    (ht : listedTables es ≠ []) {truth : Cond → Prop}
    (hm : ∀ a b, mirror a = some b → (truth a ↔ truth b)) :
    ∃ t ∈ tablesGiven (es ++ .join ty name al :: es'), ∃ j ∈ t.joins,
      j.type = ty ∧ j.name = name ∧ j.alias = al ∧
      ((∀ c ∈ j.ons, truth c) ↔ ∀ c ∈ onsUntilJoin (untilTable es'), truth c) := by
  rw [← fold_all, List.foldl_append]
  have hne : ∀ (es : List TableEvent) (ts : List Table), ts ≠ [] ∨ listedTables es ≠ [] →
      es.foldl evStep ts ≠ [] := by
    intro es
    induction es with
    | nil => rintro ts (h | h); exacts [h, absurd rfl h]
    | cons e es ih =>
      intro ts h
      rw [List.foldl_cons]
      refine ih _ ?_
      have keep : ∀ (f : Table → Table) (ts : List Table), ts ≠ [] → mapLast f ts ≠ [] := by
        intro f ts hts
        obtain ⟨us, t, rfl⟩ := (List.eq_nil_or_concat' ts).resolve_left hts
        rw [mapLast_concat]
        simp
      rcases h with h | h
      · left
        cases e with
        | tables ps => simp [evStep, h]
        | join ty n al => exact keep _ _ h
        | on ps => exact keep _ _ h
        | rendered => exact h
        | other => exact h
      · cases e with
        | tables ps =>
          cases ps with
          | nil => exact .inr h
          | cons p ps => left; simp [evStep]
        | join ty n al => exact .inr h
        | on ps => exact .inr h
        | rendered => exact .inr h
        | other => exact .inr h
  obtain ⟨us, t, hu⟩ := (List.eq_nil_or_concat' _).resolve_left (hne es [] (.inr ht))
  rw [hu, List.foldl_cons, evStep, mapLast_concat, fold_last]
  refine ⟨_, List.mem_append_left _ (List.mem_append_right _ (List.mem_singleton.mpr rfl)), ?_⟩
  refine ⟨⟨ty, name, al, (onsUntilJoin (untilTable es')).foldl addOn []⟩, ?_, rfl, rfl, rfl, ?_⟩
  · simp only [extend, mapLast_concat]
    simp
  · rw [foldl_addOn_nil]
    exact firsts_all hm _

end SqlPuzzle.JoinHistory
