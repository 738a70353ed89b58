import Verif.Proofs.Answers
import Verif.Proofs.Accumulate
import Verif.Proofs.UniqParts
import Verif.Proofs.Settings
import Verif.Spec.Groups

/-!
Columns that are aggregates, and the parts of a SELECT that groups rows.
-/

namespace SqlPuzzle

open Spec

/-! ### The list of columns -/

/-- A named column or an aggregate, with a plain alias. -/
def CountedColumn (q : Char) (c : Column) : Prop :=
  ((∃ s, c.name = .str s ∧ '(' ∉ s) ∨ TidyAggregate q c.name) ∧ c.alias.scalar = true

private theorem agg_str (cx : Ctx) (n : Nat) (f : Agg) (d : Bool) (s : Str) :
    ∃ t, renderF cx (sem cx (n + 1)) (.func f d (.str s)) = .ok t ∧ '(' ∈ t := by
  have hp : ∀ a : Str, '(' ∈ f.text ++ '(' :: (if d then L!"DISTINCT " else []) ++ a ++ [')'] := fun a => by
    generalize f.text = u
    generalize (if d then L!"DISTINCT " else []) = v
    simp
  cases f with
  | count =>
    show ∃ t, funcText cx (sem cx (n + 1)) .count d (.str s) = .ok t ∧ _
    have h : (sem cx (n + 1)).eq (.str s) (.str ['*']) = .ok (s == ['*']) := rfl
    unfold funcText
    simp only [h, ok_bind]
    cases s == ['*'] <;> exact ⟨_, rfl, hp _⟩
  | _ => exact ⟨_, rfl, hp _⟩

private theorem name_eq (cx : Ctx) (n : Nat) {a b : Obj}
    (ha : (∃ s, a = .str s ∧ '(' ∉ s) ∨ TidyAggregate cx.backend.quote a)
    (hb : (∃ s, b = .str s ∧ '(' ∉ s) ∨ TidyAggregate cx.backend.quote b) :
    ∃ r, (sem cx (n + 2)).eq a b = .ok r ∧ (r = true ↔ a = b) := by
  have hq : cx.backend.quote = '"' ∨ cx.backend.quote = '`' := by cases cx.backend <;> decide
  have ne : ∀ {t s : Str}, '(' ∈ t → '(' ∉ s → (t == s) = false := by
    intro t s h1 h2
    rw [beq_eq_false_iff_ne]
    rintro rfl
    exact h2 h1
  rcases ha with ⟨s, rfl, hs⟩ | ha <;> rcases hb with ⟨u, rfl, hu⟩ | hb
  · exact ⟨s == u, rfl, by simp⟩
  · obtain ⟨f, d, x, rfl, _⟩ := id hb
    obtain ⟨t, ht, hp⟩ := agg_str cx n f d x
    refine ⟨false, ?_, by simp⟩
    show (renderF cx (sem cx (n + 1)) (.func f d (.str x)) >>= fun t => (.ok (t == s) : R Bool)) = _
    rw [ht, ok_bind, ne hp hs]
  · obtain ⟨f, d, x, rfl, _⟩ := id ha
    obtain ⟨t, ht, hp⟩ := agg_str cx n f d x
    refine ⟨false, ?_, by simp⟩
    show (renderF cx (sem cx (n + 1)) (.func f d (.str x)) >>= fun t => (.ok (t == u) : R Bool)) = _
    rw [ht, ok_bind, ne hp hu]
  · obtain ⟨f, d, x, rfl, _⟩ := id ha
    obtain ⟨f', d', x', rfl, _⟩ := id hb
    obtain ⟨t, ht, _⟩ := agg_str cx n f d x
    obtain ⟨t', ht', _⟩ := agg_str cx n f' d' x'
    refine ⟨t == t', ?_, ?_⟩
    · show (renderF cx (sem cx (n + 1)) (.func f d (.str x)) >>= fun t =>
        renderF cx (sem cx (n + 1)) (.func f' d' (.str x')) >>= fun u => (.ok (t == u) : R Bool)) = _
      rw [ht, ok_bind, ht', ok_bind]
    · rw [beq_iff_eq]
      constructor
      · rintro rfl
        exact (agg_uniq hq (agg_text (n := n + 2) ha ht) (agg_text (n := n + 2) hb ht') (x := []) (y := []) rfl).1
      · intro e
        rw [e, ht'] at ht
        injection ht with ht
        exact ht.symm

theorem columnEq_counted (cx : Ctx) (n : Nat) {a b : Column} (ha : CountedColumn cx.backend.quote a)
    (hb : CountedColumn cx.backend.quote b) :
    ∃ r, columnEq (sem cx (n + 2)) a b = .ok r ∧ (r = true ↔ a = b) := by
  obtain ⟨r, e1, e2⟩ := name_eq cx n ha.1 hb.1
  obtain ⟨r', e3, e4⟩ := eqF_scalar cx (sem cx (n + 1)) ha.2 hb.2
  have e3 : (sem cx (n + 2)).eq a.alias b.alias = .ok r' := e3
  refine ⟨r && r', by simp only [columnEq, e1, e3, andR_ok], ?_⟩
  cases a; cases b
  simp [e2, e4]

theorem answerColumn_mk {q : Char} {column : Str → List Tok} {p : Obj × Obj} (h : AnswerColumn q column p) :
    mkColumn p.1 p.2 = .ok ⟨p.1, p.2⟩ ∧ CountedColumn q ⟨p.1, p.2⟩ := by
  obtain ⟨c, a⟩ := p
  obtain ⟨h1, h2⟩ := h
  simp only at h1 h2
  have ha : a.scalar = true ∧ checkType [.str, .none] a = .ok () := by
    rcases h2 with rfl | ⟨a, rfl, _⟩ <;> exact ⟨rfl, rfl⟩
  have hc : checkType [.str, .int] c = .ok () := by
    rcases h1 with ⟨c, rfl, _⟩ | ⟨f, d, s, rfl, _⟩ <;> rfl
  refine ⟨?_, ?_, ha.1⟩
  · unfold mkColumn
    rw [hc, ok_bind, ha.2, ok_bind]
  · rcases h1 with ⟨c, rfl, h1, _⟩ | h1
    · exact .inl ⟨c, rfl, h1⟩
    · exact .inr h1

/-- One call with such columns. -/
theorem counted_step (cx : Ctx) (n : Nat) {column : Str → List Tok} {a : Args} {ps : List (Obj × Obj)}
    {cs given : List Column} (hg : GivesNames a ps) (hp : ∀ p ∈ ps, AnswerColumn cx.backend.quote column p)
    (hc : ∀ c ∈ cs, CountedColumn cx.backend.quote c) (hf : FirstUses given cs) :
    FirstUses (given ++ ps.map fun p => (⟨p.1, p.2⟩ : Column)) (columnsAdd (sem cx (n + 2)) cs a).1 ∧
      ∀ c ∈ (columnsAdd (sem cx (n + 2)) cs a).1, CountedColumn cx.backend.quote c := by
  obtain ⟨h1, h2⟩ := givesNames_parse hg (sem cx (n + 2))
  have h6 : List.Forall₂ (fun b c => mkColumn (pairOf b).1 (pairOf b).2 = .ok c) (rows2 ps)
      (ps.map fun p => (⟨p.1, p.2⟩ : Column)) := by
    rw [rows2, List.forall₂_map_left_iff, List.forall₂_map_right_iff]
    exact List.forall₂_same.mpr fun p hm => (answerColumn_mk (hp p hm)).1
  have hcs : ∀ c ∈ ps.map fun p => (⟨p.1, p.2⟩ : Column), CountedColumn cx.backend.quote c := by
    intro c hc
    obtain ⟨p, hm, rfl⟩ := List.mem_map.mp hc
    exact (answerColumn_mk (hp p hm)).2
  obtain ⟨ps', h7, h8, h9⟩ := addAll_firstUses (eq := columnEq (sem cx (n + 2)))
    (mk := fun b => mkColumn (pairOf b).1 (pairOf b).2)
    (fun a b ha hb => columnEq_counted cx n ha hb) h6 hcs hc hf
  have : (columnsAdd (sem cx (n + 2)) cs a).1 = ps' := by
    unfold addAll at h7
    simp only [columnsAdd, h1, h2, Bool.false_eq_true, if_false, withR]
    simp only [withR] at h7
    rw [h7]
  rw [this]
  exact ⟨h8, h9⟩

/-! ### Conditions on groups -/

/-- A condition on a named column or on an aggregate with a plain value. -/
def CountedCond (q : Char) : Cond → Prop
  | .cond on col _ v => on = false ∧ ((∃ s, col = .str s ∧ '(' ∉ s) ∨ TidyAggregate q col) ∧ v.plain = true
  | .item _ => False

theorem condEq_counted (cx : Ctx) (n : Nat) {a b : Cond} (ha : CountedCond cx.backend.quote a)
    (hb : CountedCond cx.backend.quote b) :
    ∃ r, condEq cx (sem cx (n + 2)) a b = .ok r ∧ (r = true ↔ a = b) := by
  cases a with
  | item o => exact ha.elim
  | cond on c k v =>
    cases b with
    | item o => exact hb.elim
    | cond on' c' k' v' =>
      obtain ⟨rfl, h1, h2⟩ := ha
      obtain ⟨rfl, h3, h4⟩ := hb
      obtain ⟨r, e1, e2⟩ := name_eq cx n h1 h3
      obtain ⟨r', e3, e4⟩ := eqF_plain cx n h2 h4
      have e3 : (sem cx (n + 2)).eq v v' = .ok r' := e3
      refine ⟨r && (r' && (k == k')), ?_, ?_⟩
      · simp only [condEq, if_true, e1, e3, andR_ok, Bool.false_and, Bool.false_eq_true, if_false,
          orR_ok, Bool.or_false]
      · simp only [Bool.and_eq_true, e2, e4, beq_iff_eq, CondPart.cond.injEq, true_and]
        tauto

theorem groupCond_mk {q : Char} {p : Obj × Obj} (h : GroupCond q p) :
    mkCond false p.1 p.2 = .ok (condOf p.1 p.2) ∧ CountedCond q (condOf p.1 p.2) := by
  obtain ⟨col, v⟩ := p
  obtain ⟨hc, hv⟩ := h
  simp only at hc hv
  have k := exactCond_mk (p := (.str [], v)) ⟨⟨_, rfl⟩, hv⟩
  simp only at k
  have hm : mkCond false col v = .ok (condOf col v) := by
    rcases hc with ⟨s, rfl, _⟩ | ⟨f, d, s, rfl, _⟩ <;> cases v <;> first | rfl | exact hv.elim
  refine ⟨hm, ?_⟩
  have k := k.2
  cases v <;> first | exact hv.elim | exact ⟨rfl, hc, k.2.2⟩

/-- One call with such conditions. -/
theorem groupConds_step (cx : Ctx) (n : Nat) {a : Args} {ps : List (Obj × Obj)} {cs given : List Cond}
    (hg : GivesPairs a ps) (hp : ∀ p ∈ ps, GroupCond cx.backend.quote p)
    (hc : ∀ c ∈ cs, CountedCond cx.backend.quote c) (hf : FirstUses given cs) :
    FirstUses (given ++ ps.map fun p => condOf p.1 p.2) (condsWhere cx (sem cx (n + 2)) false cs a).1 ∧
      ∀ c ∈ (condsWhere cx (sem cx (n + 2)) false cs a).1, CountedCond cx.backend.quote c := by
  obtain ⟨h1, h2⟩ := givesPairs_parse hg (sem cx (n + 2))
  have hq : (!a.pos.isEmpty && a.pos.all Obj.isConds) = false := by
    cases hg with
    | usual h3 _ _ =>
      cases h3 with
      | nothing => rfl
      | @direct x y _ =>
        rcases (hp (x, y) (by simp)).1 with ⟨s, hs, _⟩ | ⟨f, d, s, hs, _⟩ <;> (simp only at hs; subst hs; rfl)
      | listed h _ => cases h <;> rfl
      | several h =>
        cases h with
        | cons h _ =>
          simp only [List.isEmpty_cons, Bool.not_false, List.all_cons, Bool.true_and,
            Bool.and_eq_false_iff]
          left
          cases h with
          | two h => cases h <;> rfl
          | one h => cases h <;> rfl
          | zero h => cases h <;> rfl
    | dict _ _ => rfl
  have h6 : List.Forall₂ (fun b c => mkCond false (pairOf b).1 (pairOf b).2 = .ok c) (rows2 ps)
      (ps.map fun p => condOf p.1 p.2) := by
    rw [rows2, List.forall₂_map_left_iff, List.forall₂_map_right_iff]
    exact List.forall₂_same.mpr fun p hm => (groupCond_mk (hp p hm)).1
  have hcs : ∀ c ∈ ps.map fun p => condOf p.1 p.2, CountedCond cx.backend.quote c := by
    intro c hc
    obtain ⟨p, hm, rfl⟩ := List.mem_map.mp hc
    exact (groupCond_mk (hp p hm)).2
  obtain ⟨ps', h7, h8, h9⟩ := addAll_firstUses (eq := condEq cx (sem cx (n + 2)))
    (mk := fun b => mkCond false (pairOf b).1 (pairOf b).2)
    (fun a b ha hb => condEq_counted cx n ha hb) h6 hcs hc hf
  have : (condsWhere cx (sem cx (n + 2)) false cs a).1 = ps' := by
    unfold addAll at h7
    simp only [condsWhere, h1, h2, givesPairs_custom hg, hq, Bool.false_eq_true, if_false, withR]
    simp only [withR] at h7
    rw [h7]
  rw [this]
  exact ⟨h8, h9⟩

/-! ### Sorting by aggregates -/

/-- A named column or an aggregate. -/
def Counted (q : Char) (c : Obj) : Prop := (∃ s, c = .str s ∧ '(' ∉ s) ∨ TidyAggregate q c

/-- The orders are the map described by the uses. -/
structure CountedOrders (q : Char) (uses : List Use) (os : List Order) : Prop where
  first : FirstUses (uses.map Prod.fst) (os.map OrderS.col)
  last : ∀ o ∈ os, LastValue uses o.col o.desc
  counted : ∀ o ∈ os, Counted q o.col

/-- One use: a known column changes its direction in place, a new one is appended. -/
theorem orderPut_counted (cx : Ctx) (n : Nat) {os : List Order} {col sort : Obj} {d : Bool}
    (hm : mkOrder cx col sort = .ok ⟨col, d⟩) (hc : Counted cx.backend.quote col)
    (hs : ∀ o ∈ os, Counted cx.backend.quote o.col) :
    ∃ os', orderPut cx (sem cx (n + 2)) os col sort = .ok os' ∧
      ((col ∉ os.map OrderS.col ∧ os' = os ++ [⟨col, d⟩]) ∨
       (∃ pre post o, os = pre ++ o :: post ∧ o.col = col ∧ os' = pre ++ ⟨col, d⟩ :: post)) := by
  have hd := (mkOrder_ok hm).2
  induction os with
  | nil => exact ⟨[⟨col, d⟩], by rw [orderPut, hm]; rfl, .inl ⟨by simp, rfl⟩⟩
  | cons o os ih =>
    obtain ⟨r, e1, e2⟩ := name_eq cx n (hs o (by simp)) hc
    cases r with
    | true =>
      have h1 : o.col = col := e2.mp rfl
      refine ⟨⟨o.col, d⟩ :: os, ?_, .inr ⟨[], os, o, rfl, h1, by rw [h1]; rfl⟩⟩
      rw [orderPut, e1]
      simp only [ok_bind, if_true]
      rw [hd]
      rfl
    | false =>
      have h1 : o.col ≠ col := fun h => by simpa using e2.mpr h
      obtain ⟨os', h2, h3⟩ := ih fun x hx => hs x (by simp [hx])
      refine ⟨o :: os', ?_, ?_⟩
      · rw [orderPut, e1]
        simp only [ok_bind, Bool.false_eq_true, if_false]
        rw [h2]
        rfl
      · rcases h3 with ⟨h3, rfl⟩ | ⟨pre, post, o', rfl, h4, rfl⟩
        · left
          refine ⟨?_, rfl⟩
          simp only [List.map_cons, List.mem_cons, not_or]
          exact ⟨fun h => h1 h.symm, h3⟩
        · exact .inr ⟨o :: pre, post, o', rfl, h4, rfl⟩

theorem CountedOrders.put {cx : Ctx} {n : Nat} {uses : List Use} {os : List Order} {col sort : Obj}
    {d : Bool} (h : CountedOrders cx.backend.quote uses os) (hm : mkOrder cx col sort = .ok ⟨col, d⟩)
    (hc : Counted cx.backend.quote col) :
    ∃ os', orderPut cx (sem cx (n + 2)) os col sort = .ok os' ∧ CountedOrders cx.backend.quote (uses ++ [(col, d)]) os' := by
  obtain ⟨os', h1, h2⟩ := orderPut_counted cx n hm hc h.counted
  refine ⟨os', h1, ?_⟩
  rcases h2 with ⟨h2, rfl⟩ | ⟨pre, post, o, rfl, h3, rfl⟩
  · refine ⟨?_, ?_, ?_⟩
    · simp only [List.map_append, List.map_cons, List.map_nil]
      exact h.first.new col h2
    · intro x hx
      rcases List.mem_append.mp hx with hx | hx
      · exact .there col d (h.last x hx) fun e => h2 (e ▸ List.mem_map.mpr ⟨x, hx, rfl⟩)
      · rw [List.mem_singleton.mp hx]; exact .here uses col d
    · intro x hx
      rcases List.mem_append.mp hx with hx | hx
      · exact h.counted x hx
      · rw [List.mem_singleton.mp hx]; exact hc
  · subst h3
    have hn := h.first.nodup
    refine ⟨?_, ?_, ?_⟩
    · have := h.first.old o.col (by simp)
      simpa using this
    · intro x hx
      have hne : ∀ x, x ∈ pre ∨ x ∈ post → x.col ≠ o.col := by
        intro x hx e
        simp only [List.map_append, List.map_cons] at hn
        rw [List.nodup_append] at hn
        obtain ⟨_, h4, h5⟩ := hn
        rw [List.nodup_cons] at h4
        rcases hx with hx | hx
        · exact h5 x.col (List.mem_map.mpr ⟨x, hx, rfl⟩) o.col (by simp) e
        · exact h4.1 (e ▸ List.mem_map.mpr ⟨x, hx, rfl⟩)
      rcases List.mem_append.mp hx with hx | hx
      · exact .there _ _ (h.last x (by simp [hx])) fun e => hne x (.inl hx) e.symm
      · rcases List.mem_cons.mp hx with rfl | hx
        · exact .here uses _ d
        · exact .there _ _ (h.last x (by simp [hx])) fun e => hne x (.inr hx) e.symm
    · intro x hx
      rcases List.mem_append.mp hx with hx | hx
      · exact h.counted x (by simp [hx])
      · rcases List.mem_cons.mp hx with rfl | hx
        · exact hc
        · exact h.counted x (by simp [hx])

/-- One call of `order_by`. -/
theorem countedOrders_step (cx : Ctx) (n : Nat) {uses us : List Use} {os : List Order} {a : Args}
    {ps : List (Obj × Obj)} (hg : GivesNames a ps)
    (hu : List.Forall₂ (fun p (u : Use) => Counted cx.backend.quote p.1 ∧ u.1 = p.1 ∧ SortDirection cx p.2 u.2) ps us)
    (h : CountedOrders cx.backend.quote uses os) :
    CountedOrders cx.backend.quote (uses ++ us) (ordersAdd cx (sem cx (n + 2)) os a).1 := by
  obtain ⟨h1, h2⟩ := givesNames_parse hg (sem cx (n + 2))
  simp only [ordersAdd, h1, h2, Bool.false_eq_true, if_false, withR]
  clear h1 h2 hg
  induction hu generalizing uses os with
  | nil => simpa [rows2, forUpd] using h
  | @cons p u ps us hp _ ih =>
    obtain ⟨c, v⟩ := p
    obtain ⟨u1, d⟩ := u
    obtain ⟨hc, he, hd⟩ := hp
    simp only at hc he hd
    subst he
    have hm : mkOrder cx u1 v = .ok ⟨u1, d⟩ := by
      unfold mkOrder
      rw [(orderSort_iff cx v d).mpr hd]
      obtain ⟨s, rfl, _⟩ | ⟨f, b, s, rfl, _⟩ := hc <;> rfl
    obtain ⟨os', h3, h4⟩ := h.put (n := n) hm hc
    have h5 := ih h4
    have h6 : uses ++ (u1, d) :: us = uses ++ [(u1, d)] ++ us := by simp
    rw [h6]
    simp only [rows2, List.map_cons, forUpd, pairOf, h3]
    exact h5

/-! ### Tokens of columns -/

section
variable {cx : Ctx} {d : Dialect} {T : Obj → List Tok}

private theorem flatT_skip {s : Tok} {n : Nat} : ∀ {ts : List Tok} (_ : ∀ t ∈ ts, t ≠ .sym '(' ∧ t ≠ .sym ')') (r : List Tok),
    Spec.splitAt s (n + 1) (ts ++ r) = fronts ts (Spec.splitAt s (n + 1) r)
  | [], _, _ => fronts_nil.symm
  | t :: ts, h, r => by
    have ht := h t List.mem_cons_self
    rw [List.cons_append, splitAt_skip ht.1 ht.2 (by simp),
      flatT_skip (fun t hm => h t (List.mem_cons_of_mem _ hm)) r, fronts_cons]

private theorem flatT_ref : ∀ (ps : List Str), ∀ t ∈ refToks ps, t ≠ .sym '(' ∧ t ≠ .sym ')' := by
  have hseg : ∀ p, segmentTok p ≠ .sym '(' ∧ segmentTok p ≠ .sym ')' := by
    intro p; unfold segmentTok; split <;> simp
  intro ps
  induction ps with
  | nil => simp [refToks]
  | cons p ps ih =>
    cases ps with
    | nil =>
      intro t ht
      rw [List.mem_singleton.mp ht]
      exact hseg p
    | cons p' ps =>
      intro t ht
      rcases List.mem_cons.mp ht with rfl | ht
      · exact hseg p
      · rcases List.mem_cons.mp ht with rfl | ht
        · simp
        · exact ih t ht

/-- The tokens of an aggregate. -/
def aggToks (f : Agg) (dist : Bool) (r : List Tok) : List Tok :=
  .word f.text :: paren (optToks dist (words [L!"DISTINCT"]) ++ r)

theorem whole_agg {s : Tok} (hs : ∀ f : Agg, .word f.text ≠ s) {f : Agg} {dist : Bool} {ps : List Str} :
    Whole s (aggToks f dist (refToks ps)) := by
  refine .cons (by simp) (by simp) (hs f) fun r => splitAt_paren fun r => flatT_skip (fun t ht => ?_) r
  rcases List.mem_append.mp ht with ht | ht
  · cases dist with
    | false => cases ht
    | true => rw [List.mem_singleton.mp ht]; simp
  · exact flatT_ref ps t ht

theorem agg_seen {column : Str → List Tok} (f : Agg) (dist : Bool) (s : Str) :
    seenColumn column (.func f dist (.str s)) = aggToks f dist (column s) := by
  have h : aggregateName f = f.text := by cases f <;> rfl
  show .word (aggregateName f) :: _ = aggToks f dist (column s)
  unfold aggToks paren
  rw [h]
  cases dist
  · rfl
  · rfl

end

end SqlPuzzle
