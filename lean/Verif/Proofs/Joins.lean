import Mathlib.Algebra.Order.Ring.Int
import Verif.Proofs.Accumulate
import Verif.Proofs.Guards
import Verif.Proofs.Inserts
import Verif.Proofs.Rendering
import Verif.Spec.JoinCalls

/-!
Comparison of joins and join conditions, and what the join calls do.
-/

namespace SqlPuzzle

open Spec

theorem mirror_mirror {a b : Cond} (h : mirror a = some b) : mirror b = some a := by
  unfold mirror at h
  split at h <;> first | (cases h; rfl) | cases h

theorem sameOn_symm {a b : Cond} (h : SameOn a b) : SameOn b a := by
  rcases h with rfl | h
  · exact .inl rfl
  · exact .inr (mirror_mirror h)

theorem sameOn_trans {a b c : Cond} (h1 : SameOn a b) (h2 : SameOn b c) : SameOn a c := by
  rcases h1 with rfl | h1
  · exact h2
  · rcases h2 with rfl | h2
    · exact .inr h1
    · rw [mirror_mirror h1] at h2
      injection h2 with h2
      exact .inl h2

theorem mirror_revert {a b : Str} {k k' : Rel} (h : k.revert = some k') :
    mirror (.cond true (.str a) k (.str b)) = some (.cond true (.str b) k' (.str a)) := by
  cases k <;> cases h <;> rfl

theorem mirror_none {x : Str} {k : Rel} {v : Obj} (hv : v.isStr = false) :
    mirror (.cond true (.str x) k v) = none := by
  cases k <;> cases v <;> first | contradiction | rfl

/-- The library's comparison of join conditions is: identical or mirror image. -/
theorem condEq_on (cx : Ctx) (n : Nat) {a b : Cond} (ha : PlainOn a) (hb : PlainOn b) :
    ∃ r, condEq cx (sem cx (n + 2)) a b = .ok r ∧ (r = true ↔ SameOn a b) := by
  cases a with
  | item o => exact ha.elim
  | cond on c k v =>
    cases b with
    | item o => exact hb.elim
    | cond on' c' k' v' =>
      cases on with
      | false => cases c <;> exact ha.elim
      | true =>
        cases on' with
        | false => cases c' <;> exact hb.elim
        | true =>
          cases c with
          | str x =>
            cases c' with
            | str y =>
              have ha : v.plain = true := ha
              have hb : v'.plain = true := hb
              have sx : (Obj.str x).plain = true := rfl
              have sy : (Obj.str y).plain = true := rfl
              obtain ⟨r1, e1, f1⟩ := eqF_plain cx n sx sy
              obtain ⟨r2, e2, f2⟩ := eqF_plain cx n ha hb
              obtain ⟨r3, e3, f3⟩ := eqF_plain cx n ha sy
              obtain ⟨r4, e4, f4⟩ := eqF_plain cx n sx hb
              have e1 : (sem cx (n + 2)).eq (.str x) (.str y) = .ok r1 := e1
              have e2 : (sem cx (n + 2)).eq v v' = .ok r2 := e2
              have e3 : (sem cx (n + 2)).eq v (.str y) = .ok r3 := e3
              have e4 : (sem cx (n + 2)).eq (.str x) v' = .ok r4 := e4
              cases hv : v.isStr with
              | false =>
                refine ⟨r1 && (r2 && (k == k')), ?_, ?_⟩
                · simp only [condEq, if_true, e1, e2, andR_ok, hv, Bool.and_false,
                    Bool.false_eq_true, if_false, orR_ok, Bool.or_false]
                · have hm : mirror (.cond true (.str x) k v) = none := mirror_none hv
                  simp only [Bool.and_eq_true, f1, f2, beq_iff_eq, SameOn, hm, reduceCtorEq, or_false,
                    CondPart.cond.injEq, true_and]
                  tauto
              | true =>
                refine ⟨(r1 && (r2 && (k == k'))) || (r3 && (r4 && (k.revert == some k'))), ?_, ?_⟩
                · simp only [condEq, if_true, e1, e2, e3, e4, andR_ok, hv, Bool.and_true, orR_ok]
                · cases v with
                  | str z =>
                    simp only [Bool.or_eq_true, Bool.and_eq_true, f1, f2, f3, f4, beq_iff_eq, SameOn,
                      CondPart.cond.injEq, true_and]
                    constructor
                    · rintro (⟨h1, h2, h3⟩ | ⟨h1, h2, h3⟩)
                      · exact .inl ⟨h1, h3, h2⟩
                      · right
                        rw [mirror_revert h3, h1, ← h2]
                    · rintro (⟨h1, h3, h2⟩ | h)
                      · exact .inl ⟨h1, h2, h3⟩
                      · right
                        cases k <;> simp only [mirror, reduceCtorEq] at h <;>
                          (injection h with h; injection h with _ h1 h2 h3;
                           exact ⟨h1, h3, by rw [← h2]; rfl⟩)
                  | _ => cases hv
            | _ => exact hb.elim
          | _ => exact ha.elim

theorem condsEq_on (cx : Ctx) (n : Nat) {xs ys : List Cond} (hx : ∀ c ∈ xs, PlainOn c)
    (hy : ∀ c ∈ ys, PlainOn c) :
    ∃ r, condsEq cx (sem cx (n + 2)) xs ys = .ok r ∧
      (r = true ↔ xs.length = ys.length ∧ ∀ p ∈ xs.zip ys, SameOn p.1 p.2) := by
  unfold condsEq eqListR
  by_cases hl : xs.length = ys.length
  · rw [if_pos hl]
    simp only [hl, true_and]
    clear hl
    induction xs generalizing ys with
    | nil => exact ⟨true, by simp [allR], by simp⟩
    | cons x xs ih =>
      cases ys with
      | nil => exact ⟨true, by simp [allR], by simp⟩
      | cons y ys =>
        obtain ⟨r1, e1, f1⟩ := condEq_on cx n (hx x (by simp)) (hy y (by simp))
        obtain ⟨r2, e2, f2⟩ := ih (ys := ys) (fun c hc => hx c (by simp [hc]))
          (fun c hc => hy c (by simp [hc]))
        refine ⟨r1 && r2, ?_, ?_⟩
        · simp only [List.zip_cons_cons, allR, e1, e2]
          cases r1 <;> rfl
        · simp [f1, f2]
  · rw [if_neg hl]
    exact ⟨false, rfl, by simp [hl]⟩

/-- The library's comparison of joins (without type) is `SameJoin`. -/
theorem sameJoin_plain (cx : Ctx) (n : Nat) {a b : Join} (ha : PlainJoin a) (hb : PlainJoin b) :
    ∃ r, sameJoin cx (sem cx (n + 2)) a b = .ok r ∧ (r = true ↔ SameJoin a b) := by
  obtain ⟨r1, e1, f1⟩ := eqF_scalar cx (sem cx (n + 1)) ha.1 hb.1
  obtain ⟨r2, e2, f2⟩ := eqF_scalar cx (sem cx (n + 1)) ha.2.1 hb.2.1
  obtain ⟨r3, e3, f3⟩ := condsEq_on cx n ha.2.2 hb.2.2
  have e1 : (sem cx (n + 2)).eq a.name b.name = .ok r1 := e1
  have e2 : (sem cx (n + 2)).eq a.alias b.alias = .ok r2 := e2
  refine ⟨(r1 && r2) && r3, by simp only [sameJoin, e1, e2, e3, andR_ok], ?_⟩
  simp only [Bool.and_eq_true, f1, f2, f3, SameJoin]
  tauto

theorem zip_swap {α : Type} {xs ys : List α} {p : α × α} (h : p ∈ xs.zip ys) :
    (p.2, p.1) ∈ ys.zip xs := by
  induction xs generalizing ys with
  | nil => simp at h
  | cons x xs ih =>
    cases ys with
    | nil => simp at h
    | cons y ys =>
      simp only [List.zip_cons_cons, List.mem_cons] at h ⊢
      rcases h with rfl | h
      · exact .inl rfl
      · exact .inr (ih h)

theorem sameJoin_refl (a : Join) : SameJoin a a := by
  refine ⟨rfl, rfl, rfl, fun p hp => ?_⟩
  have : ∀ (xs : List Cond), ∀ p ∈ xs.zip xs, p.1 = p.2 := by
    intro xs
    induction xs with
    | nil => simp
    | cons x xs ih =>
      intro p hp
      rcases List.mem_cons.mp hp with rfl | hp
      · rfl
      · exact ih p hp
  exact .inl (this _ p hp)

theorem sameJoin_symm {a b : Join} (h : SameJoin a b) : SameJoin b a :=
  ⟨h.1.symm, h.2.1.symm, h.2.2.1.symm, fun p hp => sameOn_symm (h.2.2.2 (p.2, p.1) (zip_swap hp))⟩

theorem sameJoin_trans {a b c : Join} (h1 : SameJoin a b) (h2 : SameJoin b c) : SameJoin a c := by
  refine ⟨h1.1.trans h2.1, h1.2.1.trans h2.2.1, h1.2.2.1.trans h2.2.2.1, ?_⟩
  have key : ∀ (xs ys zs : List Cond), xs.length = ys.length → ys.length = zs.length →
      (∀ p ∈ xs.zip ys, SameOn p.1 p.2) → (∀ p ∈ ys.zip zs, SameOn p.1 p.2) →
      ∀ p ∈ xs.zip zs, SameOn p.1 p.2 := by
    intro xs
    induction xs with
    | nil => intro ys zs _ _ _ _ p hp; simp at hp
    | cons x xs ih =>
      intro ys zs l1 l2 f1 f2 p hp
      cases ys with
      | nil => cases l1
      | cons y ys =>
        cases zs with
        | nil => cases l2
        | cons z zs =>
          rcases List.mem_cons.mp hp with rfl | hp
          · exact sameOn_trans (f1 (x, y) (by simp)) (f2 (y, z) (by simp))
          · exact ih ys zs (Nat.succ.inj l1) (Nat.succ.inj l2)
              (fun q hq => f1 q (List.mem_cons_of_mem _ hq))
              (fun q hq => f2 q (List.mem_cons_of_mem _ hq)) p hp
  exact key _ _ _ h1.2.2.1 h2.2.2.1 h1.2.2.2 h2.2.2.2

section
open Classical

theorem once_congr {js : List Join} {a b : Join} (h : SameJoin a b) : Once js a ↔ Once js b := by
  have : (fun k => decide (SameJoin a k)) = fun k => decide (SameJoin b k) := by
    funext k
    rw [decide_eq_decide]
    exact ⟨fun h' => sameJoin_trans (sameJoin_symm h) h', fun h' => sameJoin_trans h h'⟩
  unfold Once
  rw [this]

theorem merged_same {h : Join} {cls : List Join} (hc : ∀ x ∈ cls, SameJoin h x) {j : Join}
    (hj : j ∈ merged cls) : SameJoin h j := by
  unfold merged at hj
  split at hj
  · cases hj
  · exact hc _ hj
  · split at hj
    · rename_i x _ _ _
      have := hc x (List.mem_cons_self ..)
      rw [List.mem_singleton.mp hj]
      exact this
    · split at hj
      · rw [List.mem_singleton.mp hj]; exact hc _ (by simp)
      · exact hc _ hj

/-- Merging leaves alone the joins that occur once. -/
theorem mergedJoins_once (js : List Join) :
    (mergedJoins (fun a b => decide (SameJoin a b)) js).filter (fun j => decide (Once js j)) =
      js.filter (fun j => decide (Once js j)) := by
  have h1 : ∀ L : List Join, (∀ h ∈ L, h ∈ js) →
      (L.flatMap fun h => merged (js.filter fun k => decide (SameJoin h k))).filter
        (fun j => decide (Once js j)) = L.filter fun j => decide (Once js j) := by
    intro L hL
    induction L with
    | nil => rfl
    | cons h L ih =>
      rw [List.flatMap_cons, List.filter_append, ih fun x hx => hL x (by simp [hx]), List.filter_cons]
      by_cases ho : Once js h
      · obtain ⟨x, hx⟩ := List.length_eq_one_iff.mp ho
        have hh : h ∈ js.filter fun k => decide (SameJoin h k) :=
          List.mem_filter.mpr ⟨hL h (by simp), decide_eq_true (sameJoin_refl h)⟩
        rw [hx] at hh ⊢
        rw [← List.mem_singleton.mp hh]
        simp [merged, ho]
      · have : (merged (js.filter fun k => decide (SameJoin h k))).filter
            (fun j => decide (Once js j)) = [] := by
          rw [List.filter_eq_nil_iff]
          intro j hj hjo
          have hs : SameJoin h j := merged_same (fun x hx => by
            simpa using (List.mem_filter.mp hx).2) hj
          exact ho ((once_congr hs).mpr (of_decide_eq_true hjo))
        rw [this]
        simp [ho]
  have h2 : ∀ xs : List Join, (∀ j ∈ xs, Once js j → (xs.filter fun k => decide (SameJoin j k)).length ≤ 1) →
      (firsts (fun a b => decide (SameJoin a b)) xs).filter (fun j => decide (Once js j)) =
        xs.filter fun j => decide (Once js j) := by
    intro xs
    induction xs with
    | nil => intro _; rfl
    | cons x xs ih =>
      intro hx
      rw [firsts, List.filter_cons, List.filter_cons, List.filter_filter]
      have h3 : (firsts (fun a b => decide (SameJoin a b)) xs).filter
          (fun a => decide (Once js a) && !decide (SameJoin x a)) =
          (firsts (fun a b => decide (SameJoin a b)) xs).filter (fun a => decide (Once js a)) := by
        refine List.filter_congr fun y hy => ?_
        by_cases hy1 : Once js y
        · have hym : y ∈ xs := (firsts_sublist xs).subset hy
          have hns : ¬SameJoin x y := by
            intro hs
            have h4 := hx y (by simp [hym]) hy1
            rw [List.filter_cons, if_pos (decide_eq_true (sameJoin_symm hs))] at h4
            have h5 : y ∈ xs.filter fun k => decide (SameJoin y k) :=
              List.mem_filter.mpr ⟨hym, decide_eq_true (sameJoin_refl y)⟩
            have := List.length_pos_of_mem h5
            simp only [List.length_cons] at h4
            omega
          simp [hy1, hns]
        · simp [hy1]
      rw [h3, ih]
      intro j hj ho
      have h4 := hx j (by simp [hj]) ho
      rw [List.filter_cons] at h4
      split at h4
      · simp only [List.length_cons] at h4; omega
      · exact h4
  unfold mergedJoins
  rw [h1 _ fun h hh => (firsts_sublist js).subset hh, h2 js fun j _ ho => Nat.le_of_eq ho]

end

open Classical in
theorem minimizeJoins_plain (cx : Ctx) (n : Nat) {js : List Join} (h : ∀ j ∈ js, PlainJoin j) :
    minimizeJoins cx (sem cx (n + 2)) js = .ok (mergedJoins (fun a b => decide (SameJoin a b)) js) := by
  refine minimizeJoins_eq_merged ?_ ?_ ?_ ?_
  · intro a ha b hb
    obtain ⟨r, e, f⟩ := sameJoin_plain cx n (h a ha) (h b hb)
    rw [e]
    congr 1
    cases r with
    | true => exact (decide_eq_true (f.mp rfl)).symm
    | false => exact (decide_eq_false fun hs => by cases f.mpr hs).symm
  · intro a _; exact decide_eq_true (sameJoin_refl a)
  · intro a _ b _ hab
    exact decide_eq_true (sameJoin_symm (of_decide_eq_true hab))
  · intro a _ b _ c _ hab hbc
    exact decide_eq_true (sameJoin_trans (of_decide_eq_true hab) (of_decide_eq_true hbc))

open Classical in
theorem writtenJoins_plain (cx : Ctx) (n : Nat) {js js' : List Join} (h : ∀ j ∈ js, PlainJoin j) :
    WrittenJoins cx (n + 2) js js' ↔ js' = mergedJoins (fun a b => decide (SameJoin a b)) js := by
  rw [← minimizeJoins_iff, minimizeJoins_plain cx n h]
  simp [eq_comm]

theorem strTables_merged (cx : Ctx) (n : Nat) {ts : List Table} {us : List Str}
    (h : mapR (tableText cx (sem cx (n + 2))) ts = .ok us) (hp : ∀ t ∈ ts, PlainlyJoined t) :
    (strTables cx (sem cx (n + 2)) ts).1 = ts.map withMergedJoins := by
  have h1 := strTables_written cx (n + 2) h
  generalize (strTables cx (sem cx (n + 2)) ts).1 = ts' at h1 ⊢
  clear h us
  induction h1 with
  | nil => rfl
  | cons h _ ih =>
    obtain ⟨js, rfl, hw⟩ := h
    rw [List.map_cons, ih fun t ht => hp t (by simp [ht])]
    rw [(writtenJoins_plain cx n (hp _ (by simp))).mp hw]
    rfl

/-- The text of a SELECT of one table and nothing else. -/
theorem oneTable_iff (cx : Ctx) (n : Nat) (tb : Table) (t : Str) :
    (sem cx (n + 1)).str (.select { tables := [tb] }) = .ok t ↔
      ∃ u, TableText cx n tb u ∧ Trimmed isWhite (L!"SELECT * FROM " ++ u) t := by
  rw [selectStatement_iff]
  constructor
  · rintro ⟨p, hp, h⟩
    have h1 : p.options = none := hp.options
    have h2 : p.columns = ['*'] := by
      rcases hp.columns with ⟨_, h⟩ | ⟨_, h, _⟩
      · exact h
      · exact absurd rfl h
    have h4 : p.where_ = none := by
      rcases hp.where_ with ⟨_, h⟩ | ⟨h, _⟩
      · exact h
      · exact absurd rfl h
    have h5 : p.groupBy = none := by
      rcases hp.groupBy with ⟨_, h⟩ | ⟨h, _⟩
      · exact h
      · exact absurd rfl h
    have h6 : p.having = none := by
      rcases hp.having with ⟨_, h⟩ | ⟨h, _⟩
      · exact h
      · exact absurd rfl h
    have h7 : p.orderBy = none := by
      rcases hp.orderBy with ⟨_, h⟩ | ⟨h, _⟩
      · exact h
      · exact absurd rfl h
    have h8 : p.limit = none := hp.limit
    have h9 : p.outfile = none := by
      rcases hp.outfile with ⟨_, h⟩ | ⟨h, _⟩
      · exact h
      · exact absurd rfl h
    have h10 : p.forUpdate = none := hp.forUpdate
    rcases hp.from_ with ⟨h, _⟩ | ⟨_, ts, h3, hf⟩
    · cases h
    · obtain ⟨u, ts', hu, h11, rfl⟩ := List.forall₂_cons_left_iff.mp h3
      rw [List.forall₂_nil_left_iff] at h11
      subst h11
      refine ⟨u, hu, ?_⟩
      unfold SelectParts.text at h
      rw [h1, h2, h4, h5, h6, h7, h8, h9, h10, hf] at h
      have e : L!"SELECT" ++ assemble [none, some ['*'], some (L!"FROM " ++ joinS L!", " [u]), none,
          none, none, none, none, none, none] = L!"SELECT * FROM " ++ u := by
        simp [assemble, joinS]
      rwa [e] at h
  · rintro ⟨u, hu, h⟩
    refine ⟨⟨none, ['*'], some (L!"FROM " ++ u), none, none, none, none, none, none, none⟩, ?_, ?_⟩
    · exact {
        options := rfl
        columns := .inl ⟨rfl, rfl⟩
        from_ := .inr ⟨by simp, [u], .cons hu .nil, by simp [joinS]⟩
        where_ := .inl ⟨rfl, rfl⟩
        groupBy := .inl ⟨rfl, rfl⟩
        having := .inl ⟨rfl, rfl⟩
        orderBy := .inl ⟨rfl, rfl⟩
        limit := rfl
        outfile := .inl ⟨rfl, rfl⟩
        forUpdate := rfl }
    · have e : SelectParts.text ⟨none, ['*'], some (L!"FROM " ++ u), none, none, none, none, none, none,
          none⟩ = L!"SELECT * FROM " ++ u := by
        simp [SelectParts.text, assemble]
      rwa [e]

/-! ### Calls -/

theorem joinCond_iff {col v : Obj} {c : Cond} (h : mkCond true col v = .ok c) :
    c = joinCondOf col v := by
  unfold mkCond at h
  obtain ⟨_, h0, h⟩ := bind_ok.mp h
  obtain ⟨⟨k, w⟩, h1, h2⟩ := bind_ok.mp h
  cases h2
  have : mkCond false col v = .ok (.cond false col k w) := by
    unfold mkCond
    rw [h0, ok_bind, h1]
    rfl
  have := mkCond_condOf this
  unfold joinCondOf
  rw [← this]

/-- What a call of `on` does to the conditions of the join it concerns. -/
theorem condsOn_given (cx : Ctx) (n : Nat) {ps ps' : List Cond} {a : Args} {e : Option Err}
    {given : List (Obj × Obj)} (hg : GivesPairs a given)
    (hq : (!a.pos.isEmpty && a.pos.all Obj.isConds) = false)
    (h : condsWhere cx (sem cx n) true ps a = (ps', e)) :
    (∃ new, ps' = ps ++ new ∧ ∀ c ∈ new, ∃ p ∈ given, c = joinCondOf p.1 p.2) ∧
    (e = none → ∀ p ∈ given, ∃ c ∈ ps', c = joinCondOf p.1 p.2 ∨
      (sem cx (n + 1)).eq (.conds [c]) (.conds [joinCondOf p.1 p.2]) = .ok true) := by
  obtain ⟨h1, h2⟩ := givesPairs_parse hg (sem cx n)
  unfold condsWhere at h
  rw [h2, givesPairs_custom hg, hq, h1] at h
  simp only [Bool.false_eq_true, if_false] at h
  constructor
  · obtain ⟨new, bs, h3, h4, h5⟩ := addAll_extends h
    refine ⟨new, h3, fun c hc => ?_⟩
    obtain ⟨b, hb, hm⟩ := forall₂_mem h5.flip hc
    obtain ⟨p, hp, rfl⟩ := List.mem_map.mp (h4.subset hb)
    exact ⟨p, hp, joinCond_iff hm⟩
  · rintro rfl p hp
    obtain ⟨c, hc, c', hc', h3⟩ := addAll_represented h [p.1, p.2]
      (List.mem_map.mpr ⟨p, hp, rfl⟩)
    have hc := joinCond_iff hc
    simp only [pairOf] at hc
    subst hc
    exact ⟨c', hc', by rwa [eq_single]⟩

theorem mkJoin_ok (S : Sem) {arg n a : Obj} (h : JoinArg arg n a) (hn : NameLike n)
    (ha : a = .none ∨ NameLike a) (ty : JoinType) : mkJoin S ty arg = .ok ⟨ty, n, a, []⟩ := by
  have h1 : checkType [.str] n = .ok () := by
    rcases hn with ⟨s, rfl⟩ | hn
    · rfl
    · simp [checkType, Obj.allowed, hn]
  have h2 : checkType [.none, .str] a = .ok () := by
    rcases ha with rfl | ⟨s, rfl⟩ | ha
    · rfl
    · rfl
    · simp [checkType, Obj.allowed, ha]
  have h3 : mkTable n a = .ok ⟨n, a, []⟩ := by simp [mkTable, h1, h2]
  cases h with
  | name s => rfl
  | list => simp [mkJoin, h3]
  | tuple => simp [mkJoin, h3]
  | dict => simp [mkJoin, h3]

theorem tablesJoin_last (cx : Ctx) (S : Sem) {arg n a : Obj} (h : JoinArg arg n a) (hn : NameLike n)
    (ha : a = .none ∨ NameLike a) {ty : JoinType} (hty : ty = .full → cx.backend = .postgresql)
    (ts : List Table) (t : Table) : tablesJoin cx S (ts ++ [t]) ty arg =
      (ts ++ [{ t with joins := t.joins ++ [⟨ty, n, a, []⟩] }], none) := by
  have h1 : (ty == JoinType.full && !cx.backend.supportsFullJoin) = false := by
    cases ty with
    | full => rw [hty rfl]; rfl
    | _ => rfl
  simp only [tablesJoin, h1, updateLast_concat, mkJoin_ok S h hn ha, withR, Bool.false_eq_true,
    if_false]

theorem tablesOn_last (cx : Ctx) (S : Sem) {a : Args} (hs : NoSelf a.kw) (ts : List Table) (t : Table)
    (js : List Join) (j : Join) (ht : t.joins = js ++ [j]) : tablesOn cx S (ts ++ [t]) a =
      (ts ++ [{ t with joins := js ++ [{ j with ons := (condsWhere cx S true j.ons a).1 }] }],
        (condsWhere cx S true j.ons a).2) := by
  simp only [tablesOn, hs.kwSelf, updateLast_concat, tableOn, ht, Bool.false_eq_true, if_false]

end SqlPuzzle
