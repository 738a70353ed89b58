import Verif.Spec.Statement
import Verif.Proofs.Minimize
import Verif.Proofs.RefForm
import Verif.Proofs.Entries
import Verif.Proofs.Settings

/-!
The rendered text of a query is the one specified in `Verif.Spec.Statement`.
-/

namespace SqlPuzzle

open Spec

section
variable (cx : Ctx) (n : Nat)

theorem mapR_iff {α β : Type} {f : α → R β} {W : α → β → Prop} (hf : ∀ x t, f x = .ok t ↔ W x t)
    {xs : List α} {ts : List β} : mapR f xs = .ok ts ↔ List.Forall₂ W xs ts := by
  rw [mapR_ok_iff]
  constructor
  · exact fun h => h.imp fun a b => (hf a b).mp
  · exact fun h => h.imp fun a b => (hf a b).mpr

theorem aliasedText_iff {name al : Obj} {t : Str} :
    aliasedText cx (sem cx n) name al = .ok t ↔ AliasedText cx n name al t := by
  unfold aliasedText AliasedText
  have e : ∀ v, sqlRefText cx (sem cx n) v = (sem cx (n + 1)).str (.sqlRef v) := fun _ => rfl
  simp only [e]
  by_cases h : al.truthy = true
  · rw [if_pos h, bind_ok]
    simp only [h, Bool.true_eq_false, false_and, true_and, false_or]
    constructor
    · rintro ⟨a, h1, h2⟩
      obtain ⟨b, h3, h4⟩ := bind_ok.mp h2
      cases h4
      exact ⟨a, h1, b, h3, rfl⟩
    · rintro ⟨a, h1, b, h3, rfl⟩
      exact ⟨a, h1, bind_ok.mpr ⟨b, h3, rfl⟩⟩
  · have h : al.truthy = false := by simpa using h
    simp only [h, Bool.false_eq_true, if_false, true_and, false_and, or_false]
    constructor
    · intro h1; exact ⟨t, h1, rfl⟩
    · rintro ⟨a, h1, rfl⟩; exact h1

theorem orderText_iff {o : Order} {t : Str} :
    orderText cx (sem cx n) o = .ok t ↔ OrderText cx n o t := by
  unfold orderText OrderText
  rw [bind_ok]
  constructor
  · rintro ⟨a, h1, h2⟩
    refine ⟨a, h1, ?_⟩
    cases h2
    split <;> simp
  · rintro ⟨a, h1, rfl⟩
    refine ⟨a, h1, ?_⟩
    split <;> simp

theorem condText_iff {c : Cond} {t : Str} :
    condText cx (sem cx n) c = .ok t ↔ ConditionText cx n c t := by
  show _ ↔ condsText cx (sem cx n) [] [c] = .ok t
  unfold condsText partsText
  simp only [List.isEmpty_cons, Bool.false_eq_true, if_false, List.isEmpty_nil, if_true]
  rw [bind_ok]
  constructor
  · intro h
    exact ⟨[t], mapR_ok_iff.mpr (.cons h .nil), rfl⟩
  · rintro ⟨ts, h1, h2⟩
    cases mapR_ok_iff.mp h1 with
    | cons h h' =>
      cases h'
      cases h2
      exact h

theorem valueText_iff {v : Value} {t : Str} :
    valueText cx (sem cx n) v = .ok t ↔ AssignmentText cx n v t := by
  cases v with
  | item o => exact Iff.rfl
  | value c v =>
    unfold valueText AssignmentText
    rw [bind_ok]
    constructor
    · rintro ⟨a, h1, h2⟩
      obtain ⟨b, h3, h4⟩ := bind_ok.mp h2
      cases h4
      exact ⟨a, b, h1, h3, rfl⟩
    · rintro ⟨a, b, h1, h3, rfl⟩
      exact ⟨a, h1, bind_ok.mpr ⟨b, h3, rfl⟩⟩

theorem andR_false {x y : R Bool} :
    andR x y = .ok false ↔ x = .ok false ∨ x = .ok true ∧ y = .ok false := by
  unfold andR
  cases x with
  | error e => simp
  | ok b => cases b <;> simp

theorem sameJoin_true {a b : Join} : sameJoin cx (sem cx n) a b = .ok true ↔ JoinsAgree cx n a b := by
  unfold sameJoin JoinsAgree
  rw [andR_true, andR_true, and_assoc]
  rfl

theorem sameJoin_false {a b : Join} :
    sameJoin cx (sem cx n) a b = .ok false ↔ JoinsDiffer cx n a b := by
  unfold sameJoin JoinsDiffer
  rw [andR_false, andR_true, andR_false]
  show _ ∨ _ ∧ (condsEq cx (sem cx n) a.ons b.ons = .ok false) ↔ _
  have : (sem cx (n + 1)).eq (.conds a.ons) (.conds b.ons) = condsEq cx (sem cx n) a.ons b.ons := rfl
  rw [this]
  tauto

/-- A group with its first join. -/
def groupList (g : Join × List Join) : List Join := g.1 :: g.2

theorem collapseGroup_merged (g : Join × List Join) : collapseGroup g = merged (groupList g) := by
  obtain ⟨h, t⟩ := g
  cases t <;> rfl

theorem groupJoins_iff {js : List Join} {ls : List (List Join)} :
    (∃ gs, groupJoins cx (sem cx n) [] js = .ok gs ∧ ls = gs.map groupList) ↔
      Collected cx n js ls := by
  constructor
  · rintro ⟨gs, h, rfl⟩
    induction js using List.reverseRecOn generalizing gs with
    | nil => cases h; exact .nil
    | append_singleton js j ih =>
      rw [groupJoins_append, bind_ok] at h
      obtain ⟨g1, h1, h2⟩ := h
      obtain ⟨g2, h3, h4⟩ := bind_ok.mp h2
      cases h4
      have ih := ih g1 h1
      have heads : ∀ {pre : List (Join × List Join)},
          (∀ g ∈ pre, sameJoin cx (sem cx n) g.1 j = .ok false) →
          ∀ h t, h :: t ∈ pre.map groupList → JoinsDiffer cx n h j := by
        intro pre hp h t hm
        obtain ⟨g, hg, e⟩ := List.mem_map.mp hm
        injection e with e1 e2
        rw [← e1]
        exact (sameJoin_false cx n).mp (hp g hg)
      rcases groupInsert_cases cx _ h3 with ⟨h5, rfl⟩ | ⟨pre, hd, t, post, rfl, h5, h6, rfl⟩
      · rw [List.map_append]
        exact .new ih (heads h5)
      · rw [List.map_append, List.map_cons] at ih ⊢
        exact .old ih (heads h5) ((sameJoin_true cx n).mp h6)
  · intro h
    induction h with
    | nil => exact ⟨[], rfl, rfl⟩
    | @new js ls j _ hd ih =>
      obtain ⟨gs, h1, rfl⟩ := ih
      refine ⟨gs ++ [(j, [])], ?_, by simp [groupList]⟩
      rw [groupJoins_append, h1, ok_bind]
      have := groupInsert_new cx (sem cx n) (gs := gs) (j := j) fun g hg =>
        (sameJoin_false cx n).mpr (hd g.1 g.2 (List.mem_map.mpr ⟨g, hg, rfl⟩))
      simp only [groupJoins, this, ok_bind]
    | @old js pre post h j t _ hd ha ih =>
      obtain ⟨gs, h1, h2⟩ := ih
      obtain ⟨g1, g2, rfl, rfl, h3⟩ := List.map_eq_append_iff.mp h2.symm
      obtain ⟨g, g3, rfl, h4, rfl⟩ := List.map_eq_cons_iff.mp h3
      obtain ⟨gh, gt⟩ := g
      injection h4 with h5 h6
      simp only at h5 h6
      subst h5 h6
      refine ⟨g1 ++ (gh, gt ++ [j]) :: g3, ?_, by simp [groupList]⟩
      rw [groupJoins_append, h1, ok_bind]
      have := groupInsert_old cx (sem cx n) (pre := g1) (post := g3) (t := gt) (hd := gh) (j := j)
        (fun g hg => (sameJoin_false cx n).mpr (hd g.1 g.2 (List.mem_map.mpr ⟨g, hg, rfl⟩)))
        ((sameJoin_true cx n).mpr ha)
      simp only [groupJoins, this, ok_bind]

theorem minimizeJoins_iff {js js' : List Join} :
    minimizeJoins cx (sem cx n) js = .ok js' ↔ WrittenJoins cx n js js' := by
  unfold minimizeJoins WrittenJoins
  rw [bind_ok]
  have e : ∀ gs : List (Join × List Join), gs.flatMap collapseGroup = (gs.map groupList).flatMap merged := by
    intro gs
    rw [List.flatMap_map]
    congr 1
    funext g
    exact collapseGroup_merged g
  constructor
  · rintro ⟨gs, h1, h2⟩
    cases h2
    exact ⟨_, (groupJoins_iff cx n).mp ⟨gs, h1, rfl⟩, e gs⟩
  · rintro ⟨ls, h1, rfl⟩
    obtain ⟨gs, h2, rfl⟩ := (groupJoins_iff cx n).mpr h1
    exact ⟨gs, h2, by rw [e]⟩

theorem joinText_iff {j : Join} {t : Str} :
    joinText cx (sem cx n) j = .ok t ↔ JoinText cx n j t := by
  unfold joinText JoinText
  have w : j.type.text = wordsOfJoin j.type := by cases j.type <;> rfl
  rw [bind_ok, w]
  simp only [aliasedText_iff]
  refine exists_congr fun a => and_congr_right fun _ => ?_
  cases ho : j.ons with
  | nil =>
    simp only [List.isEmpty_nil, if_true, true_and, ne_eq, not_true, false_and, or_false]
    constructor
    · intro h; cases h; simp
    · rintro rfl; simp
  | cons c cs =>
    simp only [List.isEmpty_cons, Bool.false_eq_true, if_false, reduceCtorEq, false_and, false_or,
      ne_eq, not_false_iff, true_and]
    rw [bind_ok]
    refine exists_congr fun o => and_congr Iff.rfl ?_
    constructor
    · intro h; cases h; simp
    · rintro rfl; simp

theorem joinS_spaces {ts : List Str} (h : ts ≠ []) :
    ' ' :: joinS [' '] ts = ts.flatMap fun t => ' ' :: t := by
  induction ts with
  | nil => exact absurd rfl h
  | cons t ts ih =>
    cases ts with
    | nil => simp [joinS]
    | cons u us =>
      have := ih (by simp)
      simp only [joinS, List.flatMap_cons] at this ⊢
      rw [← this]
      simp

theorem tableText_iff {tb : Table} {t : Str} :
    tableText cx (sem cx n) tb = .ok t ↔ TableText cx n tb t := by
  unfold tableText TableText
  rw [bind_ok]
  simp only [aliasedText_iff, ← minimizeJoins_iff, ← mapR_iff fun j t => joinText_iff cx n]
  refine exists_congr fun a => ?_
  by_cases hj : tb.joins.isEmpty = true
  · rw [if_pos hj]
    have hj : tb.joins = [] := by simpa using hj
    rw [hj]
    constructor
    · rintro ⟨h1, h2⟩
      cases h2
      exact ⟨[], [], h1, rfl, rfl, by simp⟩
    · rintro ⟨js, ts, h1, h2, h3, rfl⟩
      cases h2
      cases h3
      exact ⟨h1, by simp⟩
  · rw [if_neg hj]
    have hj : tb.joins ≠ [] := by simpa using hj
    constructor
    · rintro ⟨h1, h2⟩
      obtain ⟨js, h3, h4⟩ := bind_ok.mp h2
      obtain ⟨ts, h5, h6⟩ := bind_ok.mp h4
      refine ⟨js, ts, h1, h3, h5, ?_⟩
      cases h6
      rw [joinS_spaces]
      intro e
      have := mapR_length h5
      rw [e] at this
      exact minimizeJoins_ne_nil cx _ h3 hj (List.eq_nil_of_length_eq_zero this.symm)
    · rintro ⟨js, ts, h1, h3, h5, rfl⟩
      refine ⟨h1, bind_ok.mpr ⟨js, h3, bind_ok.mpr ⟨ts, h5, ?_⟩⟩⟩
      rw [joinS_spaces]
      intro e
      have := mapR_length h5
      rw [e] at this
      exact minimizeJoins_ne_nil cx _ h3 hj (List.eq_nil_of_length_eq_zero this.symm)

/-- A clause with the blank before it. -/
def spaced : Option Str → Str
  | none => []
  | some t => ' ' :: t

theorem spaced_some (t : Str) : spaced (some t) = ' ' :: t := rfl

theorem assemble_eq (cs : List (Option Str)) : assemble cs = cs.flatMap spaced := by
  unfold assemble
  congr 1

/-- A clause that lists things. -/
theorem listClause_iff {α : Type} {kw kw' sep : Str} {f : α → R Str} {W : α → Str → Prop}
    (hf : ∀ x t, f x = .ok t ↔ W x t)
    (hk : (kw = [] ∧ kw' = []) ∨ (kw ≠ [] ∧ kw' = kw ++ [' '])) {xs : List α} {s : Str} :
    clause (!xs.isEmpty) (partsText kw sep [] f xs) = .ok s ↔
      ∃ c, ListClause kw' sep W xs c ∧ s = spaced c := by
  unfold clause partsText ListClause
  cases xs with
  | nil =>
    simp only [List.isEmpty_nil, Bool.not_true, Bool.false_eq_true, if_false, true_and, ne_eq,
      not_true, false_and, or_false]
    constructor
    · intro h; cases h; exact ⟨none, rfl, rfl⟩
    · rintro ⟨c, rfl, rfl⟩; rfl
  | cons x xs =>
    simp only [List.isEmpty_cons, Bool.not_false, if_true, Bool.false_eq_true, if_false,
      reduceCtorEq, false_and, false_or, ne_eq, not_false_iff, true_and]
    rw [bind_ok]
    have hm : ∀ ts, mapR f (x :: xs) = .ok ts ↔ List.Forall₂ W (x :: xs) ts := fun ts => mapR_iff hf
    have ht : ∀ ts, (if kw.isEmpty = true then joinS sep ts else kw ++ ' ' :: joinS sep ts) =
        kw' ++ joinS sep ts := by
      intro ts
      rcases hk with ⟨rfl, rfl⟩ | ⟨h1, rfl⟩
      · rfl
      · have : kw.isEmpty = false := by cases kw <;> simp_all
        simp [this]
    constructor
    · rintro ⟨a, h1, h2⟩
      obtain ⟨ts, h3, h4⟩ := bind_ok.mp h1
      rw [ht] at h4
      cases h4
      cases h2
      exact ⟨_, ⟨ts, (hm ts).mp h3, rfl⟩, rfl⟩
    · rintro ⟨c, ⟨ts, h3, rfl⟩, rfl⟩
      exact ⟨_, bind_ok.mpr ⟨ts, (hm ts).mpr h3, by rw [ht]⟩, rfl⟩

theorem wordClause {b : Bool} {w s : Str} :
    clause b (.ok w) = .ok s ↔ s = spaced (wordIf b w) := by
  cases b
  · simp [clause, wordIf, spaced, eq_comm]
  · simp [clause, wordIf, spaced, eq_comm]

theorem limitClause {l : LimitS} {s : Str} :
    clause l.isSet (.ok (limitText l)) = .ok s ↔ s = spaced (limitPhrase l.limit l.offset) := by
  obtain ⟨a, b⟩ := l
  cases a <;> cases b <;> simp [clause, LimitS.isSet, limitText, limitPhrase, spaced, eq_comm]

theorem optionsClause {o : SelectOptions} {s : Str} :
    clause (!o.words.isEmpty) (.ok (optionsText o.words)) = .ok s ↔
      s = spaced (optionsPhrase o.isOn) := by
  unfold optionsText optionsPhrase
  rw [SelectOptions.sorted_words]
  have : o.words.isEmpty = true ↔ SelOpt.sorted.filter o.isOn = [] := by
    have h := SelectOptions.sorted_words o
    rw [List.isEmpty_iff]
    constructor
    · intro h1
      rw [h1] at h
      exact List.map_eq_nil_iff.mp h.symm
    · intro h1
      rw [h1] at h
      have := (sortBy_perm strLe o.words).length_eq
      rw [h] at this
      exact List.eq_nil_of_length_eq_zero this.symm
  by_cases h : o.words.isEmpty = true
  · rw [if_pos (this.mp h), h]
    simp [clause, spaced, eq_comm]
  · rw [if_neg (fun e => h (this.mpr e))]
    have h : o.words.isEmpty = false := by simpa using h
    rw [h]
    simp [clause, spaced, eq_comm]

theorem outfilePhrase_iff {k : Str} {v : Option Obj} {t : Str} :
    outfilePhrase cx (sem cx n) k v = .ok t ↔ OutfilePhrase cx n k v t := by
  cases v with
  | none =>
    show (.ok [] : R Str) = .ok t ↔ t = []
    simp [eq_comm]
  | some v =>
    unfold outfilePhrase OutfilePhrase
    simp only [bind_ok]
    refine exists_congr fun a => and_congr Iff.rfl ?_
    simp [eq_comm]

theorem outfileClause_iff {o : Outfile} {s : Str} :
    clause o.file.isSome (outfileText cx (sem cx n) o) = .ok s ↔
      ∃ c, OutfileClause cx n o c ∧ s = spaced c := by
  unfold OutfileClause
  cases hf : o.file with
  | none =>
    simp [clause, spaced, eq_comm]
  | some f =>
    simp only [Option.isSome_some, clause, if_true, reduceCtorEq, false_and, false_or, ne_eq,
      not_false_iff, true_and, ← outfilePhrase_iff]
    unfold outfileText
    rw [hf]
    simp only [bind_ok, Option.getD_some]
    constructor
    · rintro ⟨a, ⟨f', h1, b, h2, d, h3, e, h4, h5⟩, h6⟩
      cases h5
      cases h6
      exact ⟨_, ⟨L!"INTO OUTFILE " ++ f', b, d, e, bind_ok.mpr ⟨f', h1, rfl⟩, h2, h3, h4, rfl⟩, by
        simp [spaced]⟩
    · rintro ⟨c, ⟨a, b, d, e, h1, h2, h3, h4, rfl⟩, rfl⟩
      obtain ⟨f', h5, h6⟩ := bind_ok.mp h1
      cases h6
      exact ⟨_, ⟨f', h5, b, h2, d, h3, e, h4, rfl⟩, by simp [spaced]⟩

theorem strip_iff {s t : Str} : strip s = t ↔ Trimmed isWhite s t :=
  ⟨fun h => h ▸ strip_trimmed s, strip_of_trimmed⟩

theorem columnsClause_iff {cs : List Column} {s : Str} :
    clause true (columnsText cx (sem cx n) cs) = .ok s ↔
      ∃ c, ((cs = [] ∧ c = ['*']) ∨
        ∃ ts, cs ≠ [] ∧ List.Forall₂ (ColumnText cx n) cs ts ∧ c = joinS L!", " ts) ∧ s = ' ' :: c := by
  unfold clause columnsText partsText
  simp only [if_true]
  rw [bind_ok]
  cases cs with
  | nil =>
    simp [eq_comm]
  | cons c cs =>
    simp only [List.isEmpty_cons, Bool.false_eq_true, if_false, List.isEmpty_nil, if_true,
      reduceCtorEq, false_and, false_or, ne_eq, not_false_iff, true_and]
    have hm : ∀ ts, mapR (columnText cx (sem cx n)) (c :: cs) = .ok ts ↔
        List.Forall₂ (ColumnText cx n) (c :: cs) ts := fun ts => mapR_iff fun x t => aliasedText_iff cx n
    constructor
    · rintro ⟨a, h1, h2⟩
      obtain ⟨ts, h3, h4⟩ := bind_ok.mp h1
      cases h4
      cases h2
      exact ⟨_, ⟨ts, (hm ts).mp h3, rfl⟩, rfl⟩
    · rintro ⟨_, ⟨ts, h3, rfl⟩, rfl⟩
      exact ⟨_, bind_ok.mpr ⟨ts, (hm ts).mpr h3, rfl⟩, rfl⟩

/-- The text of a SELECT. -/
theorem selectStatement_iff {q : Select} {t : Str} :
    (sem cx (n + 1)).str (.select q) = .ok t ↔ SelectStatement cx n q t := by
  show selectText cx (sem cx n) q = .ok t ↔ _
  unfold selectText SelectStatement
  have kw : ∀ k : Str, k ≠ [] → (k = [] ∧ k ++ [' '] = []) ∨ (k ≠ [] ∧ k ++ [' '] = k ++ [' ']) :=
    fun k h => .inr ⟨h, rfl⟩
  simp only [bind_ok]
  constructor
  · rintro ⟨c, e1, g, e2, hv, e3, o, e4, l, e5, ob, e6, fu, e7, op, e8, tb, e9, w, e10, e11⟩
    obtain ⟨c', h1, rfl⟩ := (columnsClause_iff cx n).mp e1
    obtain ⟨g', h2, rfl⟩ := (listClause_iff (fun x t => orderText_iff cx n) (kw _ (by decide))).mp e2
    obtain ⟨hv', h3, rfl⟩ := (listClause_iff (fun x t => condText_iff cx n) (kw _ (by decide))).mp e3
    obtain ⟨o', h4, rfl⟩ := (outfileClause_iff cx n).mp e4
    have h5 := limitClause.mp e5
    obtain ⟨ob', h6, rfl⟩ := (listClause_iff (fun x t => orderText_iff cx n) (kw _ (by decide))).mp e6
    have h7 := wordClause.mp e7
    have h8 := optionsClause.mp e8
    obtain ⟨tb', h9, rfl⟩ := (listClause_iff (fun x t => tableText_iff cx n) (kw _ (by decide))).mp e9
    obtain ⟨w', h10, rfl⟩ := (listClause_iff (fun x t => condText_iff cx n) (kw _ (by decide))).mp e10
    subst h5 h7 h8
    injection e11 with h11
    refine ⟨⟨optionsPhrase q.opts.isOn, c', tb', w', g', hv', ob',
      limitPhrase q.limit.limit q.limit.offset, o', wordIf q.forUpdate L!"FOR UPDATE"⟩,
      ⟨rfl, h1, h9, h10, h2, h3, h6, rfl, h4, rfl⟩, ?_⟩
    rw [← strip_iff, ← h11]
    simp only [SelectParts.text, assemble_eq, List.flatMap_cons, List.flatMap_nil, spaced_some,
      List.append_assoc, List.append_nil, List.cons_append]
  · rintro ⟨⟨op, c, tb, w, g, hv, ob, l, o, fu⟩, ⟨h8, h1, h9, h10, h2, h3, h6, h5, h4, h7⟩, h11⟩
    simp only at h1 h2 h3 h4 h5 h6 h7 h8 h9 h10
    subst h5 h7 h8
    refine ⟨_, (columnsClause_iff cx n).mpr ⟨c, h1, rfl⟩,
      _, (listClause_iff (fun x t => orderText_iff cx n) (kw _ (by decide))).mpr ⟨g, h2, rfl⟩,
      _, (listClause_iff (fun x t => condText_iff cx n) (kw _ (by decide))).mpr ⟨hv, h3, rfl⟩,
      _, (outfileClause_iff cx n).mpr ⟨o, h4, rfl⟩,
      _, limitClause.mpr rfl,
      _, (listClause_iff (fun x t => orderText_iff cx n) (kw _ (by decide))).mpr ⟨ob, h6, rfl⟩,
      _, wordClause.mpr rfl,
      _, optionsClause.mpr rfl,
      _, (listClause_iff (fun x t => tableText_iff cx n) (kw _ (by decide))).mpr ⟨tb, h9, rfl⟩,
      _, (listClause_iff (fun x t => condText_iff cx n) (kw _ (by decide))).mpr ⟨w, h10, rfl⟩, ?_⟩
    rw [← strip_iff] at h11
    rw [← h11]
    simp only [SelectParts.text, assemble_eq, List.flatMap_cons, List.flatMap_nil, spaced_some,
      List.append_assoc, List.append_nil, List.cons_append]

/-- The text of an UPDATE. -/
theorem updateStatement_iff {q : Update} {t : Str} (hq : q.where_ ≠ [] ∨ q.allowAll = true) :
    (sem cx (n + 1)).str (.update q) = .ok t ↔ UpdateStatement cx n q t := by
  show updateText cx (sem cx n) q = .ok t ↔ _
  unfold updateText UpdateStatement
  have hg : ¬(q.where_.isEmpty && !q.allowAll) = true := by
    rcases hq with h | h
    · simp [h]
    · simp [h]
  rw [if_neg hg]
  have kw : ∀ k : Str, k ≠ [] → (k = [] ∧ k ++ [' '] = []) ∨ (k ≠ [] ∧ k ++ [' '] = k ++ [' ']) :=
    fun k h => .inr ⟨h, rfl⟩
  constructor
  · intro h
    obtain ⟨tb, e1, h⟩ := bind_ok.mp h
    obtain ⟨o, e2, h⟩ := bind_ok.mp h
    obtain ⟨v, e3, h⟩ := bind_ok.mp h
    obtain ⟨w, e4, h⟩ := bind_ok.mp h
    obtain ⟨tb', h1, rfl⟩ := (listClause_iff (fun x t => tableText_iff cx n) (.inl ⟨rfl, rfl⟩)).mp e1
    have h2 := wordClause.mp e2
    obtain ⟨v', h3, rfl⟩ := (listClause_iff (fun x t => valueText_iff cx n) (.inl ⟨rfl, rfl⟩)).mp e3
    obtain ⟨w', h4, rfl⟩ := (listClause_iff (fun x t => condText_iff cx n) (kw _ (by decide))).mp e4
    injection h with h
    refine ⟨tb', v', w', h1, h3, h4, ?_⟩
    rw [← strip_iff, ← h, h2]
    refine congrArg strip ?_
    simp only [assemble_eq, List.flatMap_cons, List.flatMap_nil, spaced_some, List.append_assoc,
      List.append_nil, List.cons_append]
    rfl
  · rintro ⟨tb', v', w', h1, h3, h4, h⟩
    refine bind_ok.mpr ⟨_, (listClause_iff (fun x t => tableText_iff cx n) (.inl ⟨rfl, rfl⟩)).mpr ⟨_, h1, rfl⟩,
      bind_ok.mpr ⟨_, wordClause.mpr rfl, bind_ok.mpr ⟨_,
        (listClause_iff (fun x t => valueText_iff cx n) (.inl ⟨rfl, rfl⟩)).mpr ⟨_, h3, rfl⟩, bind_ok.mpr ⟨_,
        (listClause_iff (fun x t => condText_iff cx n) (kw _ (by decide))).mpr ⟨_, h4, rfl⟩, ?_⟩⟩⟩⟩
    rw [← strip_iff] at h
    rw [← h]
    refine congrArg (fun s => Except.ok (strip s)) ?_
    simp only [assemble_eq, List.flatMap_cons, List.flatMap_nil, spaced_some, List.append_assoc,
      List.append_nil, List.cons_append]
    rfl

/-- The text of a DELETE. -/
theorem deleteStatement_iff {q : Delete} {t : Str} (hq : q.where_ ≠ [] ∨ q.allowAll = true) :
    (sem cx (n + 1)).str (.delete q) = .ok t ↔ DeleteStatement cx n q t := by
  show deleteText cx (sem cx n) q = .ok t ↔ _
  unfold deleteText DeleteStatement
  have hg : ¬(q.where_.isEmpty && !q.allowAll) = true := by
    rcases hq with h | h
    · simp [h]
    · simp [h]
  rw [if_neg hg]
  have kw : ∀ k : Str, k ≠ [] → (k = [] ∧ k ++ [' '] = []) ∨ (k ≠ [] ∧ k ++ [' '] = k ++ [' ']) :=
    fun k h => .inr ⟨h, rfl⟩
  constructor
  · intro h
    obtain ⟨o, e2, h⟩ := bind_ok.mp h
    obtain ⟨v, e3, h⟩ := bind_ok.mp h
    obtain ⟨tb, e1, h⟩ := bind_ok.mp h
    obtain ⟨w, e4, h⟩ := bind_ok.mp h
    obtain ⟨tb', h1, rfl⟩ := (listClause_iff (fun x t => tableText_iff cx n) (.inl ⟨rfl, rfl⟩)).mp e1
    have h2 := wordClause.mp e2
    obtain ⟨v', h3, rfl⟩ := (listClause_iff (fun x t => tableText_iff cx n) (.inl ⟨rfl, rfl⟩)).mp e3
    obtain ⟨w', h4, rfl⟩ := (listClause_iff (fun x t => condText_iff cx n) (kw _ (by decide))).mp e4
    injection h with h
    refine ⟨tb', v', w', h1, h3, h4, ?_⟩
    rw [← strip_iff, ← h, h2]
    refine congrArg strip ?_
    simp only [assemble_eq, List.flatMap_cons, List.flatMap_nil, spaced_some, List.append_assoc,
      List.append_nil, List.cons_append]
    rfl
  · rintro ⟨tb', v', w', h1, h3, h4, h⟩
    refine bind_ok.mpr ⟨_, wordClause.mpr rfl, bind_ok.mpr ⟨_,
        (listClause_iff (fun x t => tableText_iff cx n) (.inl ⟨rfl, rfl⟩)).mpr ⟨_, h3, rfl⟩, bind_ok.mpr ⟨_,
        (listClause_iff (fun x t => tableText_iff cx n) (.inl ⟨rfl, rfl⟩)).mpr ⟨_, h1, rfl⟩, bind_ok.mpr ⟨_,
        (listClause_iff (fun x t => condText_iff cx n) (kw _ (by decide))).mpr ⟨_, h4, rfl⟩, ?_⟩⟩⟩⟩
    rw [← strip_iff] at h
    rw [← h]
    refine congrArg (fun s => Except.ok (strip s)) ?_
    simp only [assemble_eq, List.flatMap_cons, List.flatMap_nil, spaced_some, List.append_assoc,
      List.append_nil, List.cons_append]
    rfl

end

end SqlPuzzle
