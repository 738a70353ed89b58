import Verif.Proofs.Basic
import Verif.Model.Render
import Verif.Spec.Parts

/-!
Rendering and comparing objects under two backends that agree on the quote and on the values that
occur.
-/

namespace SqlPuzzle
open Spec

/-- A class of objects closed under taking components, on which two backends agree. -/
structure AgreeOn (cx cx' : Ctx) (D : Obj → Prop) : Prop where
  quote : cx.backend.quote = cx'.backend.quote
  env : cx.env = cx'.env
  part : ∀ o, D o → ∀ x ∈ parts o, D x
  value : ∀ v, D v → D (.sqlValue v)
  list : ∀ xs, (∀ x ∈ xs, D x) → D (.list xs)
  conds : ∀ ps, (∀ x ∈ ps.flatMap condParts, D x) → D (.conds ps)
  str : ∀ s, D (.str s)
  int : ∀ i, D (.int i)
  none : D .none
  bool : ∀ b, D (.bool b) → cx.backend.boolean b = cx'.backend.boolean b
  bytes : ∀ b, D (.bytes b) → cx.backend.bytes b = cx'.backend.bytes b

/-- Two meanings of `str` and `==` that agree on the class. -/
structure Sem.Same (S S' : Sem) (D : Obj → Prop) : Prop where
  str : ∀ o, D o → S.str o = S'.str o
  eq : ∀ a b, D a → D b → S.eq a b = S'.eq a b

theorem bind_same {α β : Type} {x y : R α} {f g : α → R β} (h : x = y) (k : ∀ a, f a = g a) :
    (x >>= f) = (y >>= g) := by
  subst h
  cases x with
  | error e => rfl
  | ok a => exact k a

theorem andR_same {a b a' b' : R Bool} (h : a = a') (k : b = b') : andR a b = andR a' b' := by
  rw [h, k]

theorem orR_same {a b a' b' : R Bool} (h : a = a') (k : b = b') : orR a b = orR a' b' := by
  rw [h, k]

theorem ite_same {α : Type} {c : Prop} [Decidable c] {x y x' y' : R α} (h : x = x') (k : y = y') :
    (if c then x else y) = (if c then x' else y') := by rw [h, k]

theorem eqListR_same {α : Type} {f g : α → α → R Bool} {xs ys : List α}
    (h : ∀ x ∈ xs, ∀ y ∈ ys, f x y = g x y) : eqListR f xs ys = eqListR g xs ys := by
  unfold eqListR
  refine ite_same ?_ rfl
  have key : ∀ l : List (α × α), (∀ p ∈ l, f p.1 p.2 = g p.1 p.2) →
      allR (fun p => f p.1 p.2) l = allR (fun p => g p.1 p.2) l := by
    intro l hl
    induction l with
    | nil => rfl
    | cons p l ih =>
      exact andR_same (hl p (by simp)) (ih fun q hq => hl q (by simp [hq]))
  refine key _ fun p hp => ?_
  obtain ⟨h1, h2⟩ := List.of_mem_zip (a := p.1) (b := p.2) hp
  exact h _ h1 _ h2

section
set_option linter.unusedSectionVars false
variable {cx cx' : Ctx} {S S' : Sem} {D : Obj → Prop} (hc : AgreeOn cx cx' D) (h : S.Same S' D)
include hc h

theorem same_forceText {v : Obj} (hv : D v) : forceText cx S v = forceText cx' S' v := by
  unfold forceText
  rw [hc.env, h.str v hv]

theorem same_parenText {v : Obj} (hv : D v) : parenText S v = parenText S' v := by
  unfold parenText
  rw [h.str v hv]

theorem same_listText {xs : List Obj} (hx : ∀ x ∈ xs, D x) : listText S xs = listText S' xs := by
  unfold listText
  rw [mapR_congr fun x hm => h.str _ (hc.value x (hx x hm))]

theorem same_sqlValueText {v : Obj} (hv : D v) : sqlValueText cx S v = sqlValueText cx' S' v := by
  have hp := hc.part v hv
  cases v <;> first
    | rfl
    | exact ite_same rfl (same_listText hc h hp)
    | exact ite_same rfl (same_listText hc h fun x hx => by
        obtain ⟨i, _, rfl⟩ := List.mem_map.mp hx
        exact hc.int i)
    | exact same_listText hc h hp
    | exact same_parenText hc h hv
    | exact h.str _ hv
    | (show Except.ok (strValueText cx _) = Except.ok (strValueText cx' _)
       unfold strValueText; rw [hc.quote])
    | exact congrArg Except.ok (hc.bool _ hv)
    | exact congrArg Except.ok (hc.bytes _ hv)
    | (show Except.ok (cx.env.undefText _) = Except.ok (cx'.env.undefText _); rw [hc.env])

theorem same_sqlRefText {v : Obj} (hv : D v) : sqlRefText cx S v = sqlRefText cx' S' v := by
  cases v <;> first
    | rfl
    | exact same_parenText hc h hv
    | exact h.str _ hv
    | (show Except.ok (reference cx.backend.quote _) = Except.ok (reference cx'.backend.quote _)
       rw [hc.quote])
    | (show Except.ok (cx.env.undefText _) = Except.ok (cx'.env.undefText _); rw [hc.env])

theorem same_aliasedText {n a : Obj} (hn : D n) (ha : D a) :
    aliasedText cx S n a = aliasedText cx' S' n a := by
  unfold aliasedText
  rw [same_sqlRefText hc h hn, same_sqlRefText hc h ha]

theorem same_orderText {o : Order} (ho : ∀ x ∈ orderParts o, D x) :
    orderText cx S o = orderText cx' S' o := by
  unfold orderText
  rw [same_sqlRefText hc h (ho o.col (by simp [orderParts]))]

omit hc h in
theorem same_partsText {α : Type} {kw kw' sep dflt : Str} {f g : α → R Str} {ps : List α}
    (hk : kw = kw') (h : ∀ x ∈ ps, f x = g x) :
    partsText kw sep dflt f ps = partsText kw' sep dflt g ps := by
  unfold partsText
  rw [mapR_congr h, hk]

theorem same_plainCondText {col : Obj} (k : Rel) {vt vt' : Obj → R Str} {v : Obj} (hcol : D col)
    (hv : vt v = vt' v) : plainCondText cx S col k vt v = plainCondText cx' S' col k vt' v := by
  unfold plainCondText
  rw [same_sqlRefText hc h hcol, hv]

omit h in
theorem iterate_in {v : Obj} (hv : D v) {xs : List Obj} (e : v.iterate = some xs) :
    ∀ x ∈ xs, D x := by
  have hp := hc.part v hv
  intro x hx
  cases v <;> simp only [Obj.iterate, Option.some.injEq, reduceCtorEq] at e <;> subst e <;> first
    | exact hp x hx
    | (obtain ⟨i, _, rfl⟩ := List.mem_map.mp hx; exact hc.int _)
    | (obtain ⟨i, _, rfl⟩ := List.mem_map.mp hx; exact hc.str _)
    | (obtain ⟨p, hm, rfl⟩ := List.mem_map.mp hx
       exact hp p.1 (List.mem_flatMap.mpr ⟨p, hm, by simp⟩))

theorem same_inCondText {col : Obj} (k : Rel) (g nt : Str) {vt vt' : Obj → R Str} {v : Obj}
    (hcol : D col) (hv : D v) (ht : ∀ u, D u → vt u = vt' u) :
    inCondText cx S col k g nt vt v = inCondText cx' S' col k g nt vt' v := by
  unfold inCondText
  cases e : v.iterate with
  | none => exact same_plainCondText hc h k hcol (ht v hv)
  | some xs =>
    have hl : D (.list (xs.filter fun x => !x.isNone)) :=
      hc.list _ fun x hx => iterate_in hc hv e x (List.mem_filter.mp hx).1
    have := same_plainCondText hc h k hcol (ht _ hl)
    simp only [this, same_sqlRefText hc h hcol]

theorem same_formatCond {col : Obj} (k : Rel) {vt vt' : Obj → R Str} {v : Obj} (hcol : D col)
    (hv : D v) (ht : ∀ u, D u → vt u = vt' u) :
    formatCond cx S col k vt v = formatCond cx' S' col k vt' v := by
  cases k <;> first
    | exact same_inCondText hc h _ _ _ hcol hv ht
    | exact same_plainCondText hc h _ hcol (ht v hv)

theorem same_condText {c : Cond} (hp : ∀ x ∈ condParts c, D x) :
    condText cx S c = condText cx' S' c := by
  cases c with
  | item o => exact h.str o (hp o (by simp [condParts]))
  | cond on col k v =>
    refine same_formatCond hc h k (hp col (by simp [condParts])) (hp v (by simp [condParts])) ?_
    intro u hu
    split
    · exact same_sqlRefText hc h hu
    · exact same_sqlValueText hc h hu

theorem same_condsText (kw : Str) {ps : List Cond} (hp : ∀ x ∈ ps.flatMap condParts, D x) :
    condsText cx S kw ps = condsText cx' S' kw ps :=
  same_partsText rfl fun c hm => same_condText hc h (List.forall_mem_flatMap.mp hp c hm)

theorem same_valueText {v : Value} (hp : ∀ x ∈ valueParts v, D x) :
    valueText cx S v = valueText cx' S' v := by
  cases v with
  | item o => exact h.str o (hp o (by simp [valueParts]))
  | value c x =>
    unfold valueText
    simp only [same_sqlRefText hc h (hp c (by simp [valueParts])),
      same_sqlValueText hc h (hp x (by simp [valueParts]))]

theorem same_columnEq {a b : Column} (ha : ∀ x ∈ colParts a, D x) (hb : ∀ x ∈ colParts b, D x) :
    columnEq S a b = columnEq S' a b :=
  andR_same (h.eq _ _ (ha _ (by simp [colParts])) (hb _ (by simp [colParts])))
    (h.eq _ _ (ha _ (by simp [colParts])) (hb _ (by simp [colParts])))

theorem same_orderEq {a b : Order} (ha : ∀ x ∈ orderParts a, D x) (hb : ∀ x ∈ orderParts b, D x) :
    orderEq S a b = orderEq S' a b :=
  andR_same (h.eq _ _ (ha _ (by simp [orderParts])) (hb _ (by simp [orderParts]))) rfl

theorem same_condEq {a b : Cond} (ha : ∀ x ∈ condParts a, D x) (hb : ∀ x ∈ condParts b, D x) :
    condEq cx S a b = condEq cx' S' a b := by
  cases a with
  | cond on c k v =>
    have hac := ha c (by simp [condParts])
    have hav := ha v (by simp [condParts])
    cases b with
    | item _ => rfl
    | cond on' c' k' v' =>
      have hbc := hb c' (by simp [condParts])
      have hbv := hb v' (by simp [condParts])
      unfold condEq
      simp only [h.eq _ _ hac hbc, h.eq _ _ hav hbv, h.eq _ _ hav hbc, h.eq _ _ hac hbv]
  | item o =>
    have hao := ha o (by simp [condParts])
    cases b with
    | item p => exact h.eq _ _ hao (hb p (by simp [condParts]))
    | cond on c k v =>
      unfold condEq
      simp only [h.str _ hao, same_condText hc h hb]

theorem same_condsEq {a b : List Cond} (ha : ∀ x ∈ a.flatMap condParts, D x)
    (hb : ∀ x ∈ b.flatMap condParts, D x) : condsEq cx S a b = condsEq cx' S' a b :=
  eqListR_same fun x hx y hy => same_condEq hc h (List.forall_mem_flatMap.mp ha x hx)
    (List.forall_mem_flatMap.mp hb y hy)

theorem same_valueEq {a b : Value} (ha : ∀ x ∈ valueParts a, D x) (hb : ∀ x ∈ valueParts b, D x) :
    valueEq cx S a b = valueEq cx' S' a b := by
  cases a with
  | value c v =>
    cases b with
    | item _ => rfl
    | value c' v' =>
      exact andR_same (h.eq _ _ (ha _ (by simp [valueParts])) (hb _ (by simp [valueParts])))
        (h.eq _ _ (ha _ (by simp [valueParts])) (hb _ (by simp [valueParts])))
  | item o =>
    have hao := ha o (by simp [valueParts])
    cases b with
    | item p => exact h.eq _ _ hao (hb p (by simp [valueParts]))
    | value c v =>
      unfold valueEq
      simp only [h.str _ hao, same_valueText hc h hb]

theorem same_sameJoin {a b : Join} (ha : ∀ x ∈ joinParts a, D x) (hb : ∀ x ∈ joinParts b, D x) :
    sameJoin cx S a b = sameJoin cx' S' a b := by
  obtain ⟨ha, ha'⟩ := List.forall_mem_append.mp ha
  obtain ⟨hb, hb'⟩ := List.forall_mem_append.mp hb
  exact andR_same (andR_same (h.eq _ _ (ha _ (by simp)) (hb _ (by simp)))
    (h.eq _ _ (ha _ (by simp)) (hb _ (by simp)))) (same_condsEq hc h ha' hb')

theorem same_joinEq {a b : Join} (ha : ∀ x ∈ joinParts a, D x) (hb : ∀ x ∈ joinParts b, D x) :
    joinEq cx S a b = joinEq cx' S' a b := andR_same rfl (same_sameJoin hc h ha hb)

theorem same_tableEq {a b : Table} (ha : ∀ x ∈ tableParts a, D x) (hb : ∀ x ∈ tableParts b, D x) :
    tableEq cx S a b = tableEq cx' S' a b := by
  obtain ⟨ha, ha'⟩ := List.forall_mem_append.mp ha
  obtain ⟨hb, hb'⟩ := List.forall_mem_append.mp hb
  exact andR_same (andR_same (h.eq _ _ (ha _ (by simp)) (hb _ (by simp)))
    (h.eq _ _ (ha _ (by simp)) (hb _ (by simp))))
    (eqListR_same fun x hx y hy => same_joinEq hc h (List.forall_mem_flatMap.mp ha' x hx)
      (List.forall_mem_flatMap.mp hb' y hy))

theorem same_optEq {a b : Option Obj} (ha : ∀ x ∈ a.toList, D x) (hb : ∀ x ∈ b.toList, D x) :
    optEq S a b = optEq S' a b := by
  cases a <;> cases b <;> first | rfl | exact h.eq _ _ (ha _ (by simp)) (hb _ (by simp))

theorem same_groupInsert {gs : List (Join × List Join)} {j : Join}
    (hg : ∀ g ∈ gs, ∀ x ∈ joinParts g.1, D x) (hj : ∀ x ∈ joinParts j, D x) :
    groupInsert cx S gs j = groupInsert cx' S' gs j := by
  induction gs with
  | nil => rfl
  | cons g gs ih =>
    unfold groupInsert
    rw [same_sameJoin hc h (hg g (by simp)) hj, ih fun g hm => hg g (by simp [hm])]

omit hc h in
theorem groupInsert_in {cx : Ctx} {S : Sem} {E : Join → Prop} {gs gs' : List (Join × List Join)}
    {j : Join} (hg : ∀ g ∈ gs, E g.1 ∧ ∀ k ∈ g.2, E k) (hj : E j)
    (e : groupInsert cx S gs j = .ok gs') : ∀ g ∈ gs', E g.1 ∧ ∀ k ∈ g.2, E k := by
  induction gs generalizing gs' with
  | nil => injection e with e; subst e; simpa using hj
  | cons g gs ih =>
    obtain ⟨g1, g2⟩ := g
    obtain ⟨b, _, e⟩ := bind_ok.mp e
    have h0 := hg (g1, g2) (by simp)
    have hr : ∀ g ∈ gs, E g.1 ∧ ∀ k ∈ g.2, E k := fun g hm => hg g (by simp [hm])
    cases b
    · obtain ⟨r, hr', e⟩ := bind_ok.mp e
      injection e with e
      subst e
      intro g hm
      rcases List.mem_cons.mp hm with rfl | hm
      · exact h0
      · exact ih hr hr' g hm
    · injection e with e
      subst e
      intro g hm
      rcases List.mem_cons.mp hm with rfl | hm
      · refine ⟨h0.1, fun k hk => ?_⟩
        rcases List.mem_append.mp hk with hk | hk
        · exact h0.2 k hk
        · rw [List.mem_singleton.mp hk]; exact hj
      · exact hr g hm

theorem same_groupJoins {js : List Join} {gs : List (Join × List Join)}
    (hg : ∀ g ∈ gs, (∀ x ∈ joinParts g.1, D x) ∧ ∀ k ∈ g.2, ∀ x ∈ joinParts k, D x)
    (hj : ∀ j ∈ js, ∀ x ∈ joinParts j, D x) :
    groupJoins cx S gs js = groupJoins cx' S' gs js := by
  induction js generalizing gs with
  | nil => rfl
  | cons j js ih =>
    unfold groupJoins
    rw [same_groupInsert hc h (fun g hm => (hg g hm).1) (hj j (by simp))]
    cases e : groupInsert cx' S' gs j with
    | error e => rfl
    | ok gs' =>
      exact ih (groupInsert_in (E := fun k => ∀ x ∈ joinParts k, D x) hg (hj j (by simp)) e)
        fun k hk => hj k (by simp [hk])

omit hc h in
theorem groupJoins_in {cx : Ctx} {S : Sem} {E : Join → Prop} {js : List Join}
    {gs gs' : List (Join × List Join)} (hg : ∀ g ∈ gs, E g.1 ∧ ∀ k ∈ g.2, E k)
    (hj : ∀ j ∈ js, E j) (e : groupJoins cx S gs js = .ok gs') :
    ∀ g ∈ gs', E g.1 ∧ ∀ k ∈ g.2, E k := by
  induction js generalizing gs with
  | nil => injection e with e; subst e; exact hg
  | cons j js ih =>
    obtain ⟨r, hr, e⟩ := bind_ok.mp e
    exact ih (groupInsert_in hg (hj j (by simp)) hr) (fun k hk => hj k (by simp [hk])) e

omit hc h in
theorem collapseGroup_in {P : Obj → Prop} {g : Join × List Join}
    (hg : (∀ x ∈ joinParts g.1, P x) ∧ ∀ k ∈ g.2, ∀ x ∈ joinParts k, P x) :
    ∀ j ∈ collapseGroup g, ∀ x ∈ joinParts j, P x := by
  intro j hj
  unfold collapseGroup at hj
  dsimp only at hj
  split at hj
  · rw [List.mem_singleton.mp hj]; exact hg.1
  · split at hj
    · rw [List.mem_singleton.mp hj]; exact hg.1
    · rcases List.mem_cons.mp hj with rfl | hj
      · exact hg.1
      · exact hg.2 j hj

omit hc h in
theorem minimizeJoins_in {cx : Ctx} {S : Sem} {P : Obj → Prop} {js js' : List Join}
    (hj : ∀ j ∈ js, ∀ x ∈ joinParts j, P x) (e : minimizeJoins cx S js = .ok js') :
    ∀ j ∈ js', ∀ x ∈ joinParts j, P x := by
  obtain ⟨gs, hg, e⟩ := bind_ok.mp e
  injection e with e
  subst e
  intro j hm
  obtain ⟨g, hgm, hm⟩ := List.mem_flatMap.mp hm
  exact collapseGroup_in (groupJoins_in (E := fun k => ∀ x ∈ joinParts k, P x) (gs := [])
    (by simp) hj hg g hgm) j hm

theorem same_minimizeJoins {js : List Join} (hj : ∀ j ∈ js, ∀ x ∈ joinParts j, D x) :
    minimizeJoins cx S js = minimizeJoins cx' S' js := by
  unfold minimizeJoins
  rw [same_groupJoins hc h (by simp) hj]

theorem same_joinText {j : Join} (hj : ∀ x ∈ joinParts j, D x) :
    joinText cx S j = joinText cx' S' j := by
  obtain ⟨ha, ha'⟩ := List.forall_mem_append.mp hj
  unfold joinText
  rw [same_aliasedText hc h (ha _ (by simp)) (ha _ (by simp)), same_condsText hc h [] ha']

theorem same_tableText {t : Table} (ht : ∀ x ∈ tableParts t, D x) :
    tableText cx S t = tableText cx' S' t := by
  obtain ⟨ha, ha'⟩ := List.forall_mem_append.mp ht
  have hj := List.forall_mem_flatMap.mp ha'
  unfold tableText
  rw [same_aliasedText hc h (ha _ (by simp)) (ha _ (by simp)), same_minimizeJoins hc h hj]
  refine bind_same rfl fun n => ite_same rfl ?_
  cases e : minimizeJoins cx' S' t.joins with
  | error e => rfl
  | ok js =>
    have hm := minimizeJoins_in hj e
    show (mapR (joinText cx S) js >>= _) = (mapR (joinText cx' S') js >>= _)
    rw [mapR_congr fun j hj => same_joinText hc h (hm j hj)]

theorem same_columnsText {cs : List Column} (hp : ∀ x ∈ cs.flatMap colParts, D x) :
    columnsText cx S cs = columnsText cx' S' cs :=
  same_partsText rfl fun c hm =>
    have := List.forall_mem_flatMap.mp hp c hm
    same_aliasedText hc h (this _ (by simp [colParts])) (this _ (by simp [colParts]))

theorem same_ordersText (kw : Str) {os : List Order} (hp : ∀ x ∈ os.flatMap orderParts, D x) :
    ordersText cx S kw os = ordersText cx' S' kw os :=
  same_partsText rfl fun c hm => same_orderText hc h (List.forall_mem_flatMap.mp hp c hm)

theorem same_tablesText (kw : Str) {ts : List Table} (hp : ∀ x ∈ ts.flatMap tableParts, D x) :
    tablesText cx S kw ts = tablesText cx' S' kw ts :=
  same_partsText rfl fun c hm => same_tableText hc h (List.forall_mem_flatMap.mp hp c hm)

theorem same_valuesText {kw kw' : Str} (hk : kw = kw') {vs : List Value}
    (hp : ∀ x ∈ vs.flatMap valueParts, D x) : valuesText cx S kw vs = valuesText cx' S' kw' vs :=
  same_partsText hk fun c hm => same_valueText hc h (List.forall_mem_flatMap.mp hp c hm)

theorem same_outfilePhrase (kw : Str) {v : Option Obj} (hv : ∀ x ∈ v.toList, D x) :
    outfilePhrase cx S kw v = outfilePhrase cx' S' kw v := by
  cases v with
  | none => rfl
  | some v => exact bind_same (same_sqlValueText hc h (hv v (by simp))) fun _ => rfl

theorem same_outfileText {o : Outfile} (ho : ∀ x ∈ outfileParts o, D x) :
    outfileText cx S o = outfileText cx' S' o := by
  simp only [outfileParts, List.forall_mem_append] at ho
  obtain ⟨⟨⟨h1, h2⟩, h3⟩, h4⟩ := ho
  have hf : D (o.file.getD .none) := by
    cases e : o.file with
    | none => exact hc.none
    | some v => exact h1 v (by simp [e])
  unfold outfileText
  rw [same_sqlValueText hc h hf, same_outfilePhrase hc h _ h2, same_outfilePhrase hc h _ h3,
    same_outfilePhrase hc h _ h4]

theorem same_selectText {q : Select} (hq : ∀ x ∈ selectParts q, D x) :
    selectText cx S q = selectText cx' S' q := by
  simp only [selectParts, List.forall_mem_append] at hq
  obtain ⟨⟨⟨⟨⟨⟨h1, h2⟩, h3⟩, h4⟩, h5⟩, h6⟩, h7⟩ := hq
  unfold selectText
  rw [same_columnsText hc h h1, same_ordersText hc h _ h4, same_condsText hc h _ h5,
    same_outfileText hc h h7, same_ordersText hc h _ h6, same_tablesText hc h _ h2,
    same_condsText hc h _ h3]

omit h in
theorem lookup_in {row : List Value} (hr : ∀ x ∈ row.flatMap valueParts, D x) (c : Str) :
    D (lookupValue c row) := by
  induction row with
  | nil => exact hc.none
  | cons p ps ih =>
    have hps := ih fun x hx => hr x (by
      rw [List.flatMap_cons]; exact List.mem_append_right _ hx)
    unfold lookupValue
    split
    · exact hc.none
    · rename_i e
      injection e with e1 e2
      subst e1 e2
      split
      · exact hps
      · split
        · exact hr _ (by simp [valueParts])
        · exact hps
    · rename_i e
      injection e with e1 e2
      subst e2
      exact hps

omit hc h in
theorem partValue_in {v : Value} (hv : ∀ x ∈ valueParts v, D x) : D (partValue v) := by
  cases v <;> exact hv _ (by simp [valueParts, partValue])

theorem same_rowText (cols : List Str) {row : List Value}
    (hr : ∀ x ∈ row.flatMap valueParts, D x) : rowText cx S cols row = rowText cx' S' cols row := by
  unfold rowText
  refine bind_same (mapR_congr fun x hx => same_sqlValueText hc h ?_) fun _ => rfl
  split at hx
  · obtain ⟨v, hv, rfl⟩ := List.mem_map.mp hx
    exact partValue_in (List.forall_mem_flatMap.mp hr v hv)
  · obtain ⟨c, _, rfl⟩ := List.mem_map.mp hx
    exact lookup_in hc hr c

theorem same_rowsText {rows : List (List Value)}
    (hr : ∀ x ∈ rows.flatMap (·.flatMap valueParts), D x) :
    rowsText cx S rows = rowsText cx' S' rows := by
  unfold rowsText
  refine bind_same rfl fun cols => ?_
  rw [mapR_congr fun r hm => same_rowText hc h cols (List.forall_mem_flatMap.mp hr r hm), hc.quote]

theorem same_insertText {q : Insert} (hq : ∀ x ∈ insertParts q, D x) :
    insertText cx S q = insertText cx' S' q := by
  simp only [insertParts, List.forall_mem_append] at hq
  obtain ⟨⟨⟨h1, h2⟩, h3⟩, h4⟩ := hq
  have hk : conflictKeyword cx q.conflict = conflictKeyword cx' q.conflict := by
    unfold conflictKeyword; rw [hc.quote]
  unfold insertText
  rw [same_tablesText hc h _ h1, same_rowsText hc h h2, same_valuesText hc h rfl h3,
    same_valuesText hc h hk h4]

theorem same_updateText {q : Update} (hq : ∀ x ∈ updateParts q, D x) :
    updateText cx S q = updateText cx' S' q := by
  simp only [updateParts, List.forall_mem_append] at hq
  obtain ⟨⟨h1, h2⟩, h3⟩ := hq
  unfold updateText
  rw [same_tablesText hc h _ h1, same_valuesText hc h rfl h2, same_condsText hc h _ h3]

theorem same_deleteText {q : Delete} (hq : ∀ x ∈ deleteParts q, D x) :
    deleteText cx S q = deleteText cx' S' q := by
  simp only [deleteParts, List.forall_mem_append] at hq
  obtain ⟨⟨h1, h2⟩, h3⟩ := hq
  unfold deleteText
  rw [same_tablesText hc h _ h1, same_tablesText hc h _ h2, same_condsText hc h _ h3]

theorem same_exprText {e : Obj} (he : D e) : exprText cx S e = exprText cx' S' e := by
  have hp := hc.part e he
  unfold exprText
  split
  · exact bind_same (mapR_congr fun x hx => same_sqlRefText hc h (hp x hx)) fun _ => rfl
  · exact bind_same (mapR_congr fun x hx => same_sqlRefText hc h (hp x hx)) fun _ => rfl
  · exact same_sqlRefText hc h he

theorem same_funcText (f : Agg) (d : Bool) {e : Obj} (he : D e) :
    funcText cx S f d e = funcText cx' S' f d e := by
  unfold funcText
  cases f <;> simp only [h.eq e _ he (hc.str _), same_exprText hc h he, same_forceText hc h he]

theorem same_groupConcatText {cs : List Column} {os : List Order} {sep : Obj}
    (h1 : ∀ x ∈ cs.flatMap colParts, D x) (h2 : ∀ x ∈ os.flatMap orderParts, D x) (h3 : D sep) :
    groupConcatText cx S cs os sep = groupConcatText cx' S' cs os sep := by
  unfold groupConcatText
  rw [same_columnsText hc h h1, same_ordersText hc h _ h2, same_sqlValueText hc h h3]

theorem same_operandText {o : Obj} (ho : D o) : operandText S o = operandText S' o := by
  unfold operandText
  rw [h.str o ho]

theorem same_renderF {o : Obj} (ho : D o) : renderF cx S o = renderF cx' S' o := by
  have hp := hc.part o ho
  cases o <;> first
    | rfl
    | exact same_sqlValueText hc h (hp _ (by simp [parts]))
    | exact same_sqlRefText hc h (hp _ (by simp [parts]))
    | exact bind_same (same_forceText hc h (hp _ (by simp [parts]))) fun _ => rfl
    | exact same_condsText hc h _ hp
    | exact bind_same (same_operandText hc h (hp _ (by simp [parts]))) fun _ =>
        bind_same (same_operandText hc h (hp _ (by simp [parts]))) fun _ => rfl
    | exact bind_same (h.str _ (hc.conds _ hp)) fun _ => rfl
    | exact same_funcText hc h _ _ (hp _ (by simp [parts]))
    | exact bind_same (same_columnsText hc h hp) fun _ => rfl
    | exact same_groupConcatText hc h (fun x hx => hp x (by simp only [parts, List.mem_append]; tauto))
        (fun x hx => hp x (by simp only [parts, List.mem_append]; tauto)) (hp _ (by simp [parts]))
    | exact bind_same (same_exprText hc h (hp _ (by simp [parts]))) fun _ => rfl
    | exact same_selectText hc h hp
    | exact bind_same (h.str _ (hp _ (by simp [parts]))) fun _ =>
        bind_same (h.str _ (hp _ (by simp [parts]))) fun _ => rfl
    | exact same_insertText hc h hp
    | exact same_updateText hc h hp
    | exact same_deleteText hc h hp

omit hc h in
theorem flat_same {α : Type} {f : α → List Obj} {E : α → α → R Bool} {E' : α → α → R Bool}
    {xs ys : List α} (k : ∀ {a b}, (∀ x ∈ f a, D x) → (∀ x ∈ f b, D x) → E a b = E' a b)
    (ha : ∀ x ∈ xs.flatMap f, D x) (hb : ∀ x ∈ ys.flatMap f, D x) :
    eqListR E xs ys = eqListR E' xs ys :=
  eqListR_same fun x hx y hy => k (List.forall_mem_flatMap.mp ha x hx)
    (List.forall_mem_flatMap.mp hb y hy)

theorem same_selectEq {a b : Select} (ha : ∀ x ∈ selectParts a, D x)
    (hb : ∀ x ∈ selectParts b, D x) : selectEq cx S a b = selectEq cx' S' a b := by
  simp only [selectParts, outfileParts, List.forall_mem_append] at ha hb
  obtain ⟨⟨⟨⟨⟨⟨a1, a2⟩, a3⟩, a4⟩, a5⟩, a6⟩, ⟨⟨a7, a8⟩, a9⟩, a0⟩ := ha
  obtain ⟨⟨⟨⟨⟨⟨b1, b2⟩, b3⟩, b4⟩, b5⟩, b6⟩, ⟨⟨b7, b8⟩, b9⟩, b0⟩ := hb
  unfold selectEq
  rw [flat_same (same_columnEq hc h) a1 b1, flat_same (same_tableEq hc h) a2 b2,
    same_condsEq hc h a3 b3, flat_same (same_orderEq hc h) a4 b4, same_condsEq hc h a5 b5,
    flat_same (same_orderEq hc h) a6 b6, same_optEq hc h a7 b7, same_optEq hc h a8 b8,
    same_optEq hc h a9 b9, same_optEq hc h a0 b0]

theorem same_insertEq {a b : Insert} (ha : ∀ x ∈ insertParts a, D x)
    (hb : ∀ x ∈ insertParts b, D x) : insertEq cx S a b = insertEq cx' S' a b := by
  simp only [insertParts, List.forall_mem_append] at ha hb
  obtain ⟨⟨⟨a1, a2⟩, a3⟩, a4⟩ := ha
  obtain ⟨⟨⟨b1, b2⟩, b3⟩, b4⟩ := hb
  unfold insertEq
  rw [flat_same (same_tableEq hc h) a1 b1, flat_same (same_valueEq hc h) a3 b3,
    flat_same (same_valueEq hc h) a4 b4,
    flat_same (fun ha hb => flat_same (same_valueEq hc h) ha hb) a2 b2]

theorem same_updateEq {a b : Update} (ha : ∀ x ∈ updateParts a, D x)
    (hb : ∀ x ∈ updateParts b, D x) : updateEq cx S a b = updateEq cx' S' a b := by
  simp only [updateParts, List.forall_mem_append] at ha hb
  obtain ⟨⟨a1, a2⟩, a3⟩ := ha
  obtain ⟨⟨b1, b2⟩, b3⟩ := hb
  unfold updateEq
  rw [flat_same (same_tableEq hc h) a1 b1, flat_same (same_valueEq hc h) a2 b2,
    same_condsEq hc h a3 b3]

theorem same_deleteEq {a b : Delete} (ha : ∀ x ∈ deleteParts a, D x)
    (hb : ∀ x ∈ deleteParts b, D x) : deleteEq cx S a b = deleteEq cx' S' a b := by
  simp only [deleteParts, List.forall_mem_append] at ha hb
  obtain ⟨⟨a1, a2⟩, a3⟩ := ha
  obtain ⟨⟨b1, b2⟩, b3⟩ := hb
  unfold deleteEq
  rw [flat_same (same_tableEq hc h) a1 b1, flat_same (same_tableEq hc h) a2 b2,
    same_condsEq hc h a3 b3]

theorem same_textEq {a b : Obj} (ha : D a) (hb : D b) : textEq cx S a b = textEq cx' S' a b := by
  unfold textEq
  rw [same_renderF hc h ha, same_renderF hc h hb]

theorem same_eqF {a b : Obj} (ha : D a) (hb : D b) : eqF cx S a b = eqF cx' S' a b := by
  have pa := hc.part a ha
  have pb := hc.part b hb
  unfold eqF
  refine ite_same ?_ ?_
  · cases b <;> first
      | exact bind_same (same_renderF hc h ha) fun _ => rfl
      | exact ite_same (same_textEq hc h ha hb) rfl
  · split <;> first
      | rfl
      | exact eqListR_same fun x hx y hy => h.eq x y (pa x hx) (pb y hy)
      | exact ite_same (h.eq _ _ (pa _ (by simp [parts])) (pb _ (by simp [parts]))) rfl
      | exact same_condsEq hc h pa pb
      | exact same_selectEq hc h pa pb
      | exact andR_same (h.eq _ _ (pa _ (by simp [parts])) (pb _ (by simp [parts])))
          (andR_same (h.eq _ _ (pa _ (by simp [parts])) (pb _ (by simp [parts]))) rfl)
      | exact same_insertEq hc h pa pb
      | exact same_updateEq hc h pa pb
      | exact same_deleteEq hc h pa pb
      | exact ite_same (bind_same (same_renderF hc h hb) fun _ => rfl) rfl

end

theorem sem_same {cx cx' : Ctx} {D : Obj → Prop} (hc : AgreeOn cx cx' D) (n : Nat) :
    (sem cx n).Same (sem cx' n) D := by
  induction n with
  | zero => exact ⟨fun _ _ => rfl, fun _ _ _ _ => rfl⟩
  | succ n ih => exact ⟨fun _ ho => same_renderF hc ih ho, fun _ _ ha hb => same_eqF hc ih ha hb⟩

end SqlPuzzle
