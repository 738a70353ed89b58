import Verif.Proofs.BackendFacts
import Verif.Spec.Regular

/-!
The exceptions that rendering and comparing regular objects can raise.
-/

namespace SqlPuzzle
open Spec

/-- If it raises, it raises one of the library's own exceptions, or the recursion limit is hit. -/
def Fine {α : Type} (x : R α) : Prop :=
  ∀ e, x = .error e → e.isSqlPuzzle = true ∨ e = .recursionError

theorem Fine.ok {α : Type} (a : α) : Fine (.ok a : R α) := fun e h => by cases h

theorem Fine.bad {α : Type} {e : Err} (h : e.isSqlPuzzle = true) : Fine (.error e : R α) :=
  fun e' h' => by injection h' with h'; subst h'; exact Or.inl h

theorem Fine.bind {α β : Type} {x : R α} {f : α → R β} (h : Fine x)
    (k : ∀ a, x = .ok a → Fine (f a)) : Fine (x >>= f) := by
  cases x with
  | error e => intro e' h'; injection h' with h'; subst h'; exact h _ rfl
  | ok a => exact k a rfl

theorem Fine.ite {α : Type} {c : Prop} [Decidable c] {x y : R α} (h : Fine x) (k : Fine y) :
    Fine (if c then x else y) := by split <;> assumption

theorem Fine.mapR {α β : Type} {f : α → R β} {xs : List α} (h : ∀ x ∈ xs, Fine (f x)) :
    Fine (mapR f xs) := by
  induction xs with
  | nil => exact .ok _
  | cons x xs ih =>
    exact (h x (by simp)).bind fun _ _ => (ih fun y hy => h y (by simp [hy])).bind fun _ _ => .ok _

theorem Fine.andR {a b : R Bool} (h : Fine a) (k : Fine b) : Fine (andR a b) :=
  h.bind fun _ _ => k.ite (.ok _)

theorem Fine.orR {a b : R Bool} (h : Fine a) (k : Fine b) : Fine (orR a b) :=
  h.bind fun _ _ => (Fine.ok _).ite k

theorem Fine.anyR {α : Type} {f : α → R Bool} {xs : List α} (h : ∀ x ∈ xs, Fine (f x)) :
    Fine (anyR f xs) := by
  induction xs with
  | nil => exact .ok _
  | cons x xs ih => exact (h x (by simp)).orR (ih fun y hy => h y (by simp [hy]))

theorem Fine.eqListR {α : Type} {f : α → α → R Bool} {xs ys : List α}
    (h : ∀ x ∈ xs, ∀ y ∈ ys, Fine (f x y)) : Fine (eqListR f xs ys) := by
  unfold SqlPuzzle.eqListR
  refine Fine.ite ?_ (.ok _)
  have key : ∀ l : List (α × α), (∀ p ∈ l, Fine (f p.1 p.2)) → Fine (allR (fun p => f p.1 p.2) l) := by
    intro l hl
    induction l with
    | nil => exact .ok _
    | cons p l ih => exact (hl p (by simp)).andR (ih fun q hq => hl q (by simp [hq]))
  refine key _ fun p hp => ?_
  obtain ⟨h1, h2⟩ := List.of_mem_zip (a := p.1) (b := p.2) hp
  exact h _ h1 _ h2

theorem Spec.Regular.part {o : Obj} (h : Regular o) : ∀ x ∈ parts o, Regular x := by
  obtain ⟨_, h⟩ := h; exact h

theorem Spec.Regular.here {o : Obj} (h : Regular o) : RegularHere o := by
  obtain ⟨h, _⟩ := h; exact h

theorem regular_str (s : Str) : Regular (.str s) := ⟨trivial, by simp [parts]⟩
theorem regular_int (i : Int) : Regular (.int i) := ⟨trivial, by simp [parts]⟩
theorem regular_none : Regular .none := ⟨trivial, by simp [parts]⟩
theorem regular_list {xs : List Obj} (h : ∀ x ∈ xs, Regular x) : Regular (.list xs) := ⟨trivial, h⟩
theorem regular_value {v : Obj} (h : Regular v) : Regular (.sqlValue v) :=
  ⟨trivial, fun x hx => by rw [parts, List.mem_singleton] at hx; rw [hx]; exact h⟩

/-- `str` and `==` on regular objects raise only the expected exceptions. -/
structure Sem.Fine (S : Sem) : Prop where
  str : ∀ o, Regular o → o.isSql = true → SqlPuzzle.Fine (S.str o)
  eq : ∀ a b, Regular a → Regular b → SqlPuzzle.Fine (S.eq a b)

/-- A list of conditions, all of whose parts are regular. -/
def RegConds (ps : List Cond) : Prop := SqlItems ps ∧ ∀ c ∈ ps, ∀ x ∈ condParts c, Regular x

/-- A condition whose parts are regular. -/
def RegCond (c : Cond) : Prop := (∀ o, c = .item o → o.isSql = true) ∧ ∀ x ∈ condParts c, Regular x

def RegValue (c : Value) : Prop :=
  (∀ o, c = .item o → o.isSql = true) ∧ ∀ x ∈ valueParts c, Regular x

def RegJoin (j : Join) : Prop := Regular j.name ∧ Regular j.alias ∧ ∀ c ∈ j.ons, RegCond c

def RegTable (t : Table) : Prop := Regular t.name ∧ Regular t.alias ∧ ∀ j ∈ t.joins, RegJoin j

def RegColumn (c : Column) : Prop := Regular c.name ∧ Regular c.alias

theorem regConds_iff {ps : List Cond} :
    (SqlItems ps ∧ ∀ x ∈ ps.flatMap condParts, Regular x) ↔ ∀ c ∈ ps, RegCond c := by
  rw [List.forall_mem_flatMap]
  constructor
  · rintro ⟨h1, h2⟩ c hc
    exact ⟨fun o e => h1 o (e ▸ hc), h2 c hc⟩
  · intro h
    exact ⟨fun o ho => (h _ ho).1 o rfl, fun c hc => (h c hc).2⟩

theorem regValues_iff {ps : List Value} :
    (SqlValues ps ∧ ∀ x ∈ ps.flatMap valueParts, Regular x) ↔ ∀ c ∈ ps, RegValue c := by
  rw [List.forall_mem_flatMap]
  constructor
  · rintro ⟨h1, h2⟩ c hc
    exact ⟨fun o e => h1 o (e ▸ hc), h2 c hc⟩
  · intro h
    exact ⟨fun o ho => (h _ ho).1 o rfl, fun c hc => (h c hc).2⟩

theorem regTables_iff {ts : List Table} :
    (SqlJoins ts ∧ ∀ x ∈ ts.flatMap tableParts, Regular x) ↔ ∀ t ∈ ts, RegTable t := by
  rw [List.forall_mem_flatMap]
  constructor
  · rintro ⟨h1, h2⟩ t ht
    obtain ⟨h3, h4⟩ := List.forall_mem_append.mp (h2 t ht)
    refine ⟨h3 _ (by simp), h3 _ (by simp), fun j hj => ?_⟩
    obtain ⟨h5, h6⟩ := List.forall_mem_append.mp (List.forall_mem_flatMap.mp h4 j hj)
    exact ⟨h5 _ (by simp), h5 _ (by simp), regConds_iff.mp ⟨h1 t ht j hj, h6⟩⟩
  · intro h
    refine ⟨fun t ht j hj => (regConds_iff.mpr ((h t ht).2.2 j hj).2.2).1, fun t ht => ?_⟩
    obtain ⟨h1, h2, h3⟩ := h t ht
    refine List.forall_mem_append.mpr ⟨by simp [h1, h2], List.forall_mem_flatMap.mpr fun j hj => ?_⟩
    obtain ⟨h4, h5, h6⟩ := h3 j hj
    exact List.forall_mem_append.mpr ⟨by simp [h4, h5], (regConds_iff.mpr h6).2⟩

section
variable {cx : Ctx} {S : Sem} (h : S.Fine)
include h

theorem fine_forceText {v : Obj} (hv : Regular v) : Fine (forceText cx S v) := by
  unfold forceText
  split
  · exact h.str v hv (by assumption)
  · split <;> exact .ok _

theorem fine_parenText {v : Obj} (hv : Regular v) (hs : v.isSql = true) : Fine (parenText S v) :=
  (h.str v hv hs).bind fun _ _ => .ok _

theorem fine_listText {xs : List Obj} (hx : ∀ x ∈ xs, Regular x) : Fine (listText S xs) :=
  (Fine.mapR fun x hm => h.str _ (regular_value (hx x hm)) rfl).bind fun _ _ => .ok _

theorem fine_sqlValueText {v : Obj} (hv : Regular v) : Fine (sqlValueText cx S v) := by
  have hp := hv.part
  cases v <;> first
    | exact .ok _
    | exact (Fine.bad rfl).ite (fine_listText h hp)
    | exact (Fine.bad rfl).ite (fine_listText h fun x hx => by
        obtain ⟨i, _, rfl⟩ := List.mem_map.mp hx
        exact regular_int i)
    | exact fine_listText h hp
    | exact fine_parenText h hv rfl
    | exact h.str _ hv rfl

theorem fine_sqlRefText {v : Obj} (hv : Regular v) : Fine (sqlRefText cx S v) := by
  cases v <;> first
    | exact .ok _
    | exact fine_parenText h hv rfl
    | exact h.str _ hv rfl

theorem fine_aliasedText {n a : Obj} (hn : Regular n) (ha : Regular a) :
    Fine (aliasedText cx S n a) := by
  unfold aliasedText
  exact Fine.ite ((fine_sqlRefText h hn).bind fun _ _ => (fine_sqlRefText h ha).bind fun _ _ => .ok _)
    (fine_sqlRefText h hn)

theorem fine_orderText {o : Order} (ho : Regular o.col) : Fine (orderText cx S o) :=
  (fine_sqlRefText h ho).bind fun _ _ => .ok _

omit h in
theorem fine_partsText {α : Type} {kw sep dflt : Str} {f : α → R Str} {ps : List α}
    (h : ∀ x ∈ ps, Fine (f x)) : Fine (partsText kw sep dflt f ps) := by
  unfold partsText
  exact (Fine.ok _).ite ((Fine.mapR h).bind fun _ _ => .ok _)

theorem fine_plainCondText {col : Obj} (k : Rel) {vt : Obj → R Str} {v : Obj} (hcol : Regular col)
    (hv : Fine (vt v)) : Fine (plainCondText cx S col k vt v) :=
  (fine_sqlRefText h hcol).bind fun _ _ => hv.bind fun _ _ => .ok _

omit h in
theorem regular_iterate {v : Obj} (hv : Regular v) {xs : List Obj} (e : v.iterate = some xs) :
    ∀ x ∈ xs, Regular x := by
  have hp := hv.part
  intro x hx
  cases v <;> simp only [Obj.iterate, Option.some.injEq, reduceCtorEq] at e <;> subst e <;> first
    | exact hp x hx
    | (obtain ⟨i, _, rfl⟩ := List.mem_map.mp hx; exact regular_int _)
    | (obtain ⟨i, _, rfl⟩ := List.mem_map.mp hx; exact regular_str _)
    | (obtain ⟨p, hm, rfl⟩ := List.mem_map.mp hx
       exact hp p.1 (List.mem_flatMap.mpr ⟨p, hm, by simp⟩))

theorem fine_inCondText {col : Obj} (k : Rel) (g nt : Str) {vt : Obj → R Str} {v : Obj}
    (hcol : Regular col) (hv : Regular v) (ht : ∀ u, Regular u → Fine (vt u)) :
    Fine (inCondText cx S col k g nt vt v) := by
  unfold inCondText
  cases e : v.iterate with
  | none => exact fine_plainCondText h k hcol (ht v hv)
  | some xs =>
    have hl : Regular (.list (xs.filter fun x => !x.isNone)) :=
      regular_list fun x hx => regular_iterate hv e x (List.mem_filter.mp hx).1
    have := fine_plainCondText (cx := cx) h k hcol (ht _ hl)
    exact (((fine_sqlRefText h hcol).bind fun _ _ => .ok _).ite
      (this.bind fun _ _ => (fine_sqlRefText h hcol).bind fun _ _ => .ok _)).ite this

theorem fine_formatCond {col : Obj} (k : Rel) {vt : Obj → R Str} {v : Obj} (hcol : Regular col)
    (hv : Regular v) (ht : ∀ u, Regular u → Fine (vt u)) : Fine (formatCond cx S col k vt v) := by
  cases k <;> first
    | exact fine_inCondText h _ _ _ hcol hv ht
    | exact fine_plainCondText h _ hcol (ht v hv)

theorem fine_condText {c : Cond} (hc : RegCond c) : Fine (condText cx S c) := by
  obtain ⟨h1, hp⟩ := hc
  cases c with
  | item o => exact h.str o (hp o (by simp [condParts])) (h1 o rfl)
  | cond on col k v =>
    refine fine_formatCond h k (hp col (by simp [condParts])) (hp v (by simp [condParts])) ?_
    intro u hu
    split
    · exact fine_sqlRefText h hu
    · exact fine_sqlValueText h hu

theorem fine_condsText (kw : Str) {ps : List Cond} (hp : ∀ c ∈ ps, RegCond c) :
    Fine (condsText cx S kw ps) := fine_partsText fun c hm => fine_condText h (hp c hm)

theorem fine_valueText {v : Value} (hv : RegValue v) : Fine (valueText cx S v) := by
  obtain ⟨h1, hp⟩ := hv
  cases v with
  | item o => exact h.str o (hp o (by simp [valueParts])) (h1 o rfl)
  | value c x =>
    exact (fine_sqlRefText h (hp c (by simp [valueParts]))).bind fun _ _ =>
      (fine_sqlValueText h (hp x (by simp [valueParts]))).bind fun _ _ => .ok _

theorem fine_columnEq {a b : Column} (ha : RegColumn a) (hb : RegColumn b) : Fine (columnEq S a b) :=
  (h.eq _ _ ha.1 hb.1).andR (h.eq _ _ ha.2 hb.2)

theorem fine_orderEq {a b : Order} (ha : Regular a.col) (hb : Regular b.col) :
    Fine (orderEq S a b) := (h.eq _ _ ha hb).andR (.ok _)

theorem fine_condEq {a b : Cond} (ha : RegCond a) (hb : RegCond b) : Fine (condEq cx S a b) := by
  obtain ⟨ha1, ha⟩ := ha
  have hb0 := hb
  obtain ⟨hb1, hb⟩ := hb
  cases a with
  | cond on c k v =>
    have hac := ha c (by simp [condParts])
    have hav := ha v (by simp [condParts])
    cases b with
    | item _ => exact .ok _
    | cond on' c' k' v' =>
      have hbc := hb c' (by simp [condParts])
      have hbv := hb v' (by simp [condParts])
      exact (((h.eq _ _ hac hbc).andR ((h.eq _ _ hav hbv).andR (.ok _))).orR
        (((h.eq _ _ hav hbc).andR ((h.eq _ _ hac hbv).andR (.ok _))).ite (.ok _))).ite (.ok _)
  | item o =>
    have hao := ha o (by simp [condParts])
    cases b with
    | item p => exact h.eq _ _ hao (hb p (by simp [condParts]))
    | cond on c k v =>
      exact ((h.str o hao (ha1 o rfl)).bind fun _ _ => (fine_condText h hb0).bind fun _ _ =>
        .ok _).ite (.ok _)

theorem fine_condsEq {a b : List Cond} (ha : ∀ c ∈ a, RegCond c) (hb : ∀ c ∈ b, RegCond c) :
    Fine (condsEq cx S a b) := Fine.eqListR fun x hx y hy => fine_condEq h (ha x hx) (hb y hy)

theorem fine_valueEq {a b : Value} (ha : RegValue a) (hb : RegValue b) : Fine (valueEq cx S a b) := by
  obtain ⟨ha1, ha⟩ := ha
  have hb0 := hb
  obtain ⟨hb1, hb⟩ := hb
  cases a with
  | value c v =>
    cases b with
    | item _ => exact .ok _
    | value c' v' =>
      exact (h.eq _ _ (ha _ (by simp [valueParts])) (hb _ (by simp [valueParts]))).andR
        (h.eq _ _ (ha _ (by simp [valueParts])) (hb _ (by simp [valueParts])))
  | item o =>
    have hao := ha o (by simp [valueParts])
    cases b with
    | item p => exact h.eq _ _ hao (hb p (by simp [valueParts]))
    | value c v =>
      exact ((h.str o hao (ha1 o rfl)).bind fun _ _ => (fine_valueText h hb0).bind fun _ _ =>
        .ok _).ite (.ok _)

theorem fine_sameJoin {a b : Join} (ha : RegJoin a) (hb : RegJoin b) : Fine (sameJoin cx S a b) :=
  ((h.eq _ _ ha.1 hb.1).andR (h.eq _ _ ha.2.1 hb.2.1)).andR (fine_condsEq h ha.2.2 hb.2.2)

theorem fine_joinEq {a b : Join} (ha : RegJoin a) (hb : RegJoin b) : Fine (joinEq cx S a b) :=
  (Fine.ok _).andR (fine_sameJoin h ha hb)

theorem fine_tableEq {a b : Table} (ha : RegTable a) (hb : RegTable b) : Fine (tableEq cx S a b) :=
  ((h.eq _ _ ha.1 hb.1).andR (h.eq _ _ ha.2.1 hb.2.1)).andR
    (Fine.eqListR fun x hx y hy => fine_joinEq h (ha.2.2 x hx) (hb.2.2 y hy))

theorem fine_optEq {a b : Option Obj} (ha : ∀ x ∈ a.toList, Regular x)
    (hb : ∀ x ∈ b.toList, Regular x) : Fine (optEq S a b) := by
  cases a <;> cases b <;> first
    | exact .ok _
    | exact h.eq _ _ (ha _ (by simp)) (hb _ (by simp))

theorem fine_groupInsert {gs : List (Join × List Join)} {j : Join}
    (hg : ∀ g ∈ gs, RegJoin g.1) (hj : RegJoin j) : Fine (groupInsert cx S gs j) := by
  induction gs with
  | nil => exact .ok _
  | cons g gs ih =>
    exact (fine_sameJoin h (hg g (by simp)) hj).bind fun _ _ =>
      (Fine.ok _).ite ((ih fun g hm => hg g (by simp [hm])).bind fun _ _ => .ok _)

theorem fine_groupJoins {js : List Join} {gs : List (Join × List Join)}
    (hg : ∀ g ∈ gs, RegJoin g.1 ∧ ∀ k ∈ g.2, RegJoin k) (hj : ∀ j ∈ js, RegJoin j) :
    Fine (groupJoins cx S gs js) := by
  induction js generalizing gs with
  | nil => exact .ok _
  | cons j js ih =>
    exact (fine_groupInsert h (fun g hm => (hg g hm).1) (hj j (by simp))).bind fun gs' e =>
      ih (groupInsert_in (E := RegJoin) hg (hj j (by simp)) e) fun k hk => hj k (by simp [hk])

omit h in
theorem collapse_reg {g : Join × List Join} (hg : RegJoin g.1 ∧ ∀ k ∈ g.2, RegJoin k) :
    ∀ j ∈ collapseGroup g, RegJoin j := by
  intro j hj
  unfold collapseGroup at hj
  dsimp only at hj
  split at hj
  · rw [List.mem_singleton.mp hj]; exact hg.1
  · split at hj
    · rw [List.mem_singleton.mp hj]; exact hg.1
    · rcases List.mem_cons.mp hj with rfl | hj
      · exact hg.1
      · exact hg.2 j hj

omit h in
theorem minimize_reg {js js' : List Join} (hj : ∀ j ∈ js, RegJoin j)
    (e : minimizeJoins cx S js = .ok js') : ∀ j ∈ js', RegJoin j := by
  obtain ⟨gs, hg, e⟩ := bind_ok.mp e
  injection e with e
  subst e
  intro j hm
  obtain ⟨g, hgm, hm⟩ := List.mem_flatMap.mp hm
  exact collapse_reg (groupJoins_in (E := RegJoin) (gs := []) (by simp) hj hg g hgm) j hm

theorem fine_minimizeJoins {js : List Join} (hj : ∀ j ∈ js, RegJoin j) :
    Fine (minimizeJoins cx S js) := (fine_groupJoins h (by simp) hj).bind fun _ _ => .ok _

theorem fine_joinText {j : Join} (hj : RegJoin j) : Fine (joinText cx S j) :=
  (fine_aliasedText h hj.1 hj.2.1).bind fun _ _ =>
    (Fine.ok _).ite ((fine_condsText h _ hj.2.2).bind fun _ _ => .ok _)

theorem fine_tableText {t : Table} (ht : RegTable t) : Fine (tableText cx S t) :=
  (fine_aliasedText h ht.1 ht.2.1).bind fun _ _ =>
    (Fine.ok _).ite ((fine_minimizeJoins h ht.2.2).bind fun _ e =>
      (Fine.mapR fun j hj => fine_joinText h (minimize_reg ht.2.2 e j hj)).bind fun _ _ => .ok _)

omit h in
theorem fine_clause {b : Bool} {x : R Str} (h : Fine x) : Fine (clause b x) :=
  (h.bind fun _ _ => .ok _).ite (.ok _)

theorem fine_columnsText {cs : List Column} (hp : ∀ c ∈ cs, RegColumn c) :
    Fine (columnsText cx S cs) :=
  fine_partsText fun c hm => fine_aliasedText h (hp c hm).1 (hp c hm).2

theorem fine_ordersText (kw : Str) {os : List Order} (hp : ∀ o ∈ os, Regular o.col) :
    Fine (ordersText cx S kw os) := fine_partsText fun o hm => fine_orderText h (hp o hm)

theorem fine_tablesText (kw : Str) {ts : List Table} (hp : ∀ t ∈ ts, RegTable t) :
    Fine (tablesText cx S kw ts) := fine_partsText fun t hm => fine_tableText h (hp t hm)

theorem fine_valuesText (kw : Str) {vs : List Value} (hp : ∀ v ∈ vs, RegValue v) :
    Fine (valuesText cx S kw vs) := fine_partsText fun v hm => fine_valueText h (hp v hm)

theorem fine_outfilePhrase (kw : Str) {v : Option Obj} (hv : ∀ x ∈ v.toList, Regular x) :
    Fine (outfilePhrase cx S kw v) := by
  cases v with
  | none => exact .ok _
  | some v => exact (fine_sqlValueText h (hv v (by simp))).bind fun _ _ => .ok _

/-- A file name and phrases that are regular. -/
def RegOutfile (o : Outfile) : Prop := ∀ x ∈ outfileParts o, Regular x

theorem fine_outfileText {o : Outfile} (ho : RegOutfile o) : Fine (outfileText cx S o) := by
  unfold RegOutfile at ho
  simp only [outfileParts, List.forall_mem_append] at ho
  obtain ⟨⟨⟨h1, h2⟩, h3⟩, h4⟩ := ho
  have hf : Regular (o.file.getD .none) := by
    cases e : o.file with
    | none => exact regular_none
    | some v => exact h1 v (by simp [e])
  exact (fine_sqlValueText h hf).bind fun _ _ => (fine_outfilePhrase h _ h2).bind fun _ _ =>
    (fine_outfilePhrase h _ h3).bind fun _ _ => (fine_outfilePhrase h _ h4).bind fun _ _ => .ok _

/-- A `Select` all of whose parts are regular. -/
structure RegSelect (q : Select) : Prop where
  columns : ∀ c ∈ q.columns, RegColumn c
  tables : ∀ t ∈ q.tables, RegTable t
  where_ : ∀ c ∈ q.where_, RegCond c
  groupBy : ∀ o ∈ q.groupBy, Regular o.col
  having : ∀ c ∈ q.having, RegCond c
  orderBy : ∀ o ∈ q.orderBy, Regular o.col
  outfile : RegOutfile q.outfile

omit h in
theorem regSelect_iff {q : Select} : Regular (.select q) ↔ RegSelect q := by
  constructor
  · intro hq
    obtain ⟨h1, h2, h3⟩ := hq.here
    have hp := hq.part
    simp only [parts, selectParts, List.forall_mem_append] at hp
    obtain ⟨⟨⟨⟨⟨⟨p1, p2⟩, p3⟩, p4⟩, p5⟩, p6⟩, p7⟩ := hp
    rw [List.forall_mem_flatMap] at p1 p4 p6
    exact ⟨fun c hc => by simpa [colParts, RegColumn] using p1 c hc, regTables_iff.mp ⟨h1, p2⟩,
      regConds_iff.mp ⟨h2, p3⟩, fun o ho => p4 o ho _ (by simp [orderParts]),
      regConds_iff.mp ⟨h3, p5⟩, fun o ho => p6 o ho _ (by simp [orderParts]), p7⟩
  · intro hq
    obtain ⟨t1, t2⟩ := regTables_iff.mpr hq.tables
    obtain ⟨w1, w2⟩ := regConds_iff.mpr hq.where_
    obtain ⟨g1, g2⟩ := regConds_iff.mpr hq.having
    refine ⟨⟨t1, w1, g1⟩, ?_⟩
    show ∀ x ∈ parts _, Regular x
    simp only [parts, selectParts, List.forall_mem_append]
    refine ⟨⟨⟨⟨⟨⟨?_, t2⟩, w2⟩, ?_⟩, g2⟩, ?_⟩, hq.outfile⟩
    · exact List.forall_mem_flatMap.mpr fun c hc => by
        simpa [colParts, RegColumn] using hq.columns c hc
    · exact List.forall_mem_flatMap.mpr fun c hc => by simpa [orderParts] using hq.groupBy c hc
    · exact List.forall_mem_flatMap.mpr fun c hc => by simpa [orderParts] using hq.orderBy c hc

theorem fine_selectText {q : Select} (hq : RegSelect q) : Fine (selectText cx S q) :=
  (fine_clause (fine_columnsText h hq.columns)).bind fun _ _ =>
  (fine_clause (fine_ordersText h _ hq.groupBy)).bind fun _ _ =>
  (fine_clause (fine_condsText h _ hq.having)).bind fun _ _ =>
  (fine_clause (fine_outfileText h hq.outfile)).bind fun _ _ =>
  (fine_clause (.ok _)).bind fun _ _ =>
  (fine_clause (fine_ordersText h _ hq.orderBy)).bind fun _ _ =>
  (fine_clause (.ok _)).bind fun _ _ => (fine_clause (.ok _)).bind fun _ _ =>
  (fine_clause (fine_tablesText h _ hq.tables)).bind fun _ _ =>
  (fine_clause (fine_condsText h _ hq.where_)).bind fun _ _ => .ok _

/-- An `Insert` all of whose parts are regular. -/
structure RegInsert (q : Insert) : Prop where
  tables : ∀ t ∈ q.tables, RegTable t
  rows : ∀ r ∈ q.rows, NamedRow r ∧ ∀ x ∈ r.flatMap valueParts, Regular x
  onDup : ∀ v ∈ q.onDup, RegValue v
  onConflict : ∀ v ∈ q.onConflict, RegValue v

omit h in
theorem regInsert_iff {q : Insert} : Regular (.insert q) ↔ RegInsert q := by
  constructor
  · intro hq
    obtain ⟨h1, h2, h3, h4⟩ := hq.here
    have hp := hq.part
    simp only [parts, insertParts, List.forall_mem_append] at hp
    obtain ⟨⟨⟨p1, p2⟩, p3⟩, p4⟩ := hp
    rw [List.forall_mem_flatMap] at p2
    exact ⟨regTables_iff.mp ⟨h1, p1⟩, fun r hr => ⟨h2 r hr, p2 r hr⟩, regValues_iff.mp ⟨h3, p3⟩,
      regValues_iff.mp ⟨h4, p4⟩⟩
  · intro hq
    obtain ⟨t1, t2⟩ := regTables_iff.mpr hq.tables
    obtain ⟨d1, d2⟩ := regValues_iff.mpr hq.onDup
    obtain ⟨c1, c2⟩ := regValues_iff.mpr hq.onConflict
    refine ⟨⟨t1, fun r hr => (hq.rows r hr).1, d1, c1⟩, ?_⟩
    simp only [parts, insertParts, List.forall_mem_append]
    exact ⟨⟨⟨t2, List.forall_mem_flatMap.mpr fun r hr => (hq.rows r hr).2⟩, d2⟩, c2⟩

omit h in
theorem fine_rowColumns {row : List Value} (hr : NamedRow row) : Fine (rowColumns row) := by
  induction row with
  | nil => exact .ok _
  | cons v row ih =>
    obtain ⟨c, x, rfl⟩ := hr v (by simp)
    exact (ih fun w hw => hr w (by simp [hw])).bind fun _ _ => .ok _

omit h in
theorem lookup_reg {row : List Value} (hr : ∀ x ∈ row.flatMap valueParts, Regular x) (c : Str) :
    Regular (lookupValue c row) := by
  induction row with
  | nil => exact regular_none
  | cons p ps ih =>
    have hps := ih fun x hx => hr x (by
      rw [List.flatMap_cons]; exact List.mem_append_right _ hx)
    unfold lookupValue
    split
    · exact regular_none
    · rename_i e
      injection e with e1 e2
      subst e1 e2
      split
      · exact hps
      · split
        · exact hr _ (by simp [valueParts])
        · exact hps
    · rename_i e
      injection e with e1 e2
      subst e2
      exact hps

theorem fine_rowText (cols : List Str) {row : List Value}
    (hr : ∀ x ∈ row.flatMap valueParts, Regular x) : Fine (rowText cx S cols row) := by
  unfold rowText
  refine (Fine.mapR fun x hx => fine_sqlValueText h ?_).bind fun _ _ => .ok _
  split at hx
  · obtain ⟨v, hv, rfl⟩ := List.mem_map.mp hx
    exact partValue_in (List.forall_mem_flatMap.mp hr v hv)
  · obtain ⟨c, _, rfl⟩ := List.mem_map.mp hx
    exact lookup_reg hr c

theorem fine_rowsText {rows : List (List Value)}
    (hr : ∀ r ∈ rows, NamedRow r ∧ ∀ x ∈ r.flatMap valueParts, Regular x) :
    Fine (rowsText cx S rows) :=
  ((Fine.mapR fun r hm => fine_rowColumns (hr r hm).1).bind fun _ _ => .ok _).bind fun _ _ =>
    (Fine.mapR fun r hm => fine_rowText h _ (hr r hm).2).bind fun _ _ => .ok _

theorem fine_insertText {q : Insert} (hq : RegInsert q) : Fine (insertText cx S q) :=
  (fine_clause (.ok _)).bind fun _ _ => (fine_clause (.ok _)).bind fun _ _ =>
  (fine_clause (fine_valuesText h _ hq.onConflict)).bind fun _ _ =>
  (fine_clause (fine_valuesText h _ hq.onDup)).bind fun _ _ =>
  (fine_clause (fine_tablesText h _ hq.tables)).bind fun _ _ =>
  (fine_clause (fine_rowsText h hq.rows)).bind fun _ _ => .ok _

/-- An `Update` all of whose parts are regular. -/
structure RegUpdate (q : Update) : Prop where
  tables : ∀ t ∈ q.tables, RegTable t
  values : ∀ v ∈ q.values, RegValue v
  where_ : ∀ c ∈ q.where_, RegCond c

omit h in
theorem regUpdate_iff {q : Update} : Regular (.update q) ↔ RegUpdate q := by
  constructor
  · intro hq
    obtain ⟨h1, h2, h3⟩ := hq.here
    have hp := hq.part
    simp only [parts, updateParts, List.forall_mem_append] at hp
    obtain ⟨⟨p1, p2⟩, p3⟩ := hp
    exact ⟨regTables_iff.mp ⟨h1, p1⟩, regValues_iff.mp ⟨h2, p2⟩, regConds_iff.mp ⟨h3, p3⟩⟩
  · intro hq
    obtain ⟨t1, t2⟩ := regTables_iff.mpr hq.tables
    obtain ⟨d1, d2⟩ := regValues_iff.mpr hq.values
    obtain ⟨c1, c2⟩ := regConds_iff.mpr hq.where_
    refine ⟨⟨t1, d1, c1⟩, ?_⟩
    simp only [parts, updateParts, List.forall_mem_append]
    exact ⟨⟨t2, d2⟩, c2⟩

theorem fine_updateText {q : Update} (hq : RegUpdate q) : Fine (updateText cx S q) := by
  unfold updateText
  exact (Fine.bad rfl).ite <|
    (fine_clause (fine_tablesText h _ hq.tables)).bind fun _ _ =>
    (fine_clause (.ok _)).bind fun _ _ =>
    (fine_clause (fine_valuesText h _ hq.values)).bind fun _ _ =>
    (fine_clause (fine_condsText h _ hq.where_)).bind fun _ _ => .ok _

/-- A `Delete` all of whose parts are regular. -/
structure RegDelete (q : Delete) : Prop where
  tables : ∀ t ∈ q.tables, RegTable t
  references : ∀ t ∈ q.references, RegTable t
  where_ : ∀ c ∈ q.where_, RegCond c

omit h in
theorem regDelete_iff {q : Delete} : Regular (.delete q) ↔ RegDelete q := by
  constructor
  · intro hq
    obtain ⟨h1, h2, h3⟩ := hq.here
    have hp := hq.part
    simp only [parts, deleteParts, List.forall_mem_append] at hp
    obtain ⟨⟨p1, p2⟩, p3⟩ := hp
    exact ⟨regTables_iff.mp ⟨h1, p1⟩, regTables_iff.mp ⟨h2, p2⟩, regConds_iff.mp ⟨h3, p3⟩⟩
  · intro hq
    obtain ⟨t1, t2⟩ := regTables_iff.mpr hq.tables
    obtain ⟨d1, d2⟩ := regTables_iff.mpr hq.references
    obtain ⟨c1, c2⟩ := regConds_iff.mpr hq.where_
    refine ⟨⟨t1, d1, c1⟩, ?_⟩
    simp only [parts, deleteParts, List.forall_mem_append]
    exact ⟨⟨t2, d2⟩, c2⟩

theorem fine_deleteText {q : Delete} (hq : RegDelete q) : Fine (deleteText cx S q) := by
  unfold deleteText
  exact (Fine.bad rfl).ite <|
    (fine_clause (.ok _)).bind fun _ _ =>
    (fine_clause (fine_tablesText h _ hq.references)).bind fun _ _ =>
    (fine_clause (fine_tablesText h _ hq.tables)).bind fun _ _ =>
    (fine_clause (fine_condsText h _ hq.where_)).bind fun _ _ => .ok _

theorem fine_exprText {e : Obj} (he : Regular e) : Fine (exprText cx S e) := by
  have hp := he.part
  unfold exprText
  split
  · exact (Fine.mapR fun x hx => fine_sqlRefText h (hp x hx)).bind fun _ _ => .ok _
  · exact (Fine.mapR fun x hx => fine_sqlRefText h (hp x hx)).bind fun _ _ => .ok _
  · exact fine_sqlRefText h he

theorem fine_funcText (f : Agg) (d : Bool) {e : Obj} (he : Regular e) :
    Fine (funcText cx S f d e) := by
  cases f <;> first
    | exact (fine_exprText h he).bind fun _ _ => .ok _
    | exact (h.eq _ _ he (regular_str _)).bind fun _ _ =>
        ((fine_forceText h he).bind fun _ _ => .ok _).ite ((fine_exprText h he).bind fun _ _ => .ok _)

omit h in
theorem regColumns_iff {cs : List Column} :
    (∀ x ∈ cs.flatMap colParts, Regular x) ↔ ∀ c ∈ cs, RegColumn c := by
  rw [List.forall_mem_flatMap]
  simp [colParts, RegColumn]

omit h in
theorem regOrders_iff {os : List Order} :
    (∀ x ∈ os.flatMap orderParts, Regular x) ↔ ∀ o ∈ os, Regular o.col := by
  rw [List.forall_mem_flatMap]
  simp [orderParts]

theorem fine_groupConcatText {cs : List Column} {os : List Order} {sep : Obj}
    (h1 : ∀ c ∈ cs, RegColumn c) (h2 : ∀ o ∈ os, Regular o.col) (h3 : Regular sep) :
    Fine (groupConcatText cx S cs os sep) :=
  (fine_columnsText h h1).bind fun _ _ => (fine_clause (fine_ordersText h _ h2)).bind fun _ _ =>
    ((fine_sqlValueText h h3).bind fun _ _ => .ok _).ite (.ok _)

theorem fine_operandText {o : Obj} (ho : Regular o) (hs : o.isSql = true) : Fine (operandText S o) :=
  (h.str o ho hs).bind fun _ _ => .ok _

omit h in
theorem regular_conds {ps : List Cond} : Regular (.conds ps) ↔ ∀ c ∈ ps, RegCond c := by
  rw [← regConds_iff]
  exact ⟨fun hq => ⟨hq.here, hq.part⟩, fun hq => ⟨hq.1, hq.2⟩⟩

omit h in
theorem regular_not {ps : List Cond} : Regular (.not_ ps) ↔ ∀ c ∈ ps, RegCond c := by
  rw [← regConds_iff]
  exact ⟨fun hq => ⟨hq.here, hq.part⟩, fun hq => ⟨hq.1, hq.2⟩⟩

theorem fine_renderF {o : Obj} (ho : Regular o) (hs : o.isSql = true) : Fine (renderF cx S o) := by
  have hp := ho.part
  have hh := ho.here
  cases o with
  | custom s => exact .ok _
  | sqlValue v => exact fine_sqlValueText h (hp _ (by simp [parts]))
  | sqlRef v => exact fine_sqlRefText h (hp _ (by simp [parts]))
  | rel k v => exact (fine_forceText h (hp _ (by simp [parts]))).bind fun _ _ => .ok _
  | conds ps => exact fine_condsText h _ (regular_conds.mp ho)
  | cofc l r op =>
    exact (fine_operandText h (hp _ (by simp [parts])) hh.1).bind fun _ _ =>
      (fine_operandText h (hp _ (by simp [parts])) hh.2).bind fun _ _ => .ok _
  | not_ ps =>
    exact (h.str _ (regular_conds.mpr (regular_not.mp ho)) rfl).bind fun _ _ => .ok _
  | func f d e => exact fine_funcText h _ _ (hp _ (by simp [parts]))
  | concat cs => exact (fine_columnsText h (regColumns_iff.mp hp)).bind fun _ _ => .ok _
  | groupConcat cs os sep =>
    simp only [parts, List.forall_mem_append] at hp
    exact fine_groupConcatText h (regColumns_iff.mp hp.1.1) (regOrders_iff.mp hp.1.2)
      (hp.2 _ (by simp))
  | convert e ty => exact (fine_exprText h (hp _ (by simp [parts]))).bind fun _ _ => .ok _
  | exists_ e => exact (fine_forceText h (hp _ (by simp [parts]))).bind fun _ _ => .ok _
  | select q => exact fine_selectText h (regSelect_iff.mp ho)
  | union a b all =>
    exact (h.str _ (hp _ (by simp [parts])) hh.1).bind fun _ _ =>
      (h.str _ (hp _ (by simp [parts])) hh.2).bind fun _ _ => .ok _
  | insert q => exact fine_insertText h (regInsert_iff.mp ho)
  | update q => exact fine_updateText h (regUpdate_iff.mp ho)
  | delete q => exact fine_deleteText h (regDelete_iff.mp ho)
  | _ => cases hs

theorem fine_selectEq {a b : Select} (ha : RegSelect a) (hb : RegSelect b) :
    Fine (selectEq cx S a b) := by
  have oa := ha.outfile
  have ob := hb.outfile
  unfold RegOutfile at oa ob
  simp only [outfileParts, List.forall_mem_append] at oa ob
  obtain ⟨⟨⟨a1, a2⟩, a3⟩, a4⟩ := oa
  obtain ⟨⟨⟨b1, b2⟩, b3⟩, b4⟩ := ob
  exact (Fine.eqListR fun x hx y hy => fine_columnEq h (ha.columns x hx) (hb.columns y hy)).andR <|
    (Fine.eqListR fun x hx y hy => fine_orderEq h (ha.groupBy x hx) (hb.groupBy y hy)).andR <|
    (fine_condsEq h ha.having hb.having).andR <|
    ((fine_optEq h a1 b1).andR ((fine_optEq h a2 b2).andR ((fine_optEq h a3 b3).andR
      (fine_optEq h a4 b4)))).andR <|
    (Fine.ok _).andR <|
    (Fine.eqListR fun x hx y hy => fine_orderEq h (ha.orderBy x hx) (hb.orderBy y hy)).andR <|
    (Fine.ok _).andR <| (Fine.ok _).andR <|
    (Fine.eqListR fun x hx y hy => fine_tableEq h (ha.tables x hx) (hb.tables y hy)).andR
    (fine_condsEq h ha.where_ hb.where_)

omit h in
theorem row_reg {r : List Value} (hr : NamedRow r ∧ ∀ x ∈ r.flatMap valueParts, Regular x) :
    ∀ v ∈ r, RegValue v :=
  regValues_iff.mp ⟨fun o ho => (by obtain ⟨c, x, e⟩ := hr.1 _ ho; cases e), hr.2⟩

theorem fine_insertEq {a b : Insert} (ha : RegInsert a) (hb : RegInsert b) :
    Fine (insertEq cx S a b) :=
  (Fine.ok _).andR <| (Fine.ok _).andR <|
  (Fine.eqListR fun x hx y hy => fine_valueEq h (ha.onConflict x hx) (hb.onConflict y hy)).andR <|
  (Fine.eqListR fun x hx y hy => fine_valueEq h (ha.onDup x hx) (hb.onDup y hy)).andR <|
  (Fine.eqListR fun x hx y hy => fine_tableEq h (ha.tables x hx) (hb.tables y hy)).andR
  (Fine.eqListR fun x hx y hy => Fine.eqListR fun v hv w hw =>
    fine_valueEq h (row_reg (ha.rows x hx) v hv) (row_reg (hb.rows y hy) w hw))

theorem fine_updateEq {a b : Update} (ha : RegUpdate a) (hb : RegUpdate b) :
    Fine (updateEq cx S a b) :=
  (Fine.eqListR fun x hx y hy => fine_tableEq h (ha.tables x hx) (hb.tables y hy)).andR <|
  (Fine.ok _).andR <|
  (Fine.eqListR fun x hx y hy => fine_valueEq h (ha.values x hx) (hb.values y hy)).andR
  (fine_condsEq h ha.where_ hb.where_)

theorem fine_deleteEq {a b : Delete} (ha : RegDelete a) (hb : RegDelete b) :
    Fine (deleteEq cx S a b) :=
  (Fine.ok _).andR <|
  (Fine.eqListR fun x hx y hy => fine_tableEq h (ha.references x hx) (hb.references y hy)).andR <|
  (Fine.eqListR fun x hx y hy => fine_tableEq h (ha.tables x hx) (hb.tables y hy)).andR
  (fine_condsEq h ha.where_ hb.where_)

omit h in
theorem textual_sql {o : Obj} (h : o.textual = true) : o.isSql = true := by
  cases o <;> first | rfl | cases h

theorem fine_eqF {a b : Obj} (ha : Regular a) (hb : Regular b) : Fine (eqF cx S a b) := by
  have pa := ha.part
  have pb := hb.part
  unfold eqF
  split
  · rename_i ht
    have fa := fine_renderF (cx := cx) h ha (textual_sql ht)
    split
    · exact fa.bind fun _ _ => .ok _
    · split
      · rename_i hs
        exact fa.bind fun _ _ => (fine_renderF h hb hs).bind fun _ _ => .ok _
      · exact .ok _
  · split <;> first
      | exact .ok _
      | exact Fine.eqListR fun x hx y hy => h.eq x y (pa x hx) (pb y hy)
      | exact absurd ha.here id
      | exact (h.eq _ _ (pa _ (by simp [parts])) (pb _ (by simp [parts]))).ite (.ok _)
      | exact fine_condsEq h (regular_conds.mp ha) (regular_conds.mp hb)
      | exact fine_selectEq h (regSelect_iff.mp ha) (regSelect_iff.mp hb)
      | exact (h.eq _ _ (pa _ (by simp [parts])) (pb _ (by simp [parts]))).andR
          ((h.eq _ _ (pa _ (by simp [parts])) (pb _ (by simp [parts]))).andR (.ok _))
      | exact fine_insertEq h (regInsert_iff.mp ha) (regInsert_iff.mp hb)
      | exact fine_updateEq h (regUpdate_iff.mp ha) (regUpdate_iff.mp hb)
      | exact fine_deleteEq h (regDelete_iff.mp ha) (regDelete_iff.mp hb)
      | (split
         · exact (fine_renderF h hb (textual_sql (by assumption))).bind fun _ _ => .ok _
         · exact .ok _)
      | (split <;> exact .ok _)

end

theorem sem_fine (cx : Ctx) (n : Nat) : (sem cx n).Fine := by
  induction n with
  | zero =>
    exact ⟨fun _ _ _ e he => by injection he with he; exact Or.inr he.symm,
      fun _ _ _ _ e he => by injection he with he; exact Or.inr he.symm⟩
  | succ n ih => exact ⟨fun _ ho hs => fine_renderF ih ho hs, fun _ _ ha hb => fine_eqF ih ha hb⟩

end SqlPuzzle
