import Verif.Proofs.Mono
import Verif.Proofs.Minimize

/-!
A recursion budget of twice the size of an object is enough to render and to compare it.
-/

namespace SqlPuzzle

/-- The result is not a recursion error. -/
def Done {α : Type} (x : R α) : Prop := x ≠ .error .recursionError

theorem done_ok {α : Type} (a : α) : Done (.ok a : R α) := by intro h; cases h

theorem Done.bind {α β : Type} {x : R α} {f : α → R β} (h : Done x) (k : ∀ a, x = .ok a → Done (f a)) :
    Done (x >>= f) := by
  cases x with
  | error e => exact fun e' => h (by cases e'; rfl)
  | ok a => exact k a rfl

theorem Done.ite {α : Type} {c : Prop} [Decidable c] {x y : R α} (h : Done x) (k : Done y) :
    Done (if c then x else y) := by
  split <;> assumption

theorem Done.mapR {α β : Type} {f : α → R β} (xs : List α) (h : ∀ x ∈ xs, Done (f x)) :
    Done (mapR f xs) := by
  induction xs with
  | nil => exact done_ok _
  | cons x xs ih =>
    exact (h x (by simp)).bind fun y _ => (ih fun z hz => h z (by simp [hz])).bind fun ys _ => done_ok _

theorem Done.andR {a b : R Bool} (h : Done a) (k : Done b) : Done (andR a b) :=
  h.bind fun _ _ => k.ite (done_ok _)

theorem Done.orR {a b : R Bool} (h : Done a) (k : Done b) : Done (orR a b) :=
  h.bind fun _ _ => (done_ok _).ite k

theorem Done.allR {α : Type} {f : α → R Bool} (xs : List α) (h : ∀ x ∈ xs, Done (f x)) :
    Done (allR f xs) := by
  induction xs with
  | nil => exact done_ok _
  | cons x xs ih => exact (h x (by simp)).andR (ih fun z hz => h z (by simp [hz]))

theorem Done.eqListR {α : Type} {f : α → α → R Bool} (xs ys : List α)
    (h : ∀ x ∈ xs, ∀ y ∈ ys, Done (f x y)) : Done (eqListR f xs ys) := by
  unfold SqlPuzzle.eqListR
  refine (Done.allR _ ?_).ite (done_ok _)
  rintro ⟨x, y⟩ hxy
  exact h x (List.of_mem_zip hxy).1 y (List.of_mem_zip hxy).2

/-- Values whose text does not need other objects. -/
def Obj.selfText : Obj → Prop
  | .int _ | .str _ => True
  | _ => False

/-- `S` answers for all objects smaller than `m`. -/
structure Ample (S : Sem) (m : Nat) : Prop where
  str : ∀ o, sizeOf o < m → Done (S.str o)
  eq : ∀ a b, sizeOf a < m → sizeOf b < m → Done (S.eq a b)
  eqStr : ∀ a s, sizeOf a < m → Done (S.eq a (.str s))
  scalar : ∀ v : Obj, v.selfText → Done (S.str (.sqlValue v))

theorem mem_le {α : Type} [SizeOf α] {x : α} {xs : List α} {m : Nat} (h : x ∈ xs)
    (k : sizeOf xs ≤ m) : sizeOf x ≤ m := Nat.le_of_lt (Nat.lt_of_lt_of_le (List.sizeOf_lt_of_mem h) k)

theorem mem_lt {α : Type} [SizeOf α] {x : α} {xs : List α} {m : Nat} (h : x ∈ xs)
    (k : sizeOf xs ≤ m) : sizeOf x < m := Nat.lt_of_lt_of_le (List.sizeOf_lt_of_mem h) k

theorem iterate_small {v : Obj} {xs : List Obj} (h : v.iterate = some xs) :
    ∀ x ∈ xs, x.selfText ∨ sizeOf x + 1 < sizeOf v := by
  intro x hx
  cases v <;> simp only [Obj.iterate, Option.some.injEq, reduceCtorEq] at h <;> subst h
  case str s =>
    obtain ⟨c, _, rfl⟩ := List.mem_map.mp hx
    exact Or.inl trivial
  case bytes bs =>
    obtain ⟨b, _, rfl⟩ := List.mem_map.mp hx
    exact Or.inl trivial
  case range is =>
    obtain ⟨b, _, rfl⟩ := List.mem_map.mp hx
    exact Or.inl trivial
  case dict kvs =>
    obtain ⟨⟨a, b⟩, hb, rfl⟩ := List.mem_map.mp hx
    have := List.sizeOf_lt_of_mem hb
    right
    simp at this ⊢
    omega
  all_goals
    have := List.sizeOf_lt_of_mem hx
    right
    simp
    omega

section
variable {cx : Ctx} {S : Sem} {m : Nat} (h : Ample S m)
include h

theorem done_forceText {v : Obj} (hv : sizeOf v < m) : Done (forceText cx S v) := by
  unfold forceText
  refine (h.str v hv).ite ?_
  split <;> exact done_ok _

theorem done_parenText {v : Obj} (hv : sizeOf v < m) : Done (parenText S v) :=
  (h.str v hv).bind fun _ _ => done_ok _

theorem done_listText {xs : List Obj} (hx : ∀ x ∈ xs, x.selfText ∨ sizeOf x + 1 < m) :
    Done (listText S xs) := by
  refine (Done.mapR xs fun x h1 => ?_).bind fun _ _ => done_ok _
  rcases hx x h1 with h2 | h2
  · exact h.scalar x h2
  · refine h.str _ ?_
    simp; omega

omit h in
theorem done_elems {v : Obj} {xs : List Obj} (hv : sizeOf v ≤ m) (e : v.iterate = some xs) :
    ∀ x ∈ xs, x.selfText ∨ sizeOf x + 1 < m := fun x hx =>
  (iterate_small e x hx).imp_right fun h1 => Nat.lt_of_lt_of_le h1 hv

theorem done_sqlValueText {v : Obj} (hv : sizeOf v < m) : Done (sqlValueText cx S v) := by
  cases v <;> first
    | exact done_ok _
    | exact Done.ite (by intro e; cases e) (done_listText h (done_elems (Nat.le_of_lt hv) rfl))
    | exact done_listText h (done_elems (Nat.le_of_lt hv) rfl)
    | exact done_parenText h hv
    | exact h.str _ hv

theorem done_sqlRefText {v : Obj} (hv : sizeOf v < m) : Done (sqlRefText cx S v) := by
  cases v <;> first
    | exact done_ok _
    | exact done_parenText h hv
    | exact h.str _ hv

theorem done_aliasedText {n a : Obj} (hn : sizeOf n < m) (ha : sizeOf a < m) :
    Done (aliasedText cx S n a) := by
  unfold aliasedText
  exact ((done_sqlRefText h hn).bind fun _ _ => (done_sqlRefText h ha).bind fun _ _ => done_ok _).ite
    (done_sqlRefText h hn)

theorem done_columnText {c : Column} (hc : sizeOf c < m) : Done (columnText cx S c) := by
  obtain ⟨n, a⟩ := c
  simp at hc
  exact done_aliasedText h (by dsimp only; omega) (by dsimp only; omega)

theorem done_orderText {o : Order} (ho : sizeOf o < m) : Done (orderText cx S o) := by
  obtain ⟨c, b⟩ := o
  simp at ho
  exact (done_sqlRefText h (by dsimp only; omega)).bind fun _ _ => done_ok _

omit h in
theorem done_partsText {α : Type} (kw sep dflt : Str) {f : α → R Str} (ps : List α)
    (hp : ∀ x ∈ ps, Done (f x)) : Done (partsText kw sep dflt f ps) := by
  unfold partsText
  exact (done_ok _).ite ((Done.mapR ps hp).bind fun _ _ => done_ok _)

theorem done_plainCondText {col : Obj} (k : Rel) {vt : Obj → R Str} {v : Obj} (hc : sizeOf col < m)
    (hv : Done (vt v)) : Done (plainCondText cx S col k vt v) :=
  (done_sqlRefText h hc).bind fun _ _ => hv.bind fun _ _ => done_ok _

theorem done_inCondText {col : Obj} (k : Rel) (g nt : Str) {vt : Obj → R Str} {v : Obj}
    (hc : sizeOf col < m) (hv : Done (vt v))
    (hl : ∀ xs, v.iterate = some xs → Done (vt (.list (xs.filter fun x => !x.isNone)))) :
    Done (inCondText cx S col k g nt vt v) := by
  unfold inCondText
  cases e : v.iterate with
  | none => exact done_plainCondText h k hc hv
  | some xs =>
    exact (((done_sqlRefText h hc).bind fun _ _ => done_ok _).ite
      ((done_plainCondText h k hc (hl xs e)).bind fun _ _ =>
        (done_sqlRefText h hc).bind fun _ _ => done_ok _)).ite
      (done_plainCondText h k hc (hl xs e))

theorem done_formatCond {col : Obj} (k : Rel) {vt : Obj → R Str} {v : Obj}
    (hc : sizeOf col < m) (hv : Done (vt v))
    (hl : ∀ xs, v.iterate = some xs → Done (vt (.list (xs.filter fun x => !x.isNone)))) :
    Done (formatCond cx S col k vt v) := by
  cases k <;> first
    | exact done_inCondText h _ _ _ hc hv hl
    | exact done_plainCondText h _ hc hv

theorem done_condText {c : Cond} (hs : sizeOf c ≤ m) : Done (condText cx S c) := by
  cases c with
  | item o => exact h.str o (by simp at hs; omega)
  | cond on col k v =>
    simp at hs
    refine done_formatCond h k (by omega) ?_ ?_
    · split
      · exact done_sqlRefText h (by omega)
      · exact done_sqlValueText h (by omega)
    · intro xs e
      split
      · exact done_ok _
      · refine Done.ite (by intro e; cases e) (done_listText h fun x hx => ?_)
        exact done_elems (by omega) e x (List.mem_filter.mp hx).1

theorem done_condsText (kw : Str) {ps : List Cond} (hs : sizeOf ps ≤ m) :
    Done (condsText cx S kw ps) :=
  done_partsText _ _ _ ps fun _ hx => done_condText h (mem_le hx hs)

theorem done_valueText {v : Value} (hs : sizeOf v ≤ m) : Done (valueText cx S v) := by
  cases v with
  | item o => exact h.str o (by simp at hs; omega)
  | value c x =>
    simp at hs
    exact (done_sqlRefText h (by omega)).bind fun _ _ =>
      (done_sqlValueText h (by omega)).bind fun _ _ => done_ok _

theorem done_columnEq {a b : Column} (ha : sizeOf a ≤ m) (hb : sizeOf b ≤ m) :
    Done (columnEq S a b) := by
  obtain ⟨n, x⟩ := a
  obtain ⟨n', x'⟩ := b
  simp at ha hb
  exact (h.eq _ _ (by dsimp only; omega) (by dsimp only; omega)).andR
    (h.eq _ _ (by dsimp only; omega) (by dsimp only; omega))

theorem done_orderEq {a b : Order} (ha : sizeOf a ≤ m) (hb : sizeOf b ≤ m) : Done (orderEq S a b) := by
  obtain ⟨n, x⟩ := a
  obtain ⟨n', x'⟩ := b
  simp at ha hb
  exact (h.eq _ _ (by dsimp only; omega) (by dsimp only; omega)).andR (done_ok _)

theorem done_condEq {a b : Cond} (ha : sizeOf a ≤ m) (hb : sizeOf b ≤ m) : Done (condEq cx S a b) := by
  cases a with
  | cond on c k v =>
    cases b with
    | item _ => exact done_ok _
    | cond on' c' k' v' =>
      simp at ha hb
      exact (((h.eq _ _ (by omega) (by omega)).andR ((h.eq _ _ (by omega) (by omega)).andR
        (done_ok _))).orR (((h.eq _ _ (by omega) (by omega)).andR
        ((h.eq _ _ (by omega) (by omega)).andR (done_ok _))).ite (done_ok _))).ite (done_ok _)
  | item o =>
    cases b with
    | item p =>
      simp at ha hb
      exact h.eq o p (by omega) (by omega)
    | cond on c k v =>
      have hb' := done_condText (cx := cx) h hb
      simp at ha
      exact ((h.str o (by omega)).bind fun _ _ => hb'.bind fun _ _ => done_ok _).ite (done_ok _)

theorem done_condsEq {a b : List Cond} (ha : sizeOf a ≤ m) (hb : sizeOf b ≤ m) :
    Done (condsEq cx S a b) :=
  Done.eqListR a b fun _ hx _ hy => done_condEq h (mem_le hx ha) (mem_le hy hb)

theorem done_valueEq {a b : Value} (ha : sizeOf a ≤ m) (hb : sizeOf b ≤ m) :
    Done (valueEq cx S a b) := by
  cases a with
  | value c v =>
    cases b with
    | item _ => exact done_ok _
    | value c' v' =>
      simp at ha hb
      exact (h.eq _ _ (by omega) (by omega)).andR (h.eq _ _ (by omega) (by omega))
  | item o =>
    cases b with
    | item p =>
      simp at ha hb
      exact h.eq o p (by omega) (by omega)
    | value c v =>
      have hb' := done_valueText (cx := cx) h hb
      simp at ha
      exact ((h.str o (by omega)).bind fun _ _ => hb'.bind fun _ _ => done_ok _).ite (done_ok _)

theorem done_valuesEq {a b : List Value} (ha : sizeOf a ≤ m) (hb : sizeOf b ≤ m) :
    Done (eqListR (valueEq cx S) a b) :=
  Done.eqListR a b fun _ hx _ hy => done_valueEq h (mem_le hx ha) (mem_le hy hb)

theorem done_sameJoin {a b : Join} (ha : sizeOf a ≤ m) (hb : sizeOf b ≤ m) :
    Done (sameJoin cx S a b) := by
  obtain ⟨t, n, x, os⟩ := a
  obtain ⟨t', n', x', os'⟩ := b
  simp at ha hb
  exact ((h.eq _ _ (by dsimp only; omega) (by dsimp only; omega)).andR
    (h.eq _ _ (by dsimp only; omega) (by dsimp only; omega))).andR
    (done_condsEq h (by dsimp only; omega) (by dsimp only; omega))

theorem done_tableEq {a b : Table} (ha : sizeOf a ≤ m) (hb : sizeOf b ≤ m) :
    Done (tableEq cx S a b) := by
  obtain ⟨n, x, js⟩ := a
  obtain ⟨n', x', js'⟩ := b
  simp at ha hb
  exact ((h.eq _ _ (by dsimp only; omega) (by dsimp only; omega)).andR
    (h.eq _ _ (by dsimp only; omega) (by dsimp only; omega))).andR
    (Done.eqListR _ _ fun y hy z hz => (done_ok _).andR
      (done_sameJoin h (mem_le hy (by dsimp only; omega)) (mem_le hz (by dsimp only; omega))))

theorem done_tablesEq {a b : List Table} (ha : sizeOf a ≤ m) (hb : sizeOf b ≤ m) :
    Done (eqListR (tableEq cx S) a b) :=
  Done.eqListR a b fun _ hx _ hy => done_tableEq h (mem_le hx ha) (mem_le hy hb)

theorem done_optEq {a b : Option Obj} (ha : sizeOf a ≤ m) (hb : sizeOf b ≤ m) :
    Done (optEq S a b) := by
  cases a <;> cases b <;> try exact done_ok _
  simp at ha hb
  exact h.eq _ _ (by omega) (by omega)

theorem done_groupInsert (gs : List (Join × List Join)) {j : Join} (hg : ∀ g ∈ gs, sizeOf g.1 ≤ m)
    (hj : sizeOf j ≤ m) : Done (groupInsert cx S gs j) := by
  induction gs with
  | nil => exact done_ok _
  | cons g gs ih =>
    exact (done_sameJoin h (hg g (by simp)) hj).bind fun _ _ => (done_ok _).ite
      ((ih fun g' h' => hg g' (by simp [h'])).bind fun _ _ => done_ok _)

omit h in
theorem groupInsert_heads {gs gs' : List (Join × List Join)} {j : Join}
    (e : groupInsert cx S gs j = .ok gs') :
    ∀ g ∈ gs', g.1 = j ∨ ∃ g0 ∈ gs, g.1 = g0.1 := by
  induction gs generalizing gs' with
  | nil =>
    cases e
    intro g hg
    simp only [List.mem_singleton] at hg
    subst hg; exact Or.inl rfl
  | cons g0 gs ih =>
    obtain ⟨hd, tl⟩ := g0
    unfold groupInsert at e
    obtain ⟨b, hb, e⟩ := bind_ok.mp e
    cases b with
    | true =>
      cases e
      intro g hg
      rcases List.mem_cons.mp hg with rfl | hg
      · exact Or.inr ⟨_, List.mem_cons_self, rfl⟩
      · exact Or.inr ⟨g, List.mem_cons_of_mem _ hg, rfl⟩
    | false =>
      obtain ⟨r, hr, e⟩ := bind_ok.mp e
      cases e
      intro g hg
      rcases List.mem_cons.mp hg with rfl | hg
      · exact Or.inr ⟨_, List.mem_cons_self, rfl⟩
      · rcases ih hr g hg with h1 | ⟨g1, h1, h2⟩
        · exact Or.inl h1
        · exact Or.inr ⟨g1, List.mem_cons_of_mem _ h1, h2⟩

theorem done_groupJoins (js : List Join) (gs : List (Join × List Join))
    (hg : ∀ g ∈ gs, sizeOf g.1 ≤ m) (hj : ∀ j ∈ js, sizeOf j ≤ m) :
    Done (groupJoins cx S gs js) := by
  induction js generalizing gs with
  | nil => exact done_ok _
  | cons j js ih =>
    refine (done_groupInsert h gs hg (hj j (by simp))).bind fun gs' e => ih gs' ?_ ?_
    · intro g hg'
      rcases groupInsert_heads e g hg' with h1 | ⟨g0, h1, h2⟩
      · rw [h1]; exact hj j (by simp)
      · rw [h2]; exact hg g0 h1
    · exact fun j' h' => hj j' (by simp [h'])

theorem done_minimizeJoins {js : List Join} (hs : sizeOf js ≤ m) : Done (minimizeJoins cx S js) :=
  (done_groupJoins h js [] (by simp) fun _ hj => (mem_le hj hs)).bind fun _ _ => done_ok _

theorem done_joinText {j j' : Join} (hs : sizeOf j' ≤ m) (h1 : j.name = j'.name)
    (h2 : j.alias = j'.alias) (h3 : j.ons = j'.ons) : Done (joinText cx S j) := by
  obtain ⟨t, n, x, os⟩ := j
  obtain ⟨t', n', x', os'⟩ := j'
  simp only at h1 h2 h3
  subst h1 h2 h3
  simp at hs
  exact (done_aliasedText h (by dsimp only; omega) (by dsimp only; omega)).bind fun _ _ =>
    (done_ok _).ite ((done_condsText h _ (by dsimp only; omega)).bind fun _ _ => done_ok _)

theorem done_tableText {t : Table} (hs : sizeOf t ≤ m) : Done (tableText cx S t) := by
  obtain ⟨n, x, js⟩ := t
  simp at hs
  refine (done_aliasedText h (by dsimp only; omega) (by dsimp only; omega)).bind fun _ _ =>
    (done_ok _).ite ((done_minimizeJoins h (by dsimp only; omega)).bind fun js' e =>
    (Done.mapR js' fun j hj => ?_).bind fun _ _ => done_ok _)
  obtain ⟨j0, h0, h1, h2, h3⟩ := minimizeJoins_mem cx S e hj
  exact done_joinText h (mem_le h0 (by dsimp only; omega)) h1 h2 h3

omit h in
theorem done_clause (b : Bool) {x : R Str} (h : Done x) : Done (clause b x) :=
  (h.bind fun _ _ => done_ok _).ite (done_ok _)

theorem done_columnsText {cs : List Column} (hs : sizeOf cs ≤ m) : Done (columnsText cx S cs) :=
  done_partsText _ _ _ cs fun _ hx => done_columnText h (mem_lt hx hs)

theorem done_ordersText (kw : Str) {os : List Order} (hs : sizeOf os ≤ m) :
    Done (ordersText cx S kw os) :=
  done_partsText _ _ _ os fun _ hx => done_orderText h (mem_lt hx hs)

theorem done_tablesText (kw : Str) {ts : List Table} (hs : sizeOf ts ≤ m) :
    Done (tablesText cx S kw ts) :=
  done_partsText _ _ _ ts fun _ hx => done_tableText h (mem_le hx hs)

theorem done_valuesText (kw : Str) {vs : List Value} (hs : sizeOf vs ≤ m) :
    Done (valuesText cx S kw vs) :=
  done_partsText _ _ _ vs fun _ hx => done_valueText h (mem_le hx hs)

theorem done_outfilePhrase (kw : Str) {v : Option Obj} (hs : sizeOf v ≤ m) :
    Done (outfilePhrase cx S kw v) := by
  cases v with
  | none => exact done_ok _
  | some v =>
    simp at hs
    exact (done_sqlValueText h (by omega)).bind fun _ _ => done_ok _

theorem done_outfileText {o : Outfile} (hs : sizeOf o ≤ m) : Done (outfileText cx S o) := by
  obtain ⟨a, b, c, e⟩ := o
  simp at hs
  refine Done.bind ?_ fun _ _ => (done_outfilePhrase h _ (by dsimp only; omega)).bind fun _ _ =>
    (done_outfilePhrase h _ (by dsimp only; omega)).bind fun _ _ =>
    (done_outfilePhrase h _ (by dsimp only; omega)).bind fun _ _ => done_ok _
  cases a with
  | none => exact done_ok _
  | some a =>
    simp at hs
    exact done_sqlValueText h (by simp only [Option.getD]; omega)

theorem done_selectText {q : Select} (hs : sizeOf q ≤ m) : Done (selectText cx S q) := by
  cases q
  simp at hs
  exact (done_clause _ (done_columnsText h (by dsimp only; omega))).bind fun _ _ =>
    (done_clause _ (done_ordersText h _ (by dsimp only; omega))).bind fun _ _ =>
    (done_clause _ (done_condsText h _ (by dsimp only; omega))).bind fun _ _ =>
    (done_clause _ (done_outfileText h (by dsimp only; omega))).bind fun _ _ =>
    (done_clause _ (done_ok _)).bind fun _ _ =>
    (done_clause _ (done_ordersText h _ (by dsimp only; omega))).bind fun _ _ =>
    (done_clause _ (done_ok _)).bind fun _ _ => (done_clause _ (done_ok _)).bind fun _ _ =>
    (done_clause _ (done_tablesText h _ (by dsimp only; omega))).bind fun _ _ =>
    (done_clause _ (done_condsText h _ (by dsimp only; omega))).bind fun _ _ => done_ok _

omit h in
theorem done_rowColumns (row : List Value) : Done (rowColumns row) := by
  induction row with
  | nil => exact done_ok _
  | cons v vs ih =>
    cases v with
    | item o => intro e; cases e
    | value c x =>
      cases c <;> first
        | exact ih.bind fun _ _ => done_ok _
        | (intro e; cases e)

omit h in
theorem lookupValue_small (c : Str) (row : List Value) :
    lookupValue c row = .none ∨ sizeOf (lookupValue c row) < sizeOf row := by
  induction row with
  | nil => exact Or.inl rfl
  | cons v vs ih =>
    have key : lookupValue c vs = .none ∨ sizeOf (lookupValue c vs) < sizeOf (v :: vs) :=
      ih.imp_right fun h1 => by simp; omega
    cases v with
    | item o => exact key
    | value k x =>
      cases k <;> first
        | exact key
        | (unfold lookupValue
           split
           · exact key
           · split
             · right; simp; omega
             · exact key)

theorem done_rowText (cols : List Str) {row : List Value} (hs : sizeOf row ≤ m) :
    Done (rowText cx S cols row) := by
  refine (Done.mapR _ fun x hx => ?_).bind fun _ _ => done_ok _
  split at hx
  · obtain ⟨v, hv, rfl⟩ := List.mem_map.mp hx
    have := mem_lt hv hs
    cases v with
    | item o => exact done_sqlValueText h (by simp at this; simp only [partValue]; omega)
    | value c x => exact done_sqlValueText h (by simp at this; simp only [partValue]; omega)
  · obtain ⟨c, _, rfl⟩ := List.mem_map.mp hx
    rcases lookupValue_small c row with e | e
    · rw [e]; exact done_ok _
    · exact done_sqlValueText h (by omega)

theorem done_rowsText {rows : List (List Value)} (hs : sizeOf rows ≤ m) :
    Done (rowsText cx S rows) :=
  ((Done.mapR rows fun r _ => done_rowColumns r).bind fun _ _ => done_ok _).bind fun cols _ =>
    (Done.mapR rows fun _ hr => done_rowText h cols (mem_le hr hs)).bind fun _ _ => done_ok _

theorem done_insertText {q : Insert} (hs : sizeOf q ≤ m) : Done (insertText cx S q) := by
  cases q
  simp at hs
  exact (done_clause _ (done_ok _)).bind fun _ _ => (done_clause _ (done_ok _)).bind fun _ _ =>
    (done_clause _ (done_valuesText h _ (by dsimp only; omega))).bind fun _ _ =>
    (done_clause _ (done_valuesText h _ (by dsimp only; omega))).bind fun _ _ =>
    (done_clause _ (done_tablesText h _ (by dsimp only; omega))).bind fun _ _ =>
    (done_clause _ (done_rowsText h (by dsimp only; omega))).bind fun _ _ => done_ok _

theorem done_updateText {q : Update} (hs : sizeOf q ≤ m) : Done (updateText cx S q) := by
  cases q
  simp at hs
  unfold updateText
  exact Done.ite (by intro e; cases e) <|
    (done_clause _ (done_tablesText h _ (by dsimp only; omega))).bind fun _ _ =>
    (done_clause _ (done_ok _)).bind fun _ _ =>
    (done_clause _ (done_valuesText h _ (by dsimp only; omega))).bind fun _ _ =>
    (done_clause _ (done_condsText h _ (by dsimp only; omega))).bind fun _ _ => done_ok _

theorem done_deleteText {q : Delete} (hs : sizeOf q ≤ m) : Done (deleteText cx S q) := by
  cases q
  simp at hs
  unfold deleteText
  exact Done.ite (by intro e; cases e) <|
    (done_clause _ (done_ok _)).bind fun _ _ =>
    (done_clause _ (done_tablesText h _ (by dsimp only; omega))).bind fun _ _ =>
    (done_clause _ (done_tablesText h _ (by dsimp only; omega))).bind fun _ _ =>
    (done_clause _ (done_condsText h _ (by dsimp only; omega))).bind fun _ _ => done_ok _

theorem done_exprText {e : Obj} (hs : sizeOf e < m) : Done (exprText cx S e) := by
  unfold exprText
  split
  · refine (Done.mapR _ fun x hx => done_sqlRefText h ?_).bind fun _ _ => done_ok _
    exact mem_lt hx (by simp at hs; omega)
  · refine (Done.mapR _ fun x hx => done_sqlRefText h ?_).bind fun _ _ => done_ok _
    exact mem_lt hx (by simp at hs; omega)
  · exact done_sqlRefText h hs

theorem done_funcText (f : Agg) (d : Bool) {e : Obj} (hs : sizeOf e < m) :
    Done (funcText cx S f d e) := by
  have h1 : Done (exprText cx S e >>= fun t =>
      (.ok (f.text ++ '(' :: (if d then L!"DISTINCT " else []) ++ t ++ [')']) : R Str)) :=
    (done_exprText h hs).bind fun _ _ => done_ok _
  cases f <;> first
    | exact h1
    | exact (h.eqStr _ _ hs).bind fun _ _ => ((done_forceText h hs).bind fun _ _ => done_ok _).ite h1

theorem done_groupConcatText {cs : List Column} {os : List Order} {sep : Obj} (h1 : sizeOf cs ≤ m)
    (h2 : sizeOf os ≤ m) (h3 : sizeOf sep < m) : Done (groupConcatText cx S cs os sep) :=
  (done_columnsText h h1).bind fun _ _ => (done_clause _ (done_ordersText h _ h2)).bind fun _ _ =>
    ((done_sqlValueText h h3).bind fun _ _ => done_ok _).ite (done_ok _)

theorem done_operandText {o : Obj} (hs : sizeOf o < m) : Done (operandText S o) :=
  (h.str o hs).bind fun _ _ => done_ok _

theorem done_renderF {o : Obj} (hs : sizeOf o ≤ m) (hn : ∀ ps, o = .not_ ps → Done (S.str (.conds ps))) :
    Done (renderF cx S o) := by
  cases o <;> simp at hs
  case custom => exact done_ok _
  case sqlValue v => exact done_sqlValueText h (by omega)
  case sqlRef v => exact done_sqlRefText h (by omega)
  case rel k v => exact (done_forceText h (by omega)).bind fun _ _ => done_ok _
  case conds ps => exact done_condsText h _ (by omega)
  case cofc l r op =>
    exact (done_operandText h (by omega)).bind fun _ _ =>
      (done_operandText h (by omega)).bind fun _ _ => done_ok _
  case not_ ps => exact (hn ps rfl).bind fun _ _ => done_ok _
  case func f d e => exact done_funcText h f d (by omega)
  case concat cs => exact (done_columnsText h (by omega)).bind fun _ _ => done_ok _
  case groupConcat cs os sep => exact done_groupConcatText h (by omega) (by omega) (by omega)
  case convert e ty => exact (done_exprText h (by omega)).bind fun _ _ => done_ok _
  case exists_ e => exact (done_forceText h (by omega)).bind fun _ _ => done_ok _
  case select q => exact done_selectText h (by omega)
  case union a b all =>
    exact (h.str a (by omega)).bind fun _ _ => (h.str b (by omega)).bind fun _ _ => done_ok _
  case insert q => exact done_insertText h (by omega)
  case update q => exact done_updateText h (by omega)
  case delete q => exact done_deleteText h (by omega)
  all_goals (intro e; cases e)

theorem done_selectEq {a b : Select} (ha : sizeOf a ≤ m) (hb : sizeOf b ≤ m) :
    Done (selectEq cx S a b) := by
  obtain ⟨_, _, _, _, _, _, _, _, ⟨_, _, _, _⟩, _⟩ := a
  obtain ⟨_, _, _, _, _, _, _, _, ⟨_, _, _, _⟩, _⟩ := b
  simp at ha hb
  exact (Done.eqListR _ _ fun _ hx _ hy => done_columnEq h (mem_le hx (by dsimp only; omega))
      (mem_le hy (by dsimp only; omega))).andR <|
    (Done.eqListR _ _ fun _ hx _ hy => done_orderEq h (mem_le hx (by dsimp only; omega))
      (mem_le hy (by dsimp only; omega))).andR <|
    (done_condsEq h (by dsimp only; omega) (by dsimp only; omega)).andR <|
    ((done_optEq h (by dsimp only; omega) (by dsimp only; omega)).andR <|
      (done_optEq h (by dsimp only; omega) (by dsimp only; omega)).andR <|
      (done_optEq h (by dsimp only; omega) (by dsimp only; omega)).andR
      (done_optEq h (by dsimp only; omega) (by dsimp only; omega))).andR <|
    (done_ok _).andR <|
    (Done.eqListR _ _ fun _ hx _ hy => done_orderEq h (mem_le hx (by dsimp only; omega))
      (mem_le hy (by dsimp only; omega))).andR <|
    (done_ok _).andR <| (done_ok _).andR <|
    (done_tablesEq h (by dsimp only; omega) (by dsimp only; omega)).andR
    (done_condsEq h (by dsimp only; omega) (by dsimp only; omega))

theorem done_insertEq {a b : Insert} (ha : sizeOf a ≤ m) (hb : sizeOf b ≤ m) :
    Done (insertEq cx S a b) := by
  cases a
  cases b
  simp at ha hb
  exact (done_ok _).andR <| (done_ok _).andR <|
    (done_valuesEq h (by dsimp only; omega) (by dsimp only; omega)).andR <|
    (done_valuesEq h (by dsimp only; omega) (by dsimp only; omega)).andR <|
    (done_tablesEq h (by dsimp only; omega) (by dsimp only; omega)).andR
    (Done.eqListR _ _ fun _ hx _ hy => done_valuesEq h (mem_le hx (by dsimp only; omega))
      (mem_le hy (by dsimp only; omega)))

theorem done_updateEq {a b : Update} (ha : sizeOf a ≤ m) (hb : sizeOf b ≤ m) :
    Done (updateEq cx S a b) := by
  cases a
  cases b
  simp at ha hb
  exact (done_tablesEq h (by dsimp only; omega) (by dsimp only; omega)).andR <| (done_ok _).andR <|
    (done_valuesEq h (by dsimp only; omega) (by dsimp only; omega)).andR
    (done_condsEq h (by dsimp only; omega) (by dsimp only; omega))

theorem done_deleteEq {a b : Delete} (ha : sizeOf a ≤ m) (hb : sizeOf b ≤ m) :
    Done (deleteEq cx S a b) := by
  cases a
  cases b
  simp at ha hb
  exact (done_ok _).andR <| (done_tablesEq h (by dsimp only; omega) (by dsimp only; omega)).andR <|
    (done_tablesEq h (by dsimp only; omega) (by dsimp only; omega)).andR
    (done_condsEq h (by dsimp only; omega) (by dsimp only; omega))

omit h in
theorem done_eqStr {a : Obj} (s : Str) (ra : Done (renderF cx S a)) : Done (eqF cx S a (.str s)) := by
  unfold eqF
  refine Done.ite (ra.bind fun _ _ => done_ok _) ?_
  cases a <;> first | exact done_ok _ | (dsimp only; split <;> exact done_ok _)

theorem done_eqF {a b : Obj} (ha : sizeOf a ≤ m) (hb : sizeOf b ≤ m)
    (ra : Done (renderF cx S a)) (rb : Done (renderF cx S b)) : Done (eqF cx S a b) := by
  unfold eqF
  refine Done.ite ?_ ?_
  · split
    · exact ra.bind fun _ _ => done_ok _
    · exact (ra.bind fun _ _ => rb.bind fun _ _ => done_ok _).ite (done_ok _)
  · split <;> try simp at ha hb
    all_goals first
      | exact done_ok _
      | exact (rb.bind fun _ _ => done_ok _).ite (done_ok _)
      | exact Done.eqListR _ _ fun _ hx _ hy => h.eq _ _ (mem_lt hx (by omega)) (mem_lt hy (by omega))
      | (intro e; cases e)
      | exact (h.eq _ _ (by omega) (by omega)).ite (done_ok _)
      | exact done_condsEq h (by omega) (by omega)
      | exact done_selectEq h (by omega) (by omega)
      | exact (h.eq _ _ (by omega) (by omega)).andR ((h.eq _ _ (by omega) (by omega)).andR (done_ok _))
      | exact done_insertEq h (by omega) (by omega)
      | exact done_updateEq h (by omega) (by omega)
      | exact done_deleteEq h (by omega) (by omega)
      | (split <;> exact done_ok _)

end

theorem RLe.done {α : Type} {x y : R α} (h : RLe x y) (k : Done x) : Done y := by
  rcases h with h | rfl
  · exact absurd h k
  · exact k

theorem RLe.eq_of_done {α : Type} {x y : R α} (h : RLe x y) (k : Done x) : x = y := by
  rcases h with h | h
  · exact absurd h k
  · exact h

/-- Objects of size below `m` need a budget of `2 * m + 1`. -/
theorem ample (cx : Ctx) (m : Nat) : Ample (sem cx (2 * m + 1)) m := by
  induction m with
  | zero =>
    refine ⟨fun _ h => absurd h (Nat.not_lt_zero _), fun _ _ h => absurd h (Nat.not_lt_zero _),
      fun _ _ h => absurd h (Nat.not_lt_zero _), fun v hv => ?_⟩
    cases v <;> first | exact done_ok _ | cases hv
  | succ m ih =>
    have l1 : (sem cx (2 * m + 1)).Le (sem cx (2 * m + 2)) := sem_le cx (by omega)
    have l2 : (sem cx (2 * m + 2)).Le (sem cx (2 * m + 3)) := sem_le cx (by omega)
    have ih2 : Ample (sem cx (2 * m + 2)) m :=
      ⟨fun o h => (l1.str o).done (ih.str o h), fun a b h k => (l1.eq a b).done (ih.eq a b h k),
       fun a s h => (l1.eq a _).done (ih.eqStr a s h),
       fun v hv => (l1.str _).done (ih.scalar v hv)⟩
    have hc : ∀ ps : List Cond, sizeOf ps < m → Done ((sem cx (2 * m + 2)).str (.conds ps)) :=
      fun ps hp => done_condsText ih _ (by omega)
    have hr : ∀ o : Obj, sizeOf o ≤ m → Done (renderF cx (sem cx (2 * m + 2)) o) := by
      intro o ho
      refine done_renderF ih2 ho ?_
      rintro ps rfl
      exact hc ps (by simp at ho; omega)
    refine ⟨fun o ho => hr o (by omega), fun a b ha hb => ?_, fun a s ha => ?_, fun v hv => ?_⟩
    · exact done_eqF ih2 (by omega) (by omega) (hr a (by omega)) (hr b (by omega))
    · exact done_eqStr s (hr a (by omega))
    · cases v <;> first | exact done_ok _ | cases hv

theorem str_done (cx : Ctx) (o : Obj) {n : Nat} (h : 2 * sizeOf o + 3 ≤ n) :
    Done ((sem cx n).str o) :=
  ((sem_le cx h).str o).done ((ample cx (sizeOf o + 1)).str o (by omega))

theorem eq_done (cx : Ctx) (a b : Obj) {n : Nat} (h : 2 * max (sizeOf a) (sizeOf b) + 3 ≤ n) :
    Done ((sem cx n).eq a b) :=
  ((sem_le cx h).eq a b).done
    ((ample cx (max (sizeOf a) (sizeOf b) + 1)).eq a b (by omega) (by omega))

end SqlPuzzle
