import Verif.Proofs.Basic
import Verif.Model.Render

/-!
A larger recursion budget gives the same result, or a result instead of a recursion error.
-/

namespace SqlPuzzle

/-- `y` is `x`, or `x` is a recursion error. -/
def RLe {α : Type} (x y : R α) : Prop := x = .error .recursionError ∨ x = y

theorem RLe.refl {α : Type} (x : R α) : RLe x x := Or.inr rfl

theorem RLe.trans {α : Type} {x y z : R α} (h : RLe x y) (k : RLe y z) : RLe x z := by
  rcases h with h | rfl
  · exact Or.inl h
  · exact k

theorem RLe.ok {α : Type} {x y : R α} {a : α} (h : RLe x y) (e : x = .ok a) : y = .ok a := by
  rcases h with h | h
  · rw [h] at e; cases e
  · rw [← h]; exact e

theorem RLe.bind {α β : Type} {x y : R α} {f g : α → R β} (h : RLe x y) (k : ∀ a, RLe (f a) (g a)) :
    RLe (x >>= f) (y >>= g) := by
  rcases h with rfl | rfl
  · exact Or.inl rfl
  · cases x with
    | error e => exact Or.inr rfl
    | ok a => exact k a

theorem RLe.ite {α : Type} {c : Prop} [Decidable c] {x y x' y' : R α} (h : RLe x x') (k : RLe y y') :
    RLe (if c then x else y) (if c then x' else y') := by
  split <;> assumption

theorem RLe.mapR {α β : Type} {f g : α → R β} (h : ∀ x, RLe (f x) (g x)) (xs : List α) :
    RLe (mapR f xs) (mapR g xs) := by
  induction xs with
  | nil => exact .refl _
  | cons x xs ih => exact (h x).bind fun y => ih.bind fun ys => .refl _

theorem RLe.andR {a b a' b' : R Bool} (h : RLe a a') (k : RLe b b') : RLe (andR a b) (andR a' b') :=
  h.bind fun _ => k.ite (.refl _)

theorem RLe.orR {a b a' b' : R Bool} (h : RLe a a') (k : RLe b b') : RLe (orR a b) (orR a' b') :=
  h.bind fun _ => (RLe.refl _).ite k

theorem RLe.allR {α : Type} {f g : α → R Bool} (h : ∀ x, RLe (f x) (g x)) (xs : List α) :
    RLe (allR f xs) (allR g xs) := by
  induction xs with
  | nil => exact .refl _
  | cons x xs ih => exact (h x).andR ih

theorem RLe.eqListR {α : Type} {f g : α → α → R Bool} (h : ∀ x y, RLe (f x y) (g x y))
    (xs ys : List α) : RLe (eqListR f xs ys) (eqListR g xs ys) := by
  unfold SqlPuzzle.eqListR
  exact (RLe.allR (fun p : α × α => h p.1 p.2) _).ite (.refl _)

/-- `S'` answers at least what `S` answers. -/
structure Sem.Le (S S' : Sem) : Prop where
  str : ∀ o, RLe (S.str o) (S'.str o)
  eq : ∀ a b, RLe (S.eq a b) (S'.eq a b)

section
variable {cx : Ctx} {S S' : Sem} (h : S.Le S')
include h

theorem le_forceText (v : Obj) : RLe (forceText cx S v) (forceText cx S' v) := by
  unfold forceText
  exact (h.str v).ite (.refl _)

theorem le_parenText (v : Obj) : RLe (parenText S v) (parenText S' v) :=
  (h.str v).bind fun _ => .refl _

theorem le_listText (xs : List Obj) : RLe (listText S xs) (listText S' xs) :=
  (RLe.mapR (fun x => h.str (.sqlValue x)) xs).bind fun _ => .refl _

theorem le_sqlValueText (v : Obj) : RLe (sqlValueText cx S v) (sqlValueText cx S' v) := by
  cases v <;> first
    | exact .refl _
    | exact (RLe.refl _).ite (le_listText h _)
    | exact le_listText h _
    | exact le_parenText h _
    | exact h.str _

theorem le_sqlRefText (v : Obj) : RLe (sqlRefText cx S v) (sqlRefText cx S' v) := by
  cases v <;> first
    | exact .refl _
    | exact le_parenText h _
    | exact h.str _

theorem le_aliasedText (n a : Obj) : RLe (aliasedText cx S n a) (aliasedText cx S' n a) := by
  unfold aliasedText
  exact ((le_sqlRefText h n).bind fun _ => (le_sqlRefText h a).bind fun _ => .refl _).ite
    (le_sqlRefText h n)

theorem le_orderText (o : Order) : RLe (orderText cx S o) (orderText cx S' o) :=
  (le_sqlRefText h o.col).bind fun _ => .refl _

omit h in
theorem le_partsText {α : Type} (kw sep dflt : Str) {f g : α → R Str} (h : ∀ x, RLe (f x) (g x))
    (ps : List α) : RLe (partsText kw sep dflt f ps) (partsText kw sep dflt g ps) := by
  unfold partsText
  exact (RLe.refl _).ite ((RLe.mapR h ps).bind fun _ => .refl _)

theorem le_plainCondText (col : Obj) (k : Rel) {vt vt' : Obj → R Str} (hv : ∀ v, RLe (vt v) (vt' v))
    (v : Obj) : RLe (plainCondText cx S col k vt v) (plainCondText cx S' col k vt' v) :=
  (le_sqlRefText h col).bind fun _ => (hv v).bind fun _ => .refl _

theorem le_inCondText (col : Obj) (k : Rel) (g nt : Str) {vt vt' : Obj → R Str}
    (hv : ∀ v, RLe (vt v) (vt' v)) (v : Obj) :
    RLe (inCondText cx S col k g nt vt v) (inCondText cx S' col k g nt vt' v) := by
  unfold inCondText
  cases v.iterate with
  | none => exact le_plainCondText h col k hv v
  | some xs =>
    exact (((le_sqlRefText h col).bind fun _ => .refl _).ite
      ((le_plainCondText h col k hv _).bind fun _ => (le_sqlRefText h col).bind fun _ => .refl _)).ite
      (le_plainCondText h col k hv _)

theorem le_formatCond (col : Obj) (k : Rel) {vt vt' : Obj → R Str} (hv : ∀ v, RLe (vt v) (vt' v))
    (v : Obj) : RLe (formatCond cx S col k vt v) (formatCond cx S' col k vt' v) := by
  cases k <;> first
    | exact le_inCondText h _ _ _ _ hv _
    | exact le_plainCondText h _ _ hv _

theorem le_condText (c : Cond) : RLe (condText cx S c) (condText cx S' c) := by
  cases c with
  | item o => exact h.str o
  | cond on col k v =>
    refine le_formatCond h col k ?_ v
    intro u
    split
    · exact le_sqlRefText h u
    · exact le_sqlValueText h u

theorem le_condsText (kw : Str) (ps : List Cond) : RLe (condsText cx S kw ps) (condsText cx S' kw ps) :=
  le_partsText _ _ _ (le_condText h) ps

theorem le_valueText (v : Value) : RLe (valueText cx S v) (valueText cx S' v) := by
  cases v with
  | item o => exact h.str o
  | value c x => exact (le_sqlRefText h c).bind fun _ => (le_sqlValueText h x).bind fun _ => .refl _

theorem le_columnEq (a b : Column) : RLe (columnEq S a b) (columnEq S' a b) :=
  (h.eq _ _).andR (h.eq _ _)

theorem le_orderEq (a b : Order) : RLe (orderEq S a b) (orderEq S' a b) :=
  (h.eq _ _).andR (.refl _)

theorem le_condEq (a b : Cond) : RLe (condEq cx S a b) (condEq cx S' a b) := by
  cases a with
  | cond on c k v =>
    cases b with
    | item _ => exact .refl _
    | cond on' c' k' v' =>
      exact (((h.eq _ _).andR ((h.eq _ _).andR (.refl _))).orR
        (((h.eq _ _).andR ((h.eq _ _).andR (.refl _))).ite (.refl _))).ite (.refl _)
  | item o =>
    cases b with
    | item p => exact h.eq o p
    | cond on c k v =>
      exact ((h.str o).bind fun _ => (le_condText h _).bind fun _ => .refl _).ite (.refl _)

theorem le_condsEq (a b : List Cond) : RLe (condsEq cx S a b) (condsEq cx S' a b) :=
  RLe.eqListR (le_condEq h) a b

theorem le_valueEq (a b : Value) : RLe (valueEq cx S a b) (valueEq cx S' a b) := by
  cases a with
  | value c v =>
    cases b with
    | item _ => exact .refl _
    | value c' v' => exact (h.eq _ _).andR (h.eq _ _)
  | item o =>
    cases b with
    | item p => exact h.eq o p
    | value c v =>
      exact ((h.str o).bind fun _ => (le_valueText h _).bind fun _ => .refl _).ite (.refl _)

theorem le_sameJoin (a b : Join) : RLe (sameJoin cx S a b) (sameJoin cx S' a b) :=
  ((h.eq _ _).andR (h.eq _ _)).andR (le_condsEq h _ _)

theorem le_joinEq (a b : Join) : RLe (joinEq cx S a b) (joinEq cx S' a b) :=
  (RLe.refl _).andR (le_sameJoin h a b)

theorem le_tableEq (a b : Table) : RLe (tableEq cx S a b) (tableEq cx S' a b) :=
  ((h.eq _ _).andR (h.eq _ _)).andR (RLe.eqListR (le_joinEq h) _ _)

theorem le_optEq (a b : Option Obj) : RLe (optEq S a b) (optEq S' a b) := by
  cases a <;> cases b <;> first | exact .refl _ | exact h.eq _ _

theorem le_groupInsert (gs : List (Join × List Join)) (j : Join) :
    RLe (groupInsert cx S gs j) (groupInsert cx S' gs j) := by
  induction gs with
  | nil => exact .refl _
  | cons g gs ih =>
    exact (le_sameJoin h g.1 j).bind fun _ => (RLe.refl _).ite (ih.bind fun _ => .refl _)

theorem le_groupJoins (js : List Join) (gs : List (Join × List Join)) :
    RLe (groupJoins cx S gs js) (groupJoins cx S' gs js) := by
  induction js generalizing gs with
  | nil => exact .refl _
  | cons j js ih => exact (le_groupInsert h gs j).bind fun gs' => ih gs'

theorem le_minimizeJoins (js : List Join) : RLe (minimizeJoins cx S js) (minimizeJoins cx S' js) :=
  (le_groupJoins h js []).bind fun _ => .refl _

theorem le_joinText (j : Join) : RLe (joinText cx S j) (joinText cx S' j) :=
  (le_aliasedText h _ _).bind fun _ => (RLe.refl _).ite ((le_condsText h _ _).bind fun _ => .refl _)

theorem le_tableText (t : Table) : RLe (tableText cx S t) (tableText cx S' t) :=
  (le_aliasedText h _ _).bind fun _ => (RLe.refl _).ite ((le_minimizeJoins h _).bind fun js =>
    (RLe.mapR (le_joinText h) js).bind fun _ => .refl _)

omit h in
theorem le_clause (b : Bool) {x y : R Str} (h : RLe x y) : RLe (clause b x) (clause b y) :=
  (h.bind fun _ => .refl _).ite (.refl _)

theorem le_columnsText (cs : List Column) : RLe (columnsText cx S cs) (columnsText cx S' cs) :=
  le_partsText _ _ _ (fun _ => le_aliasedText h _ _) cs

theorem le_ordersText (kw : Str) (os : List Order) :
    RLe (ordersText cx S kw os) (ordersText cx S' kw os) := le_partsText _ _ _ (le_orderText h) os

theorem le_tablesText (kw : Str) (ts : List Table) :
    RLe (tablesText cx S kw ts) (tablesText cx S' kw ts) := le_partsText _ _ _ (le_tableText h) ts

theorem le_valuesText (kw : Str) (vs : List Value) :
    RLe (valuesText cx S kw vs) (valuesText cx S' kw vs) := le_partsText _ _ _ (le_valueText h) vs

theorem le_outfilePhrase (kw : Str) (v : Option Obj) :
    RLe (outfilePhrase cx S kw v) (outfilePhrase cx S' kw v) := by
  cases v with
  | none => exact .refl _
  | some v => exact (le_sqlValueText h v).bind fun _ => .refl _

theorem le_outfileText (o : Outfile) : RLe (outfileText cx S o) (outfileText cx S' o) :=
  (le_sqlValueText h _).bind fun _ => (le_outfilePhrase h _ _).bind fun _ =>
    (le_outfilePhrase h _ _).bind fun _ => (le_outfilePhrase h _ _).bind fun _ => .refl _

theorem le_selectText (q : Select) : RLe (selectText cx S q) (selectText cx S' q) :=
  (le_clause _ (le_columnsText h _)).bind fun _ => (le_clause _ (le_ordersText h _ _)).bind fun _ =>
  (le_clause _ (le_condsText h _ _)).bind fun _ => (le_clause _ (le_outfileText h _)).bind fun _ =>
  (RLe.refl _).bind fun _ => (le_clause _ (le_ordersText h _ _)).bind fun _ =>
  (RLe.refl _).bind fun _ => (RLe.refl _).bind fun _ =>
  (le_clause _ (le_tablesText h _ _)).bind fun _ => (le_clause _ (le_condsText h _ _)).bind fun _ =>
  .refl _

theorem le_rowText (cols : List Str) (row : List Value) :
    RLe (rowText cx S cols row) (rowText cx S' cols row) :=
  (RLe.mapR (le_sqlValueText h) _).bind fun _ => .refl _

theorem le_rowsText (rows : List (List Value)) : RLe (rowsText cx S rows) (rowsText cx S' rows) :=
  (RLe.refl _).bind fun cols => (RLe.mapR (le_rowText h cols) _).bind fun _ => .refl _

theorem le_insertText (q : Insert) : RLe (insertText cx S q) (insertText cx S' q) :=
  (RLe.refl _).bind fun _ => (RLe.refl _).bind fun _ => (le_clause _ (le_valuesText h _ _)).bind fun _ =>
  (le_clause _ (le_valuesText h _ _)).bind fun _ => (le_clause _ (le_tablesText h _ _)).bind fun _ =>
  (le_clause _ (le_rowsText h _)).bind fun _ => .refl _

theorem le_updateText (q : Update) : RLe (updateText cx S q) (updateText cx S' q) := by
  unfold updateText
  exact (RLe.refl _).ite <|
    (le_clause _ (le_tablesText h _ _)).bind fun _ => (RLe.refl _).bind fun _ =>
    (le_clause _ (le_valuesText h _ _)).bind fun _ => (le_clause _ (le_condsText h _ _)).bind fun _ =>
    .refl _

theorem le_deleteText (q : Delete) : RLe (deleteText cx S q) (deleteText cx S' q) := by
  unfold deleteText
  exact (RLe.refl _).ite <|
    (RLe.refl _).bind fun _ => (le_clause _ (le_tablesText h _ _)).bind fun _ =>
    (le_clause _ (le_tablesText h _ _)).bind fun _ => (le_clause _ (le_condsText h _ _)).bind fun _ =>
    .refl _

theorem le_exprText (e : Obj) : RLe (exprText cx S e) (exprText cx S' e) := by
  unfold exprText
  split <;> first
    | exact le_sqlRefText h _
    | exact (RLe.mapR (le_sqlRefText h) _).bind fun _ => .refl _

theorem le_funcText (f : Agg) (d : Bool) (e : Obj) : RLe (funcText cx S f d e) (funcText cx S' f d e) := by
  cases f <;> first
    | exact (le_exprText h e).bind fun _ => .refl _
    | exact (h.eq _ _).bind fun _ => ((le_forceText h e).bind fun _ => .refl _).ite
        ((le_exprText h e).bind fun _ => .refl _)

theorem le_groupConcatText (cs : List Column) (os : List Order) (sep : Obj) :
    RLe (groupConcatText cx S cs os sep) (groupConcatText cx S' cs os sep) :=
  (le_columnsText h cs).bind fun _ => (le_clause _ (le_ordersText h _ _)).bind fun _ =>
    ((le_sqlValueText h sep).bind fun _ => .refl _).ite (.refl _)

theorem le_operandText (o : Obj) : RLe (operandText S o) (operandText S' o) :=
  (h.str o).bind fun _ => .refl _

theorem le_renderF (o : Obj) : RLe (renderF cx S o) (renderF cx S' o) := by
  cases o <;> first
    | exact .refl _
    | exact le_sqlValueText h _
    | exact le_sqlRefText h _
    | exact (le_forceText h _).bind fun _ => .refl _
    | exact le_condsText h _ _
    | exact (le_operandText h _).bind fun _ => (le_operandText h _).bind fun _ => .refl _
    | exact (h.str _).bind fun _ => .refl _
    | exact le_funcText h _ _ _
    | exact (le_columnsText h _).bind fun _ => .refl _
    | exact le_groupConcatText h _ _ _
    | exact (le_exprText h _).bind fun _ => .refl _
    | exact le_selectText h _
    | exact (h.str _).bind fun _ => (h.str _).bind fun _ => .refl _
    | exact le_insertText h _
    | exact le_updateText h _
    | exact le_deleteText h _

theorem le_selectEq (a b : Select) : RLe (selectEq cx S a b) (selectEq cx S' a b) :=
  (RLe.eqListR (le_columnEq h) _ _).andR <| (RLe.eqListR (le_orderEq h) _ _).andR <|
  (le_condsEq h _ _).andR <|
  ((le_optEq h _ _).andR ((le_optEq h _ _).andR ((le_optEq h _ _).andR (le_optEq h _ _)))).andR <|
  (RLe.refl _).andR <| (RLe.eqListR (le_orderEq h) _ _).andR <| (RLe.refl _).andR <|
  (RLe.refl _).andR <| (RLe.eqListR (le_tableEq h) _ _).andR (le_condsEq h _ _)

theorem le_insertEq (a b : Insert) : RLe (insertEq cx S a b) (insertEq cx S' a b) :=
  (RLe.refl _).andR <| (RLe.refl _).andR <| (RLe.eqListR (le_valueEq h) _ _).andR <|
  (RLe.eqListR (le_valueEq h) _ _).andR <| (RLe.eqListR (le_tableEq h) _ _).andR
  (RLe.eqListR (RLe.eqListR (le_valueEq h)) _ _)

theorem le_updateEq (a b : Update) : RLe (updateEq cx S a b) (updateEq cx S' a b) :=
  (RLe.eqListR (le_tableEq h) _ _).andR <| (RLe.refl _).andR <|
  (RLe.eqListR (le_valueEq h) _ _).andR (le_condsEq h _ _)

theorem le_deleteEq (a b : Delete) : RLe (deleteEq cx S a b) (deleteEq cx S' a b) :=
  (RLe.refl _).andR <| (RLe.eqListR (le_tableEq h) _ _).andR <|
  (RLe.eqListR (le_tableEq h) _ _).andR (le_condsEq h _ _)

theorem le_textEq (a b : Obj) : RLe (textEq cx S a b) (textEq cx S' a b) :=
  (le_renderF h a).bind fun _ => (le_renderF h b).bind fun _ => .refl _

theorem le_eqF (a b : Obj) : RLe (eqF cx S a b) (eqF cx S' a b) := by
  unfold eqF
  refine RLe.ite ?_ ?_
  · cases b <;> first
      | exact (le_renderF h a).bind fun _ => .refl _
      | exact (le_textEq h a _).ite (.refl _)
  · split <;> first
      | exact .refl _
      | exact RLe.eqListR h.eq _ _
      | exact (h.eq _ _).ite (.refl _)
      | exact le_condsEq h _ _
      | exact le_selectEq h _ _
      | exact (h.eq _ _).andR ((h.eq _ _).andR (.refl _))
      | exact le_insertEq h _ _
      | exact le_updateEq h _ _
      | exact le_deleteEq h _ _
      | exact ((le_renderF h _).bind fun _ => .refl _).ite (.refl _)

end

theorem sem_le_succ (cx : Ctx) (n : Nat) : (sem cx n).Le (sem cx (n + 1)) := by
  induction n with
  | zero => exact ⟨fun _ => Or.inl rfl, fun _ _ => Or.inl rfl⟩
  | succ n ih => exact ⟨le_renderF ih, le_eqF ih⟩

theorem Sem.Le.refl (S : Sem) : S.Le S := ⟨fun _ => .refl _, fun _ _ => .refl _⟩

theorem Sem.Le.trans {S S' S'' : Sem} (h : S.Le S') (k : S'.Le S'') : S.Le S'' :=
  ⟨fun o => (h.str o).trans (k.str o), fun a b => (h.eq a b).trans (k.eq a b)⟩

theorem sem_le (cx : Ctx) {m n : Nat} (h : m ≤ n) : (sem cx m).Le (sem cx n) := by
  induction h with
  | refl => exact .refl _
  | step _ ih => exact ih.trans (sem_le_succ cx _)

end SqlPuzzle
