import Verif.Spec.Nesting
import Verif.Proofs.Minimize
import Verif.Proofs.Strip
import Verif.Proofs.Sort
import Verif.Proofs.Statement

/-!
The text of an object contains the texts of the objects written inside it.
-/

namespace SqlPuzzle

open Spec

/-- Text in parentheses occurring in `u` occurs in `t`. -/
def Keep (u t : Str) : Prop := ∀ s, parens s <:+: u → parens s <:+: t

theorem Keep.refl (t : Str) : Keep t t := fun _ h => h

theorem Keep.trans {a b c : Str} (h : Keep a b) (k : Keep b c) : Keep a c := fun s hs => k s (h s hs)

theorem keep_infix {u t : Str} (h : u <:+: t) : Keep u t := fun _ hs => hs.trans h

theorem keep_mid (a u b : Str) : Keep u (a ++ (u ++ b)) := keep_infix ⟨a, b, by simp⟩

theorem keep_left (a u : Str) : Keep u (a ++ u) := keep_infix ⟨a, [], by simp⟩

theorem keep_right (u b : Str) : Keep u (u ++ b) := keep_infix ⟨[], b, by simp⟩

theorem keep_cons (c : Char) (u : Str) : Keep u (c :: u) := keep_infix ⟨[c], [], by simp⟩

theorem keep_parens (u : Str) : Keep u (parens u) := keep_infix ⟨['('], [')'], by simp [parens]⟩

theorem Keep.app {u t : Str} (h : Keep u t) (a b : Str) : Keep u (a ++ (t ++ b)) :=
  h.trans (keep_mid a t b)

theorem Keep.l {u t : Str} (h : Keep u t) (a : Str) : Keep u (a ++ t) := h.trans (keep_left a t)

theorem Keep.r {u t : Str} (h : Keep u t) (b : Str) : Keep u (t ++ b) := h.trans (keep_right t b)

theorem Keep.c {u t : Str} (h : Keep u t) (c : Char) : Keep u (c :: t) := h.trans (keep_cons c t)

theorem dropWhile_mid {p : Char → Bool} {c : Char} (hc : p c = false) (a r : Str) :
    ∃ a', (a ++ c :: r).dropWhile p = a' ++ c :: r := by
  induction a with
  | nil => exact ⟨[], by simp [hc]⟩
  | cons x a ih =>
    rw [List.cons_append, List.dropWhile_cons]
    split
    · exact ih
    · exact ⟨x :: a, rfl⟩

theorem keep_strip (t : Str) : Keep t (strip t) := by
  rintro s ⟨a, b, rfl⟩
  have e : a ++ parens s ++ b = a ++ '(' :: (s ++ ')' :: b) := by simp [parens]
  rw [e]
  obtain ⟨a', h1⟩ := dropWhile_mid (p := isSpace) (c := '(') (by decide) a (s ++ ')' :: b)
  unfold strip
  rw [h1]
  have e2 : (a' ++ '(' :: (s ++ ')' :: b)).reverse = b.reverse ++ ')' :: (a' ++ '(' :: s).reverse := by
    simp
  rw [e2]
  obtain ⟨b', h2⟩ := dropWhile_mid (p := isSpace) (c := ')') (by decide) b.reverse
    (a' ++ '(' :: s).reverse
  rw [h2]
  exact ⟨a', b'.reverse, by simp [parens]⟩

theorem keep_joinS {sep u : Str} {ts : List Str} (h : u ∈ ts) : Keep u (joinS sep ts) := by
  induction ts with
  | nil => cases h
  | cons t ts ih =>
    cases ts with
    | nil =>
      rcases List.mem_cons.mp h with rfl | h
      · exact .refl _
      · cases h
    | cons t' ts =>
      unfold joinS
      rcases List.mem_cons.mp h with rfl | h
      · rw [List.append_assoc]; exact keep_right _ _
      · exact (ih h).l _

/-- What is written for `p` in the place of a name or value (`b`), or as it is. -/
def wr (b : Bool) (p : Obj) (u : Str) : Str := if b && isQuery p then parens u else u

/-- The text `t` shows the object `p`. -/
def Shows (S : Sem) (b : Bool) (p : Obj) (t : Str) : Prop :=
  p.isSql = true → ∃ u, S.str p = .ok u ∧ Keep (wr b p u) t

theorem Shows.keep {S : Sem} {b : Bool} {p : Obj} {t t' : Str} (h : Shows S b p t) (k : Keep t t') :
    Shows S b p t' := fun hp => by
  obtain ⟨u, h1, h2⟩ := h hp
  exact ⟨u, h1, h2.trans k⟩

theorem shows_self {S : Sem} {p : Obj} {t : Str} (h : S.str p = .ok t) : Shows S false p t :=
  fun _ => ⟨t, h, .refl _⟩

/-- Joins that are not the same for the library. -/
def Differ (cx : Ctx) (S : Sem) (i j : Join) : Prop := sameJoin cx S i j = .ok false

theorem differ_eq (cx : Ctx) (n : Nat) : Differ cx (sem cx n) = JoinsDiffer cx n := by
  funext i j
  exact propext (sameJoin_false cx n)

section
variable {cx : Ctx} {S : Sem} {b : Bool} {p : Obj}

theorem shows_paren {p : Obj} {t : Str} (hp : isQuery p = true) (e : parenText S p = .ok t) :
    Shows S true p t := by
  intro _
  unfold parenText at e
  rw [bind_ok] at e
  obtain ⟨u, h1, h2⟩ := e
  cases h2
  refine ⟨u, h1, ?_⟩
  unfold wr
  rw [hp]
  exact .refl _

theorem shows_plain {p : Obj} {t : Str} (hp : isQuery p = false) (h : S.str p = .ok t) :
    Shows S true p t := by
  intro _
  refine ⟨t, h, ?_⟩
  unfold wr
  rw [hp]
  exact .refl _

theorem shows_ref {v : Obj} {t : Str} (h : inRef b p v) (e : sqlRefText cx S v = .ok t) :
    Shows S b p t := by
  obtain ⟨rfl, rfl⟩ := h
  cases p <;> first
    | exact shows_paren rfl e
    | exact shows_plain rfl e
    | (intro hs; cases hs)

theorem forall₂_left {α β : Type} {R : α → β → Prop} {xs : List α} {ys : List β} {x : α}
    (h : List.Forall₂ R xs ys) (hx : x ∈ xs) : ∃ y ∈ ys, R x y := by
  induction h with
  | nil => cases hx
  | cons h1 _ ih =>
    rcases List.mem_cons.mp hx with rfl | hx
    · exact ⟨_, by simp, h1⟩
    · obtain ⟨y, hy, hr⟩ := ih hx
      exact ⟨y, List.mem_cons_of_mem _ hy, hr⟩

theorem shows_items {xs : List Obj} {t : Str} (h : inItems b p xs) (e : listText S xs = .ok t) :
    Shows S b p t := by
  obtain ⟨rfl, x, hx, rfl⟩ := h
  unfold listText at e
  rw [bind_ok] at e
  obtain ⟨ts, h1, h2⟩ := e
  cases h2
  obtain ⟨u, hu, hf⟩ := forall₂_left (mapR_ok_iff.mp h1) hx
  refine (shows_self hf).keep ((keep_joinS hu).trans (keep_parens _))

theorem mapR_left {α : Type} {f : α → R Str} {xs : List α} {ts : List Str} {x : α}
    (e : mapR f xs = .ok ts) (hx : x ∈ xs) : ∃ t ∈ ts, f x = .ok t :=
  forall₂_left (mapR_ok_iff.mp e) hx

theorem shows_val {v : Obj} {t : Str} (h : inVal b p v) (e : sqlValueText cx S v = .ok t) :
    Shows S b p t := by
  have hl : ∀ xs : List Obj, inItems b p xs →
      (if xs.isEmpty then .error .invalidArgument else listText S xs) = .ok t → Shows S b p t := by
    intro xs hi he
    split at he
    · cases he
    · exact shows_items hi he
  cases v
  case list xs => exact hl xs h e
  case tuple xs => exact hl xs h e
  case set xs => exact hl xs h e
  case frozenset xs => exact hl xs h e
  case gen xs => exact shows_items h e
  all_goals
    obtain ⟨rfl, rfl⟩ := h
    first
      | exact shows_paren rfl e
      | exact shows_plain rfl e
      | (intro hs; cases hs)

theorem shows_aliased {n a : Obj} {t : Str} (h : inAliased b p n a) (e : aliasedText cx S n a = .ok t) :
    Shows S b p t := by
  unfold aliasedText at e
  split at e
  · rename_i ht
    simp only [bind_ok] at e
    obtain ⟨x, e1, y, e2, e3⟩ := e
    cases e3
    rcases h with h | ⟨_, h⟩
    · exact (shows_ref h e1).keep (by rw [List.append_assoc]; exact keep_right _ _)
    · exact (shows_ref h e2).keep (keep_left _ _)
  · rename_i ht
    rcases h with h | ⟨h', h⟩
    · exact shows_ref h e
    · exact absurd h' ht

theorem shows_order {o : Order} {t : Str} (h : inOrder b p o) (e : orderText cx S o = .ok t) :
    Shows S b p t := by
  unfold orderText at e
  rw [bind_ok] at e
  obtain ⟨x, e1, e2⟩ := e
  cases e2
  refine (shows_ref h e1).keep ?_
  split
  · exact keep_right _ _
  · exact .refl _

theorem shows_plainCond {col v : Obj} {k : Rel} {vt : Obj → R Str} {t : Str}
    (e : plainCondText cx S col k vt v = .ok t) :
    (inRef b p col → Shows S b p t) ∧ ∃ u, vt v = .ok u ∧ Keep u t := by
  unfold plainCondText at e
  simp only [bind_ok] at e
  obtain ⟨x, e1, y, e2, e3⟩ := e
  cases e3
  refine ⟨fun h => (shows_ref h e1).keep ?_, y, e2, ?_⟩
  · simp only [List.append_assoc]; exact keep_right _ _
  · exact ((Keep.refl y).c ' ').l _

theorem shows_inCond {col v : Obj} {k : Rel} {glue nt : Str} {t : Str} (on : Bool)
    (e : inCondText cx S col k glue nt (if on && v.isStr then sqlRefText cx S else sqlValueText cx S) v
      = .ok t)
    (h : inRef b p col ∨ ((on && v.isStr) = false ∧
      match v.iterate with
      | none => inVal b p v
      | some xs => inItems b p (xs.filter fun x => !x.isNone))) : Shows S b p t := by
  have plain : ∀ {w : Obj} {vt : Obj → R Str} {t : Str}, plainCondText cx S col k vt w = .ok t →
      (inRef b p col ∨ (vt = sqlValueText cx S ∧ inVal b p w)) → Shows S b p t := by
    intro w vt t e h
    obtain ⟨h1, u, h2, h3⟩ := shows_plainCond (b := b) (p := p) e
    rcases h with h | ⟨rfl, h⟩
    · exact h1 h
    · exact (shows_val h h2).keep h3
  unfold inCondText at e
  cases hv : v.iterate with
  | none =>
    rw [hv] at e h
    refine plain e ?_
    rcases h with h | ⟨h0, h⟩
    · exact Or.inl h
    · rw [h0]; exact Or.inr ⟨rfl, h⟩
  | some xs =>
    rw [hv] at e h
    dsimp only at e h
    have h' : inRef b p col ∨ ((on && v.isStr) = false ∧ inVal b p (.list (xs.filter fun x => !x.isNone))) := h
    have h'' : inRef b p col ∨
        ((if on && v.isStr then sqlRefText cx S else sqlValueText cx S) = sqlValueText cx S ∧
          inVal b p (.list (xs.filter fun x => !x.isNone))) := by
      rcases h' with h | ⟨h0, h⟩
      · exact Or.inl h
      · rw [h0]; exact Or.inr ⟨rfl, h⟩
    split at e
    · split at e
      · rename_i he
        rw [bind_ok] at e
        obtain ⟨c, e1, e2⟩ := e
        cases e2
        rcases h with h | ⟨_, h⟩
        · exact (shows_ref h e1).keep (keep_right _ _)
        · obtain ⟨_, x, hx, _⟩ := h
          rw [List.isEmpty_iff.mp he] at hx
          cases hx
      · simp only [bind_ok] at e
        obtain ⟨x, e1, c, e2, e3⟩ := e
        cases e3
        refine (plain e1 h'').keep ?_
        refine Keep.c ?_ '('
        simp only [List.append_assoc]
        exact keep_right _ _
    · exact plain e h''

theorem shows_cond {c : Cond} {t : Str} (h : inCond b p c) (e : condText cx S c = .ok t) :
    Shows S b p t := by
  cases c with
  | item o => obtain ⟨rfl, rfl⟩ := h; exact shows_self e
  | cond on col k v =>
    have plain : plainCondText cx S col k (if on && v.isStr then sqlRefText cx S else sqlValueText cx S) v
        = .ok t → (inRef b p col ∨ ((on && v.isStr) = false ∧ inVal b p v)) → Shows S b p t := by
      intro e h
      obtain ⟨h1, u, h2, h3⟩ := shows_plainCond (b := b) (p := p) e
      rcases h with h | ⟨h0, h⟩
      · exact h1 h
      · rw [h0] at h2; exact (shows_val h h2).keep h3
    cases k <;> first
      | exact shows_inCond on e h
      | exact plain e h

theorem shows_parts {α : Type} {kw sep dflt : Str} {f : α → R Str} {ps : List α} {t : Str} {x : α}
    (hx : x ∈ ps) (h : ∀ u, f x = .ok u → Shows S b p u) (e : partsText kw sep dflt f ps = .ok t) :
    Shows S b p t := by
  unfold partsText at e
  have hne : ps.isEmpty = false := by cases ps <;> simp_all
  rw [hne] at e
  simp only [Bool.false_eq_true, if_false, bind_ok] at e
  obtain ⟨ts, e1, e2⟩ := e
  cases e2
  obtain ⟨u, hu, hf⟩ := mapR_left e1 hx
  refine (h u hf).keep ((keep_joinS (sep := sep) hu).trans ?_)
  split
  · exact .refl _
  · exact ((Keep.refl _).c ' ').l _

theorem shows_conds {kw : Str} {ps : List Cond} {t : Str} (h : inConds b p ps)
    (e : condsText cx S kw ps = .ok t) : Shows S b p t := by
  obtain ⟨c, hc, h⟩ := h
  exact shows_parts hc (fun u hu => shows_cond h hu) e

theorem shows_assign {v : Value} {t : Str} (h : inAssign b p v) (e : valueText cx S v = .ok t) :
    Shows S b p t := by
  cases v with
  | item o => obtain ⟨rfl, rfl⟩ := h; exact shows_self e
  | value col v =>
    simp only [valueText, bind_ok] at e
    obtain ⟨x, e1, y, e2, e3⟩ := e
    cases e3
    rcases h with h | h
    · exact (shows_ref h e1).keep (by rw [List.append_assoc]; exact keep_right _ _)
    · exact (shows_val h e2).keep (keep_left _ _)

theorem shows_join {j : Join} {t : Str} (h : inJoin b p j) (e : joinText cx S j = .ok t) :
    Shows S b p t := by
  unfold joinText at e
  rw [bind_ok] at e
  obtain ⟨x, e1, e2⟩ := e
  split at e2
  · rename_i he
    cases e2
    rcases h with h | ⟨c, hc, _⟩
    · exact (shows_aliased h e1).keep (((Keep.refl x).c ' ').l _)
    · rw [List.isEmpty_iff.mp he] at hc; cases hc
  · rw [bind_ok] at e2
    obtain ⟨o, e3, e4⟩ := e2
    cases e4
    rcases h with h | h
    · refine (shows_aliased h e1).keep ?_
      simp only [List.append_assoc, List.cons_append]
      exact ((keep_right _ _).c ' ').l _
    · exact (shows_conds h e3).keep (keep_left _ _)

theorem shows_table {t : Table} {s : Str} (h : inTable (Differ cx S) b p t) (e : tableText cx S t = .ok s) :
    Shows S b p s := by
  unfold tableText at e
  rw [bind_ok] at e
  obtain ⟨x, e1, e2⟩ := e
  split at e2
  · rename_i he
    cases e2
    rcases h with h | ⟨_, j, hj, _⟩
    · exact shows_aliased h e1
    · rw [List.isEmpty_iff.mp he] at hj; cases hj
  · simp only [bind_ok] at e2
    obtain ⟨js, e3, ts, e4, e5⟩ := e2
    cases e5
    rcases h with h | ⟨hd, j, hj, h⟩
    · exact (shows_aliased h e1).keep (keep_right _ _)
    · rw [minimizeJoins_distinct cx S hd] at e3
      cases e3
      obtain ⟨u, hu, hf⟩ := mapR_left e4 hj
      exact (shows_join h hf).keep (((keep_joinS hu).c ' ').l _)

theorem shows_tables {kw : Str} {ts : List Table} {s : Str} (h : ∃ t ∈ ts, inTable (Differ cx S) b p t)
    (e : tablesText cx S kw ts = .ok s) : Shows S b p s := by
  obtain ⟨t, ht, h⟩ := h
  exact shows_parts ht (fun u hu => shows_table h hu) e

theorem shows_columns {cs : List Column} {s : Str} (h : ∃ c ∈ cs, inColumn b p c)
    (e : columnsText cx S cs = .ok s) : Shows S b p s := by
  obtain ⟨c, hc, h⟩ := h
  exact shows_parts hc (fun u hu => shows_aliased h hu) e

theorem shows_orders {kw : Str} {os : List Order} {s : Str} (h : ∃ o ∈ os, inOrder b p o)
    (e : ordersText cx S kw os = .ok s) : Shows S b p s := by
  obtain ⟨c, hc, h⟩ := h
  exact shows_parts hc (fun u hu => shows_order h hu) e

theorem shows_values {kw : Str} {vs : List Value} {s : Str} (h : ∃ v ∈ vs, inAssign b p v)
    (e : valuesText cx S kw vs = .ok s) : Shows S b p s := by
  obtain ⟨c, hc, h⟩ := h
  exact shows_parts hc (fun u hu => shows_assign h hu) e

/-- The text of a clause that is given. -/
theorem shows_clause {α : Type} {xs : List α} {f : R Str} {s : Str} {Q : α → Prop}
    (h : ∃ x ∈ xs, Q x) (e : clause (!xs.isEmpty) f = .ok s)
    (k : ∀ u, f = .ok u → Shows S b p u) : Shows S b p s := by
  obtain ⟨x, hx, _⟩ := h
  have hne : xs.isEmpty = false := by cases xs <;> simp_all
  rw [hne] at e
  simp only [clause, Bool.not_false, if_true, bind_ok] at e
  obtain ⟨u, e1, e2⟩ := e
  cases e2
  exact (k u e1).keep (keep_cons _ _)

theorem infix_left {a b c : Str} (h : a <:+: b) : a <:+: b ++ c := h.trans ⟨[], c, by simp⟩

theorem infix_right {a b c : Str} (h : a <:+: c) : a <:+: b ++ c := h.trans ⟨b, [], by simp⟩

/-- One of the summands of a text. -/
macro "summand" : tactic =>
  `(tactic| (refine Keep.trans (keep_infix ?_) (keep_strip _);
             repeat first
             | exact infix_right (List.infix_refl _)
             | refine infix_left ?_))

theorem shows_select {q : Select} {t : Str} (h : inSelect (Differ cx S) b p q) (e : selectText cx S q = .ok t) :
    Shows S b p t := by
  simp only [selectText, bind_ok] at e
  obtain ⟨c, ec, g, eg, hv, eh, o, eo, l, el, ob, eob, fu, efu, op, eop, ta, eta, w, ew, e⟩ := e
  injection e with e
  subst e
  rcases h with h | h | h | h | h | h
  · rw [clause, if_pos rfl, bind_ok] at ec
    obtain ⟨u, e1, e2⟩ := ec
    cases e2
    refine (shows_columns h e1).keep ((keep_cons ' ' u).trans ?_)
    summand
  · refine (shows_clause h eta fun u hu => shows_tables h hu).keep ?_
    summand
  · refine (shows_clause h ew fun u hu => shows_conds h hu).keep ?_
    summand
  · refine (shows_clause h eg fun u hu => shows_orders h hu).keep ?_
    summand
  · refine (shows_clause h eh fun u hu => shows_conds h hu).keep ?_
    summand
  · refine (shows_clause h eob fun u hu => shows_orders h hu).keep ?_
    summand

theorem shows_update {q : Update} {t : Str} (h : inUpdate (Differ cx S) b p q) (e : updateText cx S q = .ok t) :
    Shows S b p t := by
  unfold updateText at e
  split at e
  · cases e
  simp only [bind_ok] at e
  obtain ⟨ta, eta, op, eop, vs, evs, w, ew, e⟩ := e
  injection e with e
  subst e
  rcases h with h | h | h
  · refine (shows_clause h eta fun u hu => shows_tables h hu).keep ?_
    summand
  · refine (shows_clause h evs fun u hu => shows_values h hu).keep ?_
    summand
  · refine (shows_clause h ew fun u hu => shows_conds h hu).keep ?_
    summand

theorem shows_delete {q : Delete} {t : Str} (h : inDelete (Differ cx S) b p q) (e : deleteText cx S q = .ok t) :
    Shows S b p t := by
  unfold deleteText at e
  split at e
  · cases e
  simp only [bind_ok] at e
  obtain ⟨op, eop, re, ere, ta, eta, w, ew, e⟩ := e
  injection e with e
  subst e
  rcases h with h | h | h
  · refine (shows_clause h eta fun u hu => shows_tables h hu).keep ?_
    summand
  · refine (shows_clause h ere fun u hu => shows_tables h hu).keep ?_
    summand
  · refine (shows_clause h ew fun u hu => shows_conds h hu).keep ?_
    summand

/-- A value for the column `c`. -/
def forCol (c : Str) : Value → Bool
  | .value (.str d) _ => d == c
  | _ => false

theorem lookup_str (c d : Str) (v : Obj) (ps : List Value) :
    lookupValue c (.value (.str d) v :: ps) =
      if ps.any (forCol c) then lookupValue c ps else if d = c then v else lookupValue c ps := rfl

theorem lookup_skip {c : Str} {x : Value} {ps : List Value} (h : ps.any (forCol c) = true) :
    lookupValue c (x :: ps) = lookupValue c ps := by
  cases x with
  | item o => rfl
  | value k v =>
    cases k <;> first
      | rfl
      | exact (lookup_str c _ v ps).trans (if_pos h)

theorem lookup_last {c : Str} {v : Obj} {post : List Value} (h : ∀ w, .value (.str c) w ∉ post) :
    ∀ pre : List Value, lookupValue c (pre ++ .value (.str c) v :: post) = v := by
  have hp : ¬ post.any (forCol c) = true := by
    rw [List.any_eq_true]
    rintro ⟨x, hx, hb⟩
    cases x with
    | item o => cases hb
    | value k w =>
      cases k <;> first
        | cases hb
        | (have := beq_iff_eq.mp hb
           subst this
           exact h w hx)
  intro pre
  induction pre with
  | nil => exact (lookup_str c c v post).trans ((if_neg hp).trans (if_pos rfl))
  | cons x pre ih =>
    have hk : (pre ++ .value (.str c) v :: post).any (forCol c) = true := by
      rw [List.any_append, List.any_cons]
      simp [forCol]
    exact (lookup_skip hk).trans ih

theorem rowColumns_mem {c : Str} {v : Obj} {post : List Value} :
    ∀ {pre : List Value} {cs : List Str},
      rowColumns (pre ++ .value (.str c) v :: post) = .ok cs → c ∈ cs
  | [], cs, e => by
    simp only [List.nil_append, rowColumns, bind_ok] at e
    obtain ⟨r, _, e⟩ := e
    cases e
    simp
  | .item _ :: pre, cs, e => by cases e
  | .value d w :: pre, cs, e => by
    cases d <;> first
      | (simp only [List.cons_append, rowColumns, bind_ok] at e
         obtain ⟨r, e1, e2⟩ := e
         cases e2
         exact List.mem_cons_of_mem _ (rowColumns_mem e1))
      | cases e

theorem dedupS_mem {x : Str} {xs : List Str} (h : x ∈ xs) : x ∈ dedupS xs := by
  induction xs with
  | nil => cases h
  | cons y ys ih =>
    unfold dedupS
    rcases List.mem_cons.mp h with rfl | h
    · split
      · rename_i hm; exact ih hm
      · simp
    · split
      · exact ih h
      · exact List.mem_cons_of_mem _ (ih h)

theorem shows_rows {rows : List (List Value)} {t : Str} (h : ∃ r ∈ rows, inRow b p r)
    (e : rowsText cx S rows = .ok t) : Shows S b p t := by
  obtain ⟨r, hr, pre, c, v, post, rfl, hlast, h⟩ := h
  simp only [rowsText, bind_ok] at e
  obtain ⟨cols, e1, ts, e2, e3⟩ := e
  cases e3
  have hc : c ∈ cols := by
    simp only [allColumns, bind_ok] at e1
    obtain ⟨css, h1, h2⟩ := e1
    cases h2
    obtain ⟨cs, hcs, hf⟩ := forall₂_left (mapR_ok_iff.mp h1) hr
    rw [(sortBy_perm strLe _).mem_iff]
    exact dedupS_mem (List.mem_flatten.mpr ⟨cs, hcs, rowColumns_mem hf⟩)
  have hne : cols.isEmpty = false := by cases cols <;> simp_all
  obtain ⟨u, hu, hf⟩ := mapR_left e2 hr
  simp only [rowText, hne, Bool.false_eq_true, if_false, bind_ok] at hf
  obtain ⟨us, h1, h2⟩ := hf
  cases h2
  obtain ⟨w, hw, hv⟩ := mapR_left h1 (List.mem_map.mpr ⟨c, hc, rfl⟩)
  rw [lookup_last hlast] at hv
  have k1 : Keep (joinS L!", " us) ('(' :: (joinS L!", " us ++ [')'])) := keep_parens _
  have k2 : Keep ('(' :: (joinS L!", " us ++ [')'])) (joinS L!", " (ts.map fun t => '(' :: (t ++ [')']))) :=
    keep_joinS (List.mem_map.mpr ⟨_, hu, rfl⟩)
  exact (shows_val h hv).keep ((keep_joinS hw).trans (k1.trans (k2.trans (((Keep.refl _).l _).c '('))))

theorem shows_insert {q : Insert} {t : Str} (h : inInsert (Differ cx S) b p q) (e : insertText cx S q = .ok t) :
    Shows S b p t := by
  simp only [insertText, bind_ok] at e
  obtain ⟨op, eop, kw, ekw, oc, eoc, od, eod, ta, eta, vs, evs, e⟩ := e
  injection e with e
  subst e
  rcases h with h | h | h | h
  · refine (shows_clause h eta fun u hu => shows_tables h hu).keep ?_
    summand
  · refine (shows_clause h evs fun u hu => shows_rows h hu).keep ?_
    summand
  · refine (shows_clause h eod fun u hu => shows_values h hu).keep ?_
    summand
  · refine (shows_clause h eoc fun u hu => shows_values h hu).keep ?_
    summand

theorem shows_arg {e : Obj} {t : Str} (h : inArg b p e) (he : exprText cx S e = .ok t) :
    Shows S b p t := by
  have hl : ∀ xs : List Obj, (∃ x ∈ xs, inRef b p x) →
      (mapR (sqlRefText cx S) xs >>= fun ts => .ok (joinS L!", " ts)) = .ok t → Shows S b p t := by
    rintro xs ⟨x, hx, h⟩ he
    rw [bind_ok] at he
    obtain ⟨ts, e1, e2⟩ := he
    cases e2
    obtain ⟨u, hu, hf⟩ := mapR_left e1 hx
    exact (shows_ref h hf).keep (keep_joinS hu)
  cases e <;> first
    | exact hl _ h he
    | exact shows_ref (cx := cx) h he

theorem shows_force {v : Obj} {t : Str} (e : forceText cx S v = .ok t) : Shows S false v t := by
  intro hv
  unfold forceText at e
  rw [if_pos hv] at e
  exact ⟨t, e, .refl _⟩

theorem shows_operand {q : Obj} {t : Str} (e : operandText S q = .ok t) : Shows S false q t := by
  unfold operandText at e
  rw [bind_ok] at e
  obtain ⟨u, e1, e2⟩ := e
  cases e2
  refine (shows_self e1).keep ?_
  split
  · exact keep_parens _
  · exact .refl _

theorem func_inv {f : Agg} {dst : Bool} {e : Obj} {t : Str} (h : funcText cx S f dst e = .ok t) :
    ∃ x, t = f.text ++ '(' :: (if dst then L!"DISTINCT " else []) ++ x ++ [')'] ∧
      (exprText cx S e = .ok x ∨ (S.eq e (.str ['*']) = .ok true ∧ forceText cx S e = .ok x)) := by
  cases f
  case count =>
    dsimp only [funcText] at h
    rw [bind_ok] at h
    obtain ⟨star, h0, h⟩ := h
    cases star with
    | true =>
      rw [if_pos rfl, bind_ok] at h
      obtain ⟨x, h1, h2⟩ := h
      cases h2
      exact ⟨x, rfl, Or.inr ⟨h0, h1⟩⟩
    | false =>
      rw [if_neg (by decide), bind_ok] at h
      obtain ⟨x, h1, h2⟩ := h
      cases h2
      exact ⟨x, rfl, Or.inl h1⟩
  all_goals
    dsimp only [funcText] at h
    rw [ok_bind, if_neg (by decide), bind_ok] at h
    obtain ⟨x, h1, h2⟩ := h
    cases h2
    exact ⟨x, rfl, Or.inl h1⟩

theorem shows_star (hS : ∀ e s, S.eq e (.str s) = .ok true → e.textual = true ∨ e.isStr = true)
    {e : Obj} {t : Str} (h : inArg b p e) (he : S.eq e (.str ['*']) = .ok true)
    (h1 : forceText cx S e = .ok t) : Shows S b p t := by
  have hr : inRef b p e := by
    rcases hS e _ he with h' | h' <;> cases e <;> first | exact h | cases h'
  obtain ⟨rfl, rfl⟩ := hr
  intro hp
  obtain ⟨u, h2, h3⟩ := shows_force h1 hp
  refine ⟨u, h2, ?_⟩
  have hq : isQuery p = false := by
    rcases hS p _ he with h' | h' <;> cases p <;> first | rfl | cases h'
  unfold wr at h3 ⊢
  rw [hq]
  exact h3

/-- An object written inside `o` is shown by the text of `o`. -/
theorem shows_obj (hS : ∀ e s, S.eq e (.str s) = .ok true → e.textual = true ∨ e.isStr = true)
    {o : Obj} {t : Str} (h : inObj (Differ cx S) b p o) (e : renderF cx S o = .ok t) :
    Shows S b p t := by
  cases o
  case sqlValue v => exact shows_val h e
  case sqlRef v => exact shows_ref h e
  case conds ps => exact shows_conds h e
  case cofc l r op =>
    simp only [renderF, bind_ok] at e
    obtain ⟨x, e1, y, e2, e3⟩ := e
    cases e3
    obtain ⟨rfl, rfl | rfl⟩ := h
    · refine (shows_operand e1).keep (Keep.c ?_ '(')
      simp only [List.append_assoc]
      exact keep_right _ _
    · refine (shows_operand e2).keep (Keep.c ?_ '(')
      exact (((Keep.refl y).c ' ').l _).r _
  case not_ ps =>
    simp only [renderF, bind_ok] at e
    obtain ⟨x, e1, e3⟩ := e
    cases e3
    obtain ⟨rfl, rfl⟩ := h
    exact (shows_self e1).keep (((Keep.refl x).l _).r _)
  case func f dst e' =>
    obtain ⟨x, rfl, e1⟩ := func_inv (e : funcText cx S f dst e' = .ok t)
    have hx : Shows S b p x := by
      rcases e1 with e1 | ⟨e0, e1⟩
      · exact shows_arg h e1
      · exact shows_star hS h e0 e1
    exact hx.keep (((Keep.refl x).l _).r _)
  case concat cs =>
    simp only [renderF, bind_ok] at e
    obtain ⟨x, e1, e3⟩ := e
    cases e3
    exact (shows_columns h e1).keep (((Keep.refl x).l _).r _)
  case groupConcat cs os sep =>
    simp only [renderF, groupConcatText] at e
    rw [bind_ok] at e
    obtain ⟨x, e1, e⟩ := e
    rw [bind_ok] at e
    obtain ⟨y, e2, e⟩ := e
    have ht : ∃ z, t = L!"GROUP_CONCAT(" ++ x ++ y ++ z ++ [')'] := by
      split at e
      · rw [bind_ok] at e
        obtain ⟨z, _, e⟩ := e
        rw [ok_bind] at e
        cases e
        exact ⟨_, rfl⟩
      · rw [ok_bind] at e
        cases e
        exact ⟨_, rfl⟩
    obtain ⟨z, rfl⟩ := ht
    rcases h with h | h
    · exact (shows_columns h e1).keep (((((Keep.refl x).l _).r _).r _).r _)
    · exact (shows_clause h e2 fun u hu => shows_orders h hu).keep ((((Keep.refl y).l _).r _).r _)
  case convert e' ty =>
    simp only [renderF, bind_ok] at e
    obtain ⟨x, e1, e3⟩ := e
    cases e3
    exact (shows_arg h e1).keep (((((Keep.refl x).l _).r _).r _).r _)
  case exists_ e' =>
    simp only [renderF, bind_ok] at e
    obtain ⟨x, e1, e3⟩ := e
    cases e3
    obtain ⟨rfl, rfl⟩ := h
    exact (shows_force e1).keep (((Keep.refl x).l _).r _)
  case select q => exact shows_select h e
  case union l r all =>
    simp only [renderF, bind_ok] at e
    obtain ⟨x, e1, y, e2, e3⟩ := e
    cases e3
    obtain ⟨rfl, rfl | rfl⟩ := h
    · refine (shows_self e1).keep ?_
      simp only [List.append_assoc]
      exact keep_right _ _
    · exact (shows_self e2).keep (((Keep.refl y).c ' ').l _)
  case insert q => exact shows_insert h e
  case update q => exact shows_update h e
  case delete q => exact shows_delete h e
  all_goals exact h.elim

end

theorem num_str {α : Option NumV} (h : (match α, (none : Option NumV) with
    | some x, some y => (.ok (x.eq y) : R Bool)
    | _, _ => .ok false) = .ok true) : False := by
  cases α <;> cases h

theorem eq_star (cx : Ctx) (n : Nat) (e : Obj) (s : Str) (h : (sem cx n).eq e (.str s) = .ok true) :
    e.textual = true ∨ e.isStr = true := by
  cases n with
  | zero => cases h
  | succ n =>
    cases e <;> first
      | exact Or.inl rfl
      | exact Or.inr rfl
      | cases h
      | exact (num_str h).elim

/-- Text in parentheses of a query used as a name or value anywhere inside. -/
theorem nested_text {cx : Ctx} {p : Obj} (hp : isQuery p = true) :
    ∀ {n : Nat} {o : Obj} {t : Str}, Nested cx p n o → (sem cx n).str o = .ok t →
      ∃ m u, (sem cx m).str p = .ok u ∧ parens u <:+: t
  | 0, _, _, h, _ => h.elim
  | n + 1, o, t, h, e => by
    rw [Nested, ← differ_eq] at h
    rcases h with h | ⟨b, q, hq, h, hn⟩
    · have hs : p.isSql = true := by cases p <;> first | rfl | cases hp
      obtain ⟨u, h1, h2⟩ := shows_obj (eq_star cx n) h e hs
      refine ⟨n, u, h1, h2 u ?_⟩
      unfold wr
      rw [hp]
      exact List.infix_refl _
    · obtain ⟨w, h1, h2⟩ := shows_obj (eq_star cx n) h e hq
      obtain ⟨m, u, h3, h4⟩ := nested_text hp hn h1
      refine ⟨m, u, h3, h2 u ?_⟩
      unfold wr
      split
      · exact h4.trans ⟨['('], [')'], by simp [parens]⟩
      · exact h4

end SqlPuzzle
