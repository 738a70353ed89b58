import Verif.Proofs.Basic
import Verif.Proofs.Plain
import Verif.Spec.Equality
import Mathlib.Tactic.Ring

/-!
`==` on parts of queries, given `==` on their components.
-/

namespace SqlPuzzle.EqFacts
open SqlPuzzle Spec

/-! ### Components -/

theorem flat {α : Type} {P : Obj → Prop} {f : α → List Obj} {xs : List α}
    (h : ∀ o ∈ xs.flatMap f, P o) : ∀ x ∈ xs, ∀ o ∈ f x, P o :=
  fun x hx o ho => h o (List.mem_flatMap.mpr ⟨x, hx, ho⟩)

theorem left {P : Obj → Prop} {xs ys : List Obj} (h : ∀ o ∈ xs ++ ys, P o) : ∀ o ∈ xs, P o :=
  fun o ho => h o (List.mem_append_left _ ho)

theorem right {P : Obj → Prop} {xs ys : List Obj} (h : ∀ o ∈ xs ++ ys, P o) : ∀ o ∈ ys, P o :=
  fun o ho => h o (List.mem_append_right _ ho)

theorem Throughout.here {P : Obj → Prop} {o : Obj} (h : Throughout P o) : P o := by
  cases h with | mk h _ => exact h

theorem Throughout.inside {P : Obj → Prop} {o : Obj} (h : Throughout P o) :
    ∀ x ∈ parts o, Throughout P x := by
  cases h with | mk _ h => exact h

/-! ### Comparisons that are not `False` -/

/-- The comparison does not end with `False`. -/
def NF (r : R Bool) : Prop := r ≠ .ok false

theorem NF.ok : NF (.ok true) := by intro h; cases h

theorem NF.and {a b : R Bool} (ha : NF a) (hb : NF b) : NF (andR a b) := by
  unfold andR
  cases a with
  | error e => intro h; cases h
  | ok x =>
    cases x with
    | false => exact absurd rfl ha
    | true => exact hb

theorem NF.or {a b : R Bool} (ha : NF a) : NF (orR a b) := by
  unfold orR
  cases a with
  | error e => intro h; cases h
  | ok x =>
    cases x with
    | false => exact absurd rfl ha
    | true => exact NF.ok

theorem NF.beq {α : Type} [BEq α] [LawfulBEq α] (a : α) : NF (.ok (a == a)) := by
  rw [beq_self_eq_true]; exact NF.ok

theorem NF.list {α : Type} {eq : α → α → R Bool} {xs : List α} (h : ∀ x ∈ xs, NF (eq x x)) :
    NF (eqListR eq xs xs) := by
  unfold eqListR
  rw [if_pos rfl]
  induction xs with
  | nil => exact NF.ok
  | cons x xs ih =>
    rw [List.zip_cons_cons, allR]
    exact (h x (by simp)).and (ih fun y hy => h y (by simp [hy]))

section
variable {cx : Ctx} {S : Sem} {P : Obj → Prop} (hS : ∀ x, P x → NF (S.eq x x))
include hS

theorem nf_column {c : Column} (h : ∀ o ∈ colParts c, P o) : NF (columnEq S c c) :=
  (hS _ (h _ (by simp [colParts]))).and (hS _ (h _ (by simp [colParts])))

theorem nf_order {c : Order} (h : ∀ o ∈ orderParts c, P o) : NF (orderEq S c c) :=
  (hS _ (h _ (by simp [orderParts]))).and (NF.beq _)

theorem nf_cond {c : Cond} (h : ∀ o ∈ condParts c, P o) : NF (condEq cx S c c) := by
  cases c with
  | cond on c k v =>
    show NF (if on = on then _ else _)
    rw [if_pos rfl]
    exact ((hS _ (h _ (by simp [condParts]))).and
      ((hS _ (h _ (by simp [condParts]))).and (NF.beq _))).or
  | item o => exact hS _ (h _ (by simp [condParts]))

theorem nf_conds {cs : List Cond} (h : ∀ o ∈ cs.flatMap condParts, P o) : NF (condsEq cx S cs cs) :=
  NF.list fun c hc => nf_cond hS (flat h c hc)

theorem nf_value {c : Value} (h : ∀ o ∈ valueParts c, P o) : NF (valueEq cx S c c) := by
  cases c with
  | value c v => exact (hS _ (h _ (by simp [valueParts]))).and (hS _ (h _ (by simp [valueParts])))
  | item o => exact hS _ (h _ (by simp [valueParts]))

theorem nf_join {j : Join} (h : ∀ o ∈ joinParts j, P o) : NF (joinEq cx S j j) :=
  (NF.beq _).and (((hS _ (h _ (by simp [joinParts]))).and (hS _ (h _ (by simp [joinParts])))).and
    (nf_conds hS (right h)))

theorem nf_table {t : Table} (h : ∀ o ∈ tableParts t, P o) : NF (tableEq cx S t t) :=
  ((hS _ (h _ (by simp [tableParts]))).and (hS _ (h _ (by simp [tableParts])))).and
    (NF.list fun j hj => nf_join hS (flat (right h) j hj))

theorem nf_opt {o : Option Obj} (h : ∀ x ∈ o.toList, P x) : NF (optEq S o o) := by
  cases o with
  | none => exact NF.ok
  | some x => exact hS x (h x (by simp))

theorem nf_select {q : Select} (h : ∀ o ∈ selectParts q, P o) : NF (selectEq cx S q q) := by
  unfold selectParts at h
  have h7 := right h
  unfold outfileParts at h7
  have h := left h
  refine NF.and (NF.list fun c hc => nf_column hS (flat (left (left (left (left (left h))))) c hc)) ?_
  refine NF.and (NF.list fun c hc => nf_order hS (flat (right (left (left h))) c hc)) ?_
  refine NF.and (nf_conds hS (right (left h))) ?_
  refine NF.and (NF.and (nf_opt hS (left (left (left h7)))) (NF.and (nf_opt hS (right (left (left h7))))
    (NF.and (nf_opt hS (right (left h7))) (nf_opt hS (right h7))))) ?_
  refine NF.and (NF.beq _) ?_
  refine NF.and (NF.list fun c hc => nf_order hS (flat (right h) c hc)) ?_
  refine NF.and (NF.beq _) (NF.and (NF.beq _) ?_)
  refine NF.and (NF.list fun c hc => nf_table hS (flat (right (left (left (left (left h))))) c hc)) ?_
  exact nf_conds hS (right (left (left (left h))))

theorem nf_insert {q : Insert} (h : ∀ o ∈ insertParts q, P o) : NF (insertEq cx S q q) := by
  unfold insertParts at h
  refine NF.and (NF.beq _) (NF.and (NF.beq _) ?_)
  refine NF.and (NF.list fun c hc => nf_value hS (flat (right h) c hc)) ?_
  refine NF.and (NF.list fun c hc => nf_value hS (flat (right (left h)) c hc)) ?_
  refine NF.and (NF.list fun c hc => nf_table hS (flat (left (left (left h))) c hc)) ?_
  exact NF.list fun r hr => NF.list fun c hc =>
    nf_value hS (flat (flat (right (left (left h))) r hr) c hc)

theorem nf_update {q : Update} (h : ∀ o ∈ updateParts q, P o) : NF (updateEq cx S q q) := by
  unfold updateParts at h
  refine NF.and (NF.list fun c hc => nf_table hS (flat (left (left h)) c hc)) (NF.and (NF.beq _) ?_)
  refine NF.and (NF.list fun c hc => nf_value hS (flat (right (left h)) c hc)) ?_
  exact nf_conds hS (right h)

theorem nf_delete {q : Delete} (h : ∀ o ∈ deleteParts q, P o) : NF (deleteEq cx S q q) := by
  unfold deleteParts at h
  refine NF.and (NF.beq _) ?_
  refine NF.and (NF.list fun c hc => nf_table hS (flat (right (left h)) c hc)) ?_
  refine NF.and (NF.list fun c hc => nf_table hS (flat (left (left h)) c hc)) ?_
  exact nf_conds hS (right h)

end

theorem numV_refl {x : NumV} (h : x ≠ .nan) : x.eq x = true := by
  cases x with
  | rat n a b => simp [NumV.eq]
  | inf n => simp [NumV.eq]
  | nan => exact absurd rfl h

theorem datetime_refl (d : DateTimeV) : d.eq d = true := by
  unfold DateTimeV.eq
  cases d.tz <;> simp

theorem nf_eq (cx : Ctx) (n : Nat) : ∀ o, SelfEqual o → NF ((sem cx n).eq o o) := by
  induction n with
  | zero => intro o _ h; cases h
  | succ n ih =>
    intro o ho
    have hh := Throughout.here ho
    have hi := Throughout.inside ho
    have key : ∀ {o : Obj}, o.textual = true → NF (eqF cx (sem cx n) o o) := by
      intro o ht
      have hb : o.isSql = true := by cases o <;> first | rfl | cases ht
      have : eqF cx (sem cx n) o o = textEq cx (sem cx n) o o := by
        cases o <;> first | rfl | cases ht
      rw [this]
      unfold textEq
      cases renderF cx (sem cx n) o with
      | error e => intro h; cases h
      | ok t => rw [ok_bind, ok_bind, beq_self_eq_true]; exact NF.ok
    show NF (eqF cx (sem cx n) o o)
    cases o with
    | none => exact NF.ok
    | str s => exact NF.beq s
    | bytes s => exact NF.beq s
    | date s => exact NF.beq s
    | range s => exact NF.beq s
    | «opaque» s => exact NF.beq s
    | datetime d =>
      show NF (.ok (d.eq d))
      rw [datetime_refl]; exact NF.ok
    | bool b => cases b <;> exact NF.ok
    | int i =>
      cases i with
      | ofNat k => show NF (.ok (NumV.eq _ _)); rw [numV_refl (by intro h; cases h)]; exact NF.ok
      | negSucc k => show NF (.ok (NumV.eq _ _)); rw [numV_refl (by intro h; cases h)]; exact NF.ok
    | float f =>
      cases f with
      | fin a b c => show NF (.ok (NumV.eq _ _)); rw [numV_refl (by intro h; cases h)]; exact NF.ok
      | inf a => show NF (.ok (NumV.eq _ _)); rw [numV_refl (by intro h; cases h)]; exact NF.ok
      | nan => exact absurd hh (by simp [SelfEqualHere])
    | decimal f =>
      cases f with
      | fin a b c => show NF (.ok (NumV.eq _ _)); rw [numV_refl (by intro h; cases h)]; exact NF.ok
      | inf a => show NF (.ok (NumV.eq _ _)); rw [numV_refl (by intro h; cases h)]; exact NF.ok
      | nan => exact absurd hh (by simp [SelfEqualHere])
    | list xs => exact NF.list fun x hx => ih x (hi x hx)
    | tuple xs => exact NF.list fun x hx => ih x (hi x hx)
    | rel k v =>
      show NF (if k = k then _ else _)
      rw [if_pos rfl]; exact ih v (hi v (by simp [parts]))
    | conds ps => exact nf_conds ih hi
    | select q => exact nf_select ih hi
    | union a b t =>
      exact NF.and (ih a (hi a (by simp [parts]))) (NF.and (ih b (hi b (by simp [parts]))) (NF.beq t))
    | insert q => exact nf_insert ih hi
    | update q => exact nf_update ih hi
    | delete q => exact nf_delete ih hi
    | gen xs => exact absurd hh (by simp [SelfEqualHere])
    | set xs => exact absurd hh (by simp [SelfEqualHere])
    | frozenset xs => exact absurd hh (by simp [SelfEqualHere])
    | dict xs => exact absurd hh (by simp [SelfEqualHere])
    | _ => exact key rfl

/-! ### Comparisons in the other direction -/

theorem eqListR_comm {α : Type} {eq : α → α → R Bool} {xs ys : List α}
    (h : ∀ x ∈ xs, ∀ y ∈ ys, eq x y = eq y x) : eqListR eq xs ys = eqListR eq ys xs := by
  unfold eqListR
  by_cases hl : xs.length = ys.length
  · rw [if_pos hl, if_pos hl.symm]
    induction xs generalizing ys with
    | nil =>
      cases ys with
      | nil => rfl
      | cons y ys => simp at hl
    | cons x xs ih =>
      cases ys with
      | nil => simp at hl
      | cons y ys =>
        simp only [List.zip_cons_cons, allR]
        rw [h x (by simp) y (by simp), ih (fun a ha b hb => h a (by simp [ha]) b (by simp [hb]))
          (by simpa using hl)]
  · rw [if_neg hl, if_neg fun e => hl e.symm]

/-- What the comparisons of components have to satisfy. -/
structure Comm (S : Sem) (P : Obj → Prop) : Prop where
  comm : ∀ x y, P x → P y → S.eq x y = S.eq y x
  other : ∀ s y, P y → y.isStr = false → (∀ x, S.eq (.str s) x = .error .recursionError) ∨
    S.eq (.str s) y = .ok false
  str : (∀ x y, S.eq x y = .error .recursionError) ∨ ∀ s t, S.eq (.str s) (.str t) = .ok (s == t)

theorem revert_revert (k k' : Rel) : (k.revert == some k') = (k'.revert == some k) := by
  cases k <;> cases k' <;> rfl

section
variable {cx : Ctx} {S : Sem} {P : Obj → Prop} (hS : Comm S P)
include hS

theorem comm_column {c d : Column} (hc : ∀ o ∈ colParts c, P o) (hd : ∀ o ∈ colParts d, P o) :
    columnEq S c d = columnEq S d c := by
  unfold columnEq
  rw [hS.comm _ _ (hc c.name (by simp [colParts])) (hd d.name (by simp [colParts])),
    hS.comm _ _ (hc c.alias (by simp [colParts])) (hd d.alias (by simp [colParts]))]

theorem comm_order {c d : Order} (hc : ∀ o ∈ orderParts c, P o) (hd : ∀ o ∈ orderParts d, P o) :
    orderEq S c d = orderEq S d c := by
  unfold orderEq
  rw [hS.comm _ _ (hc c.col (by simp [orderParts])) (hd d.col (by simp [orderParts])),
    Bool.beq_comm]

theorem comm_cond {c d : Cond} (hc : ∀ o ∈ condParts c, P o) (hd : ∀ o ∈ condParts d, P o)
    (hc' : ∀ o, c = .item o → o.textual = false) (hd' : ∀ o, d = .item o → o.textual = false)
    (nc : ∀ a k v, c = .cond true a k v → ∃ s, a = .str s)
    (nd : ∀ a k v, d = .cond true a k v → ∃ s, a = .str s) :
    condEq cx S c d = condEq cx S d c := by
  cases c with
  | item o =>
    cases d with
    | item p => exact hS.comm _ _ (hc o (by simp [condParts])) (hd p (by simp [condParts]))
    | cond on' c' k' v' => simp only [condEq, hc' o rfl, Bool.false_eq_true, if_false]
  | cond on c k v =>
    cases d with
    | item p => simp only [condEq, hd' p rfl, Bool.false_eq_true, if_false]
    | cond on' c' k' v' =>
      have e1 := hS.comm c c' (hc c (by simp [condParts])) (hd c' (by simp [condParts]))
      have e2 := hS.comm v v' (hc v (by simp [condParts])) (hd v' (by simp [condParts]))
      have e3 : (k == k') = (k' == k) := Bool.beq_comm
      by_cases ho : on = on'
      · subst ho
        show (if on = on then _ else _) = (if on = on then _ else _)
        rw [if_pos rfl, if_pos rfl, ← e1, ← e2, ← e3]
        cases on with
        | false => rfl
        | true =>
          obtain ⟨s, rfl⟩ := nc c k v rfl
          obtain ⟨s', rfl⟩ := nd c' k' v' rfl
          rcases hS.str with h0 | hstr
          · rw [h0]; rfl
          · congr 1
            have hPv : P v := hc v (by simp [condParts])
            have hPv' : P v' := hd v' (by simp [condParts])
            by_cases hv : v.isStr = true
            · obtain ⟨t, rfl⟩ : ∃ t, v = .str t := by
                cases v <;> first | exact ⟨_, rfl⟩ | cases hv
              by_cases hv' : v'.isStr = true
              · obtain ⟨t', rfl⟩ : ∃ t, v' = .str t := by
                  cases v' <;> first | exact ⟨_, rfl⟩ | cases hv'
                rw [if_pos (by simp [hv]), if_pos (by simp [hv'])]
                simp only [hstr, andR_ok]
                rw [revert_revert k k', Bool.beq_comm (a := t) (b := s'),
                  Bool.beq_comm (a := s) (b := t')]
                cases (s' == t) <;> cases (t' == s) <;> rfl
              · rw [if_pos (by simp [hv]), if_neg (by simp [hv'])]
                rcases hS.other s v' hPv' (by simpa using hv') with h0 | h0
                · exact absurd (h0 (.str s)) (by rw [hstr]; intro h; cases h)
                · rw [hstr, h0]
                  cases (t == s') <;> rfl
            · rw [if_neg (by simp [hv])]
              by_cases hv' : v'.isStr = true
              · obtain ⟨t', rfl⟩ : ∃ t, v' = .str t := by
                  cases v' <;> first | exact ⟨_, rfl⟩ | cases hv'
                rw [if_pos (by simp [hv'])]
                rcases hS.other s' v hPv (by simpa using hv) with h0 | h0
                · exact absurd (h0 (.str s)) (by rw [hstr]; intro h; cases h)
                · rw [hstr, h0]
                  cases (t' == s) <;> rfl
              · rw [if_neg (by simp [hv'])]
      · show (if on = on' then _ else _) = (if on' = on then _ else _)
        rw [if_neg ho, if_neg fun e => ho e.symm]

theorem comm_conds {cs ds : List Cond} (hc : ∀ o ∈ cs.flatMap condParts, P o)
    (hd : ∀ o ∈ ds.flatMap condParts, P o) (ht : ∀ o, P o → o.textual = false)
    (nc : NamedOns cs) (nd : NamedOns ds) : condsEq cx S cs ds = condsEq cx S ds cs := by
  refine eqListR_comm fun c hc1 d hd1 => ?_
  refine comm_cond hS (flat hc c hc1) (flat hd d hd1) ?_ ?_ ?_ ?_
  · rintro o rfl; exact ht o (flat hc _ hc1 o (by simp [condParts]))
  · rintro o rfl; exact ht o (flat hd _ hd1 o (by simp [condParts]))
  · rintro a k v rfl; exact nc a k v hc1
  · rintro a k v rfl; exact nd a k v hd1

theorem comm_value {c d : Value} (hc : ∀ o ∈ valueParts c, P o) (hd : ∀ o ∈ valueParts d, P o)
    (ht : ∀ o, P o → o.textual = false) : valueEq cx S c d = valueEq cx S d c := by
  cases c with
  | item o =>
    have h1 := hc o (by simp [valueParts])
    cases d with
    | item p => exact hS.comm _ _ h1 (hd p (by simp [valueParts]))
    | value c' v' => simp only [valueEq, ht o h1, Bool.false_eq_true, if_false]
  | value c v =>
    cases d with
    | item p =>
      simp only [valueEq, ht p (hd p (by simp [valueParts])), Bool.false_eq_true, if_false]
    | value c' v' =>
      simp only [valueEq]
      rw [hS.comm c c' (hc c (by simp [valueParts])) (hd c' (by simp [valueParts])),
        hS.comm v v' (hc v (by simp [valueParts])) (hd v' (by simp [valueParts]))]

theorem comm_values {cs ds : List Value} (hc : ∀ o ∈ cs.flatMap valueParts, P o)
    (hd : ∀ o ∈ ds.flatMap valueParts, P o) (ht : ∀ o, P o → o.textual = false) :
    eqListR (valueEq cx S) cs ds = eqListR (valueEq cx S) ds cs :=
  eqListR_comm fun c hc1 d hd1 => comm_value hS (flat hc c hc1) (flat hd d hd1) ht

theorem comm_join {c d : Join} (hc : ∀ o ∈ joinParts c, P o) (hd : ∀ o ∈ joinParts d, P o)
    (ht : ∀ o, P o → o.textual = false) (nc : NamedOns c.ons) (nd : NamedOns d.ons) :
    joinEq cx S c d = joinEq cx S d c := by
  unfold joinEq sameJoin
  rw [hS.comm _ _ (hc c.name (by simp [joinParts])) (hd d.name (by simp [joinParts])),
    hS.comm _ _ (hc c.alias (by simp [joinParts])) (hd d.alias (by simp [joinParts])),
    comm_conds hS (right hc) (right hd) ht nc nd, Bool.beq_comm]

theorem comm_tables {cs ds : List Table} (hc : ∀ o ∈ cs.flatMap tableParts, P o)
    (hd : ∀ o ∈ ds.flatMap tableParts, P o) (ht : ∀ o, P o → o.textual = false)
    (nc : NamedJoins cs) (nd : NamedJoins ds) :
    eqListR (tableEq cx S) cs ds = eqListR (tableEq cx S) ds cs := by
  refine eqListR_comm fun c hc1 d hd1 => ?_
  have hc2 := flat hc c hc1
  have hd2 := flat hd d hd1
  unfold tableEq
  rw [hS.comm _ _ (hc2 c.name (by simp [tableParts])) (hd2 d.name (by simp [tableParts])),
    hS.comm _ _ (hc2 c.alias (by simp [tableParts])) (hd2 d.alias (by simp [tableParts])),
    eqListR_comm fun a ha b hb => comm_join hS (flat (right hc2) a ha) (flat (right hd2) b hb) ht
      (nc c hc1 a ha) (nd d hd1 b hb)]

theorem comm_opt {c d : Option Obj} (hc : ∀ o ∈ c.toList, P o) (hd : ∀ o ∈ d.toList, P o) :
    optEq S c d = optEq S d c := by
  cases c with
  | none => cases d <;> rfl
  | some x =>
    cases d with
    | none => rfl
    | some y => exact hS.comm x y (hc x (by simp)) (hd y (by simp))

theorem comm_select {p q : Select} (hp : ∀ o ∈ selectParts p, P o) (hq : ∀ o ∈ selectParts q, P o)
    (ht : ∀ o, P o → o.textual = false)
    (np : NamedJoins p.tables ∧ NamedOns p.where_ ∧ NamedOns p.having)
    (nq : NamedJoins q.tables ∧ NamedOns q.where_ ∧ NamedOns q.having) :
    selectEq cx S p q = selectEq cx S q p := by
  unfold selectParts at hp hq
  have hp7 := right hp
  have hq7 := right hq
  unfold outfileParts at hp7 hq7
  have hp := left hp
  have hq := left hq
  unfold selectEq
  rw [eqListR_comm fun a ha b hb => comm_column hS (flat (left (left (left (left (left hp))))) a ha)
      (flat (left (left (left (left (left hq))))) b hb),
    eqListR_comm fun a ha b hb => comm_order hS (flat (right (left (left hp))) a ha)
      (flat (right (left (left hq))) b hb),
    comm_conds hS (right (left hp)) (right (left hq)) ht np.2.2 nq.2.2,
    comm_opt hS (left (left (left hp7))) (left (left (left hq7))),
    comm_opt hS (right (left (left hp7))) (right (left (left hq7))),
    comm_opt hS (right (left hp7)) (right (left hq7)),
    comm_opt hS (right hp7) (right hq7),
    eqListR_comm fun a ha b hb => comm_order hS (flat (right hp) a ha) (flat (right hq) b hb),
    comm_tables hS (right (left (left (left (left hp))))) (right (left (left (left (left hq))))) ht
      np.1 nq.1,
    comm_conds hS (right (left (left (left hp)))) (right (left (left (left hq)))) ht np.2.1 nq.2.1,
    Bool.beq_comm (a := p.limit), Bool.beq_comm (a := p.forUpdate), Bool.beq_comm (a := p.opts)]

theorem comm_insert {p q : Insert} (hp : ∀ o ∈ insertParts p, P o) (hq : ∀ o ∈ insertParts q, P o)
    (ht : ∀ o, P o → o.textual = false) (np : NamedJoins p.tables) (nq : NamedJoins q.tables) :
    insertEq cx S p q = insertEq cx S q p := by
  unfold insertParts at hp hq
  unfold insertEq
  rw [comm_values hS (right hp) (right hq) ht,
    comm_values hS (right (left hp)) (right (left hq)) ht,
    comm_tables hS (left (left (left hp))) (left (left (left hq))) ht np nq,
    eqListR_comm fun a ha b hb => comm_values hS (flat (right (left (left hp))) a ha)
      (flat (right (left (left hq))) b hb) ht,
    Bool.beq_comm (a := p.ignore), Bool.beq_comm (a := p.isReplace)]

theorem comm_update {p q : Update} (hp : ∀ o ∈ updateParts p, P o) (hq : ∀ o ∈ updateParts q, P o)
    (ht : ∀ o, P o → o.textual = false) (np : NamedJoins p.tables ∧ NamedOns p.where_)
    (nq : NamedJoins q.tables ∧ NamedOns q.where_) : updateEq cx S p q = updateEq cx S q p := by
  unfold updateParts at hp hq
  unfold updateEq
  rw [comm_tables hS (left (left hp)) (left (left hq)) ht np.1 nq.1,
    comm_values hS (right (left hp)) (right (left hq)) ht,
    comm_conds hS (right hp) (right hq) ht np.2 nq.2, Bool.beq_comm (a := p.ignore)]

theorem comm_delete {p q : Delete} (hp : ∀ o ∈ deleteParts p, P o) (hq : ∀ o ∈ deleteParts q, P o)
    (ht : ∀ o, P o → o.textual = false)
    (np : NamedJoins p.tables ∧ NamedJoins p.references ∧ NamedOns p.where_)
    (nq : NamedJoins q.tables ∧ NamedJoins q.references ∧ NamedOns q.where_) :
    deleteEq cx S p q = deleteEq cx S q p := by
  unfold deleteParts at hp hq
  unfold deleteEq
  rw [comm_tables hS (left (left hp)) (left (left hq)) ht np.1 nq.1,
    comm_tables hS (right (left hp)) (right (left hq)) ht np.2.1 nq.2.1,
    comm_conds hS (right hp) (right hq) ht np.2.2 nq.2.2, Bool.beq_comm (a := p.ignore)]

end

/-- Fractions with a positive denominator. -/
def Proper : NumV → Prop
  | .rat _ _ b => 0 < b
  | _ => True

theorem ratio_pos {b : Nat} (hb : 0 < b) (m : Nat) (e : Int) : 0 < (ratio b m e).2 := by
  cases e with
  | ofNat k => exact Nat.one_pos
  | negSucc k => exact Nat.pow_pos hb

theorem num_proper {o : Obj} {x : NumV} (h : o.num = some x) : Proper x := by
  cases o with
  | bool b => injection h with h; subst h; exact Nat.one_pos
  | int i => cases i <;> (injection h with h; subst h; exact Nat.one_pos)
  | float f =>
    cases f with
    | fin a b c => injection h with h; subst h; exact ratio_pos (by decide) _ _
    | inf a => injection h with h; subst h; trivial
    | nan => injection h with h; subst h; trivial
  | decimal f =>
    cases f with
    | fin a b c => injection h with h; subst h; exact ratio_pos (by decide) _ _
    | inf a => injection h with h; subst h; trivial
    | nan => injection h with h; subst h; trivial
  | _ => cases h

theorem numV_comm {x y : NumV} (hx : Proper x) (hy : Proper y) : x.eq y = y.eq x := by
  cases x with
  | rat n1 a1 b1 =>
    cases y with
    | rat n2 a2 b2 =>
      simp only [NumV.eq]
      rw [Bool.beq_comm (a := n1), Bool.beq_comm (a := a1 * b2)]
      by_cases h : a2 * b1 = a1 * b2
      · congr 2
        have : a1 = 0 ↔ a2 = 0 := by
          constructor
          · intro e
            rw [e, Nat.zero_mul] at h
            exact (Nat.mul_eq_zero.mp h).resolve_right (Nat.pos_iff_ne_zero.mp hx)
          · intro e
            rw [e, Nat.zero_mul] at h
            exact (Nat.mul_eq_zero.mp h.symm).resolve_right (Nat.pos_iff_ne_zero.mp hy)
        rw [Bool.eq_iff_iff, beq_iff_eq, beq_iff_eq, this]
      · rw [beq_eq_false_iff_ne.mpr h]; rfl
    | _ => rfl
  | inf n1 =>
    cases y with
    | inf n2 => exact Bool.beq_comm
    | _ => rfl
  | nan => cases y <;> rfl

/-- Comparison of numbers, the last case of `eqF`. -/
def numEq (a b : Obj) : R Bool :=
  match a.num, b.num with
  | some x, some y => .ok (x.eq y)
  | _, _ => .ok false

theorem numEq_comm (a b : Obj) : numEq a b = numEq b a := by
  unfold numEq
  cases ha : a.num with
  | none => cases b.num <;> rfl
  | some x =>
    cases hb : b.num with
    | none => rfl
    | some y => exact congrArg _ (numV_comm (num_proper ha) (num_proper hb))

theorem datetime_comm (a b : DateTimeV) : a.eq b = b.eq a := by
  unfold DateTimeV.eq
  cases a.tz <;> cases b.tz <;> first | exact Bool.beq_comm | rfl

theorem Structural.not_textual {o : Obj} (h : Structural o) : o.textual = false := by
  have := Throughout.here h
  cases o <;> first | rfl | exact absurd trivial this

theorem comm_eq (cx : Ctx) (n : Nat) : Comm (sem cx n) Structural := by
  induction n with
  | zero => exact ⟨fun _ _ _ _ => rfl, fun _ _ _ _ => .inl fun _ => rfl, .inl fun _ _ => rfl⟩
  | succ n ih =>
    refine ⟨?_, ?_, .inr fun _ _ => rfl⟩
    · intro a b ha hb
      have ha1 := Throughout.here ha
      have hb1 := Throughout.here hb
      have ha2 := Throughout.inside ha
      have hb2 := Throughout.inside hb
      have ht : ∀ o, Structural o → o.textual = false := fun o => Structural.not_textual
      show eqF cx (sem cx n) a b = eqF cx (sem cx n) b a
      cases a with
      | custom => exact absurd trivial ha1
      | sqlValue => exact absurd trivial ha1
      | sqlRef => exact absurd trivial ha1
      | cofc => exact absurd trivial ha1
      | not_ => exact absurd trivial ha1
      | func => exact absurd trivial ha1
      | concat => exact absurd trivial ha1
      | groupConcat => exact absurd trivial ha1
      | convert => exact absurd trivial ha1
      | exists_ => exact absurd trivial ha1
      | str s =>
        cases b with
        | str t => exact congrArg _ (Bool.beq_comm (a := s))
        | _ => first | rfl | exact absurd trivial hb1 | (rename_i x; cases x <;> rfl)
      | none =>
        cases b <;> first | rfl | exact absurd trivial hb1 | exact numEq_comm Obj.none _
      | bytes s =>
        cases b with
        | bytes t => exact congrArg _ (Bool.beq_comm (a := s))
        | _ => first | rfl | exact absurd trivial hb1 | exact numEq_comm (.bytes s) _
      | date s =>
        cases b with
        | date t => exact congrArg _ (Bool.beq_comm (a := s))
        | _ => first | rfl | exact absurd trivial hb1 | exact numEq_comm (.date s) _
      | datetime s =>
        cases b with
        | datetime t => exact congrArg _ (datetime_comm s t)
        | _ => first | rfl | exact absurd trivial hb1 | exact numEq_comm (.datetime s) _
      | range s =>
        cases b with
        | range t => exact congrArg _ (Bool.beq_comm (a := s))
        | _ => first | rfl | exact absurd trivial hb1 | exact numEq_comm (.range s) _
      | «opaque» s =>
        cases b with
        | «opaque» t => exact congrArg _ (Bool.beq_comm (a := s))
        | _ => first | rfl | exact absurd trivial hb1 | exact numEq_comm (.opaque s) _
      | list s =>
        cases b with
        | list t => exact eqListR_comm fun x hx y hy => ih.comm x y (ha2 x hx) (hb2 y hy)
        | _ => first | rfl | exact absurd trivial hb1 | exact numEq_comm (.list s) _
      | tuple s =>
        cases b with
        | tuple t => exact eqListR_comm fun x hx y hy => ih.comm x y (ha2 x hx) (hb2 y hy)
        | _ => first | rfl | exact absurd trivial hb1 | exact numEq_comm (.tuple s) _
      | rel k v =>
        cases b with
        | rel k' v' =>
          show (if k = k' then _ else _) = (if k' = k then _ else _)
          by_cases h : k = k'
          · rw [if_pos h, if_pos h.symm,
              ih.comm v v' (ha2 v (by simp [parts])) (hb2 v' (by simp [parts]))]
          · rw [if_neg h, if_neg fun e => h e.symm]
        | _ => first | rfl | exact absurd trivial hb1 | exact numEq_comm (.rel k v) _
      | conds s =>
        cases b with
        | conds t => exact comm_conds ih ha2 hb2 ht ha1 hb1
        | _ => first | rfl | exact absurd trivial hb1 | exact numEq_comm (.conds s) _
      | select s =>
        cases b with
        | select t => exact comm_select ih ha2 hb2 ht ha1 hb1
        | _ => first | rfl | exact absurd trivial hb1 | exact numEq_comm (.select s) _
      | insert s =>
        cases b with
        | insert t => exact comm_insert ih ha2 hb2 ht ha1 hb1
        | _ => first | rfl | exact absurd trivial hb1 | exact numEq_comm (.insert s) _
      | update s =>
        cases b with
        | update t => exact comm_update ih ha2 hb2 ht ha1 hb1
        | _ => first | rfl | exact absurd trivial hb1 | exact numEq_comm (.update s) _
      | delete s =>
        cases b with
        | delete t => exact comm_delete ih ha2 hb2 ht ha1 hb1
        | _ => first | rfl | exact absurd trivial hb1 | exact numEq_comm (.delete s) _
      | union a1 a2 t =>
        cases b with
        | union b1 b2 t' =>
          show andR _ (andR _ _) = andR _ (andR _ _)
          rw [ih.comm a1 b1 (ha2 a1 (by simp [parts])) (hb2 b1 (by simp [parts])),
            ih.comm a2 b2 (ha2 a2 (by simp [parts])) (hb2 b2 (by simp [parts])),
            Bool.beq_comm (a := t)]
        | _ => first | rfl | exact absurd trivial hb1 | exact numEq_comm (.union a1 a2 t) _
      | set s => cases b <;> first | rfl | exact absurd trivial hb1 | exact numEq_comm (.set s) _
      | frozenset s =>
        cases b <;> first | rfl | exact absurd trivial hb1 | exact numEq_comm (.frozenset s) _
      | dict s => cases b <;> first | rfl | exact absurd trivial hb1 | exact numEq_comm (.dict s) _
      | gen s => cases b <;> first | rfl | exact absurd trivial hb1 | exact numEq_comm (.gen s) _
      | bool s =>
        cases b with
        | bool t => exact numEq_comm (.bool s) (.bool t)
        | _ => first | rfl | exact absurd trivial hb1 | exact numEq_comm (.bool s) _
      | int s => cases b <;> first | rfl | exact absurd trivial hb1 | exact numEq_comm (.int s) _
      | float s => cases b <;> first | rfl | exact absurd trivial hb1 | exact numEq_comm (.float s) _
      | decimal s =>
        cases b <;> first | rfl | exact absurd trivial hb1 | exact numEq_comm (.decimal s) _
    · intro s y hy h
      refine .inr ?_
      have := Structural.not_textual hy
      cases y <;> first
        | exact Bool.noConfusion (show true = false from h)
        | exact Bool.noConfusion (show true = false from this)
        | rfl

/-! ### Comparisons that are `True` -/

theorem eqListR_eq {α : Type} {eq : α → α → R Bool} {xs ys : List α}
    (h : ∀ x ∈ xs, ∀ y ∈ ys, eq x y = .ok true → x = y) (e : eqListR eq xs ys = .ok true) :
    xs = ys := by
  replace e := eqListR_true.mp e
  induction e with
  | nil => rfl
  | @cons x y xs ys h1 _ ih =>
    rw [h x (by simp) y (by simp) h1, ih fun a ha b hb => h a (by simp [ha]) b (by simp [hb])]

section
variable {cx : Ctx} {S : Sem} {P : Obj → Prop} {rel : Str → Str → Prop}
  (ha : ∀ s t, rel s t → ¬ rel t s) (hS : ∀ x y, P x → P y → S.eq x y = .ok true → x = y)
include hS

theorem exact_column {c d : Column} (hc : ∀ o ∈ colParts c, P o) (hd : ∀ o ∈ colParts d, P o)
    (e : columnEq S c d = .ok true) : c = d := by
  obtain ⟨e1, e2⟩ := andR_true.mp e
  have e1 := hS _ _ (hc c.name (by simp [colParts])) (hd d.name (by simp [colParts])) e1
  have e2 := hS _ _ (hc c.alias (by simp [colParts])) (hd d.alias (by simp [colParts])) e2
  cases c; cases d; simp_all

theorem exact_order {c d : Order} (hc : ∀ o ∈ orderParts c, P o) (hd : ∀ o ∈ orderParts d, P o)
    (e : orderEq S c d = .ok true) : c = d := by
  obtain ⟨e1, e2⟩ := andR_true.mp e
  have e1 := hS _ _ (hc c.col (by simp [orderParts])) (hd d.col (by simp [orderParts])) e1
  cases c; cases d; simp_all

include ha in
theorem exact_cond {c d : Cond} (hc : ∀ o ∈ condParts c, P o) (hd : ∀ o ∈ condParts d, P o)
    (ht : ∀ o, P o → o.textual = false)
    (nc : ∀ a k v, c = .cond true a k v → ∃ s, a = .str s ∧ ∀ t, v = .str t → rel s t)
    (nd : ∀ a k v, d = .cond true a k v → ∃ s, a = .str s ∧ ∀ t, v = .str t → rel s t)
    (e : condEq cx S c d = .ok true) : c = d := by
  cases c with
  | item o =>
    have h1 := hc o (by simp [condParts])
    cases d with
    | item p => rw [hS _ _ h1 (hd p (by simp [condParts])) e]
    | cond on' c' k' v' =>
      simp only [condEq, ht o h1, Bool.false_eq_true, if_false] at e
      cases e
  | cond on c k v =>
    cases d with
    | item p => cases e
    | cond on' c' k' v' =>
      have h1 := hc c (by simp [condParts])
      have h2 := hc v (by simp [condParts])
      have h3 := hd c' (by simp [condParts])
      have h4 := hd v' (by simp [condParts])
      have e : (if on = on' then _ else _) = (Except.ok true : R Bool) := e
      by_cases ho : on = on'
      · subst ho
        rw [if_pos rfl, orR_true] at e
        rcases e with e | ⟨_, e⟩
        · obtain ⟨e1, e2⟩ := andR_true.mp e
          obtain ⟨e2, e3⟩ := andR_true.mp e2
          rw [hS _ _ h1 h3 e1, hS _ _ h2 h4 e2, beq_iff_eq.mp (Except.ok.inj e3)]
        · by_cases hv : (on && v.isStr) = true
          · rw [if_pos hv] at e
            obtain ⟨e1, e2⟩ := andR_true.mp e
            obtain ⟨e2, e3⟩ := andR_true.mp e2
            have e1 := hS _ _ h2 h3 e1
            have e2 := hS _ _ h1 h4 e2
            subst e1 e2
            rw [Bool.and_eq_true] at hv
            obtain ⟨rfl, hv⟩ := hv
            obtain ⟨s, rfl, r1⟩ := nc c k v rfl
            obtain ⟨t, rfl, r2⟩ := nd v k' _ rfl
            exact absurd (r2 s rfl) (ha s t (r1 t rfl))
          · rw [if_neg hv] at e; cases e
      · rw [if_neg ho] at e; cases e

include ha in
theorem exact_conds {cs ds : List Cond} (hc : ∀ o ∈ cs.flatMap condParts, P o)
    (hd : ∀ o ∈ ds.flatMap condParts, P o) (ht : ∀ o, P o → o.textual = false)
    (nc : OrientedOns rel cs) (nd : OrientedOns rel ds) (e : condsEq cx S cs ds = .ok true) :
    cs = ds := by
  refine eqListR_eq (fun c hc1 d hd1 e => ?_) e
  refine exact_cond ha hS (flat hc c hc1) (flat hd d hd1) ht ?_ ?_ e
  · rintro a k v rfl; exact nc a k v hc1
  · rintro a k v rfl; exact nd a k v hd1

theorem exact_value {c d : Value} (hc : ∀ o ∈ valueParts c, P o) (hd : ∀ o ∈ valueParts d, P o)
    (ht : ∀ o, P o → o.textual = false) (e : valueEq cx S c d = .ok true) : c = d := by
  cases c with
  | item o =>
    have h1 := hc o (by simp [valueParts])
    cases d with
    | item p => rw [hS _ _ h1 (hd p (by simp [valueParts])) e]
    | value c' v' =>
      simp only [valueEq, ht o h1, Bool.false_eq_true, if_false] at e
      cases e
  | value c v =>
    cases d with
    | item p => cases e
    | value c' v' =>
      obtain ⟨e1, e2⟩ := andR_true.mp e
      rw [hS _ _ (hc c (by simp [valueParts])) (hd c' (by simp [valueParts])) e1,
        hS _ _ (hc v (by simp [valueParts])) (hd v' (by simp [valueParts])) e2]

theorem exact_values {cs ds : List Value} (hc : ∀ o ∈ cs.flatMap valueParts, P o)
    (hd : ∀ o ∈ ds.flatMap valueParts, P o) (ht : ∀ o, P o → o.textual = false)
    (e : eqListR (valueEq cx S) cs ds = .ok true) : cs = ds :=
  eqListR_eq (fun c hc1 d hd1 e => exact_value hS (flat hc c hc1) (flat hd d hd1) ht e) e

include ha in
theorem exact_join {c d : Join} (hc : ∀ o ∈ joinParts c, P o) (hd : ∀ o ∈ joinParts d, P o)
    (ht : ∀ o, P o → o.textual = false) (nc : OrientedOns rel c.ons) (nd : OrientedOns rel d.ons)
    (e : joinEq cx S c d = .ok true) : c = d := by
  obtain ⟨e1, e2⟩ := andR_true.mp e
  obtain ⟨e2, e4⟩ := andR_true.mp e2
  obtain ⟨e2, e3⟩ := andR_true.mp e2
  have e2 := hS _ _ (hc c.name (by simp [joinParts])) (hd d.name (by simp [joinParts])) e2
  have e3 := hS _ _ (hc c.alias (by simp [joinParts])) (hd d.alias (by simp [joinParts])) e3
  have e4 := exact_conds ha hS (right hc) (right hd) ht nc nd e4
  have e1 := beq_iff_eq.mp (Except.ok.inj e1)
  cases c; cases d; simp_all

include ha in
theorem exact_tables {cs ds : List Table} (hc : ∀ o ∈ cs.flatMap tableParts, P o)
    (hd : ∀ o ∈ ds.flatMap tableParts, P o) (ht : ∀ o, P o → o.textual = false)
    (nc : OrientedJoins rel cs) (nd : OrientedJoins rel ds)
    (e : eqListR (tableEq cx S) cs ds = .ok true) : cs = ds := by
  refine eqListR_eq (fun c hc1 d hd1 e => ?_) e
  have hc2 := flat hc c hc1
  have hd2 := flat hd d hd1
  obtain ⟨e1, e3⟩ := andR_true.mp e
  obtain ⟨e1, e2⟩ := andR_true.mp e1
  have e1 := hS _ _ (hc2 c.name (by simp [tableParts])) (hd2 d.name (by simp [tableParts])) e1
  have e2 := hS _ _ (hc2 c.alias (by simp [tableParts])) (hd2 d.alias (by simp [tableParts])) e2
  have e3 := eqListR_eq (fun a ha1 b hb e => exact_join ha hS (flat (right hc2) a ha1)
    (flat (right hd2) b hb) ht (nc c hc1 a ha1) (nd d hd1 b hb) e) e3
  cases c; cases d; simp_all

theorem exact_opt {c d : Option Obj} (hc : ∀ o ∈ c.toList, P o) (hd : ∀ o ∈ d.toList, P o)
    (e : optEq S c d = .ok true) : c = d := by
  cases c with
  | none =>
    cases d with
    | none => rfl
    | some y => cases e
  | some x =>
    cases d with
    | none => cases e
    | some y => rw [hS x y (hc x (by simp)) (hd y (by simp)) e]

include ha in
theorem exact_select {p q : Select} (hp : ∀ o ∈ selectParts p, P o) (hq : ∀ o ∈ selectParts q, P o)
    (ht : ∀ o, P o → o.textual = false)
    (np : OrientedJoins rel p.tables ∧ OrientedOns rel p.where_ ∧ OrientedOns rel p.having)
    (nq : OrientedJoins rel q.tables ∧ OrientedOns rel q.where_ ∧ OrientedOns rel q.having)
    (e : selectEq cx S p q = .ok true) : p = q := by
  unfold selectParts at hp hq
  have hp7 := right hp
  have hq7 := right hq
  unfold outfileParts at hp7 hq7
  have hp := left hp
  have hq := left hq
  unfold selectEq at e
  simp only [andR_true] at e
  obtain ⟨e1, e2, e3, ⟨o1, o2, o3, o4⟩, e5, e6, e7, e8, e9, e10⟩ := e
  have e1 := eqListR_eq (fun a ha b hb e => exact_column hS
    (flat (left (left (left (left (left hp))))) a ha)
    (flat (left (left (left (left (left hq))))) b hb) e) e1
  have e2 := eqListR_eq (fun a ha b hb e => exact_order hS (flat (right (left (left hp))) a ha)
    (flat (right (left (left hq))) b hb) e) e2
  have e3 := exact_conds ha hS (right (left hp)) (right (left hq)) ht np.2.2 nq.2.2 e3
  have o1 := exact_opt hS (left (left (left hp7))) (left (left (left hq7))) o1
  have o2 := exact_opt hS (right (left (left hp7))) (right (left (left hq7))) o2
  have o3 := exact_opt hS (right (left hp7)) (right (left hq7)) o3
  have o4 := exact_opt hS (right hp7) (right hq7) o4
  have e5 := beq_iff_eq.mp (Except.ok.inj e5)
  have e6 := eqListR_eq (fun a ha b hb e => exact_order hS (flat (right hp) a ha)
    (flat (right hq) b hb) e) e6
  have e7 := beq_iff_eq.mp (Except.ok.inj e7)
  have e8 := beq_iff_eq.mp (Except.ok.inj e8)
  have e9 := exact_tables ha hS (right (left (left (left (left hp)))))
    (right (left (left (left (left hq))))) ht np.1 nq.1 e9
  have e10 := exact_conds ha hS (right (left (left (left hp)))) (right (left (left (left hq)))) ht
    np.2.1 nq.2.1 e10
  obtain ⟨_, _, _, _, _, _, _, _, ⟨_, _, _, _⟩, _⟩ := p
  obtain ⟨_, _, _, _, _, _, _, _, ⟨_, _, _, _⟩, _⟩ := q
  dsimp only at *
  subst e1 e2 e3 o1 o2 o3 o4 e5 e6 e7 e8 e9 e10
  rfl

include ha in
theorem exact_insert {p q : Insert} (hp : ∀ o ∈ insertParts p, P o) (hq : ∀ o ∈ insertParts q, P o)
    (ht : ∀ o, P o → o.textual = false) (np : OrientedJoins rel p.tables ∧ p.conflict = none)
    (nq : OrientedJoins rel q.tables ∧ q.conflict = none) (e : insertEq cx S p q = .ok true) :
    p = q := by
  unfold insertParts at hp hq
  unfold insertEq at e
  simp only [andR_true] at e
  obtain ⟨e1, e2, e3, e4, e5, e6⟩ := e
  have e1 := beq_iff_eq.mp (Except.ok.inj e1)
  have e2 := beq_iff_eq.mp (Except.ok.inj e2)
  have e3 := exact_values hS (right hp) (right hq) ht e3
  have e4 := exact_values hS (right (left hp)) (right (left hq)) ht e4
  have e5 := exact_tables ha hS (left (left (left hp))) (left (left (left hq))) ht np.1 nq.1 e5
  have e6 := eqListR_eq (fun a ha b hb e => exact_values hS (flat (right (left (left hp))) a ha)
    (flat (right (left (left hq))) b hb) ht e) e6
  have e7 := np.2.trans nq.2.symm
  obtain ⟨_, _, _, _, _, _, _⟩ := p
  obtain ⟨_, _, _, _, _, _, _⟩ := q
  dsimp only at *
  subst e1 e2 e3 e4 e5 e6 e7
  rfl

include ha in
theorem exact_update {p q : Update} (hp : ∀ o ∈ updateParts p, P o) (hq : ∀ o ∈ updateParts q, P o)
    (ht : ∀ o, P o → o.textual = false)
    (np : OrientedJoins rel p.tables ∧ OrientedOns rel p.where_ ∧ p.allowAll = false)
    (nq : OrientedJoins rel q.tables ∧ OrientedOns rel q.where_ ∧ q.allowAll = false)
    (e : updateEq cx S p q = .ok true) : p = q := by
  unfold updateParts at hp hq
  unfold updateEq at e
  simp only [andR_true] at e
  obtain ⟨e1, e2, e3, e4⟩ := e
  have e1 := exact_tables ha hS (left (left hp)) (left (left hq)) ht np.1 nq.1 e1
  have e2 := beq_iff_eq.mp (Except.ok.inj e2)
  have e3 := exact_values hS (right (left hp)) (right (left hq)) ht e3
  have e4 := exact_conds ha hS (right hp) (right hq) ht np.2.1 nq.2.1 e4
  have e5 := np.2.2.trans nq.2.2.symm
  obtain ⟨_, _, _, _, _⟩ := p
  obtain ⟨_, _, _, _, _⟩ := q
  dsimp only at *
  subst e1 e2 e3 e4 e5
  rfl

include ha in
theorem exact_delete {p q : Delete} (hp : ∀ o ∈ deleteParts p, P o) (hq : ∀ o ∈ deleteParts q, P o)
    (ht : ∀ o, P o → o.textual = false)
    (np : OrientedJoins rel p.tables ∧ OrientedJoins rel p.references ∧ OrientedOns rel p.where_ ∧
      p.allowAll = false)
    (nq : OrientedJoins rel q.tables ∧ OrientedJoins rel q.references ∧ OrientedOns rel q.where_ ∧
      q.allowAll = false)
    (e : deleteEq cx S p q = .ok true) : p = q := by
  unfold deleteParts at hp hq
  unfold deleteEq at e
  simp only [andR_true] at e
  obtain ⟨e1, e2, e3, e4⟩ := e
  have e1 := beq_iff_eq.mp (Except.ok.inj e1)
  have e2 := exact_tables ha hS (right (left hp)) (right (left hq)) ht np.2.1 nq.2.1 e2
  have e3 := exact_tables ha hS (left (left hp)) (left (left hq)) ht np.1 nq.1 e3
  have e4 := exact_conds ha hS (right hp) (right hq) ht np.2.2.1 nq.2.2.1 e4
  have e5 := np.2.2.2.trans nq.2.2.2.symm
  obtain ⟨_, _, _, _, _⟩ := p
  obtain ⟨_, _, _, _, _⟩ := q
  dsimp only at *
  subst e1 e2 e3 e4 e5
  rfl

end

theorem shift_eq {b : Nat} (hb : 2 ≤ b) {m1 m2 k1 k2 : Nat} (h1 : m1 % b ≠ 0) (h2 : m2 % b ≠ 0)
    (e : m1 * b ^ k1 = m2 * b ^ k2) : m1 = m2 ∧ k1 = k2 := by
  rcases Nat.lt_trichotomy k1 k2 with h | h | h
  · obtain ⟨d, rfl⟩ := Nat.exists_eq_add_of_lt h
    have : m1 = m2 * b ^ d * b := by
      have hp : 0 < b ^ k1 := Nat.pow_pos (by omega)
      apply Nat.eq_of_mul_eq_mul_right hp
      rw [e, Nat.pow_add, Nat.pow_add, Nat.pow_one]
      ring
    exact absurd (by rw [this]; exact Nat.mul_mod_left _ _) h1
  · subst h
    exact ⟨Nat.eq_of_mul_eq_mul_right (Nat.pow_pos (by omega)) e, rfl⟩
  · obtain ⟨d, rfl⟩ := Nat.exists_eq_add_of_lt h
    have : m2 = m1 * b ^ d * b := by
      have hp : 0 < b ^ k2 := Nat.pow_pos (by omega)
      apply Nat.eq_of_mul_eq_mul_right hp
      rw [← e, Nat.pow_add, Nat.pow_add, Nat.pow_one]
      ring
    exact absurd (by rw [this]; exact Nat.mul_mod_left _ _) h2

theorem ratio_inj {b : Nat} (hb : 2 ≤ b) {n1 n2 : Bool} {m1 m2 : Nat} {e1 e2 : Int}
    (h1 : Shortest b n1 m1 e1) (h2 : Shortest b n2 m2 e2)
    (e : NumV.eq (.rat n1 (ratio b m1 e1).1 (ratio b m1 e1).2)
      (.rat n2 (ratio b m2 e2).1 (ratio b m2 e2).2) = true) : n1 = n2 ∧ m1 = m2 ∧ e1 = e2 := by
  simp only [NumV.eq, Bool.and_eq_true, beq_iff_eq, Bool.or_eq_true] at e
  obtain ⟨c, s⟩ := e
  have zero : ∀ (m : Nat) (x : Int), (ratio b m x).1 = 0 ↔ m = 0 := by
    intro m x
    cases x with
    | ofNat k =>
      show m * b ^ k = 0 ↔ m = 0
      have : b ^ k ≠ 0 := Nat.pos_iff_ne_zero.mp (Nat.pow_pos (by omega))
      rw [Nat.mul_eq_zero]
      exact or_iff_left this
    | negSucc k => exact Iff.rfl
  have d1 := ratio_pos (b := b) (by omega) m1 e1
  have d2 := ratio_pos (b := b) (by omega) m2 e2
  by_cases hm : m1 = 0
  · have : (ratio b m2 e2).1 = 0 := by
      rw [(zero m1 e1).mpr hm, Nat.zero_mul] at c
      exact (Nat.mul_eq_zero.mp c.symm).resolve_right (by omega)
    have hm2 := (zero m2 e2).mp this
    obtain ⟨a1, a2⟩ := h1.1 hm
    obtain ⟨b1, b2⟩ := h2.1 hm2
    exact ⟨a1.trans b1.symm, hm.trans hm2.symm, a2.trans b2.symm⟩
  · have hm2 : m2 ≠ 0 := by
      intro h
      rw [(zero m2 e2).mpr h, Nat.zero_mul] at c
      exact hm ((zero m1 e1).mp ((Nat.mul_eq_zero.mp c).resolve_right (by omega)))
    have s1 := h1.2 hm
    have s2 := h2.2 hm2
    have hn : n1 = n2 := s.resolve_right fun h => hm ((zero m1 e1).mp h)
    refine ⟨hn, ?_⟩
    cases e1 with
    | ofNat k1 =>
      cases e2 with
      | ofNat k2 =>
        have c : m1 * b ^ k1 * 1 = m2 * b ^ k2 * 1 := c
        rw [Nat.mul_one, Nat.mul_one] at c
        obtain ⟨r1, r2⟩ := shift_eq hb s1 s2 c
        exact ⟨r1, by rw [r2]⟩
      | negSucc k2 =>
        have c : m1 * b ^ k1 * b ^ (k2 + 1) = m2 * 1 := c
        rw [Nat.mul_assoc, ← Nat.pow_add, Nat.mul_one] at c
        have := (shift_eq hb s1 s2 (k2 := 0) (by rw [c]; simp)).2
        omega
    | negSucc k1 =>
      cases e2 with
      | ofNat k2 =>
        have c : m1 * 1 = m2 * b ^ k2 * b ^ (k1 + 1) := c
        rw [Nat.mul_assoc, ← Nat.pow_add, Nat.mul_one] at c
        have := (shift_eq hb s1 s2 (k1 := 0) (by rw [← c]; simp)).2
        omega
      | negSucc k2 =>
        have c : m1 * b ^ (k2 + 1) = m2 * b ^ (k1 + 1) := c
        obtain ⟨r1, r2⟩ := shift_eq hb s1 s2 c
        exact ⟨r1, by rw [Nat.succ.inj r2]⟩

theorem Exact.not_textual {K : NumType} {rel : Str → Str → Prop} {o : Obj} (h : Exact K rel o) :
    o.textual = false := by
  have := Throughout.here h
  cases o <;> first | rfl | exact absurd this id

theorem exact_eq (cx : Ctx) (n : Nat) {K : NumType} {rel : Str → Str → Prop}
    (hr : ∀ s t, rel s t → ¬ rel t s) :
    ∀ a b, Exact K rel a → Exact K rel b → (sem cx n).eq a b = .ok true → a = b := by
  induction n with
  | zero => intro a b _ _ h; cases h
  | succ n ih =>
    intro a b ha hb e
    have ha1 := Throughout.here ha
    have hb1 := Throughout.here hb
    have ha2 := Throughout.inside ha
    have hb2 := Throughout.inside hb
    have ht : ∀ o, Exact K rel o → o.textual = false := fun o => Exact.not_textual
    have e : eqF cx (sem cx n) a b = .ok true := e
    cases a with
    | none =>
      cases b with
      | none => rfl
      | _ => first
        | exact absurd hb1 id
        | cases (show (Except.ok false : R Bool) = .ok true from e)
    | str s =>
      cases b with
      | str t => rw [beq_iff_eq.mp (Except.ok.inj e)]
      | _ => first
        | exact absurd hb1 id
        | cases (show (Except.ok false : R Bool) = .ok true from e)
    | bytes s =>
      cases b with
      | bytes t => rw [beq_iff_eq.mp (Except.ok.inj e)]
      | _ => first
        | exact absurd hb1 id
        | cases (show (Except.ok false : R Bool) = .ok true from e)
    | date s =>
      cases b with
      | date t => rw [beq_iff_eq.mp (Except.ok.inj e)]
      | _ => first
        | exact absurd hb1 id
        | cases (show (Except.ok false : R Bool) = .ok true from e)
    | range s =>
      cases b with
      | range t => rw [beq_iff_eq.mp (Except.ok.inj e)]
      | _ => first
        | exact absurd hb1 id
        | cases (show (Except.ok false : R Bool) = .ok true from e)
    | «opaque» s =>
      cases b with
      | «opaque» t => rw [beq_iff_eq.mp (Except.ok.inj e)]
      | _ => first
        | exact absurd hb1 id
        | cases (show (Except.ok false : R Bool) = .ok true from e)
    | datetime s =>
      cases b with
      | datetime t =>
        have e : Except.ok (DateTimeV.eq s t) = (Except.ok true : R Bool) := e
        have h1 : s.tz = none := ha1
        have h2 : t.tz = none := hb1
        simp only [DateTimeV.eq, h1, h2] at e
        rw [beq_iff_eq.mp (Except.ok.inj e)]
      | _ => first
        | exact absurd hb1 id
        | cases (show (Except.ok false : R Bool) = .ok true from e)
    | list s =>
      cases b with
      | list t =>
        exact congrArg _ (eqListR_eq (xs := s) (ys := t)
          (fun x hx y hy e => ih x y (ha2 x hx) (hb2 y hy) e) e)
      | _ => first
        | exact absurd hb1 id
        | cases (show (Except.ok false : R Bool) = .ok true from e)
    | tuple s =>
      cases b with
      | tuple t =>
        exact congrArg _ (eqListR_eq (xs := s) (ys := t)
          (fun x hx y hy e => ih x y (ha2 x hx) (hb2 y hy) e) e)
      | _ => first
        | exact absurd hb1 id
        | cases (show (Except.ok false : R Bool) = .ok true from e)
    | rel k v =>
      cases b with
      | rel k' v' =>
        have e : (if k = k' then _ else _) = (Except.ok true : R Bool) := e
        by_cases h : k = k'
        · rw [if_pos h] at e
          rw [h, ih v v' (ha2 v (by simp [parts])) (hb2 v' (by simp [parts])) e]
        · rw [if_neg h] at e; cases e
      | _ => first
        | exact absurd hb1 id
        | cases (show (Except.ok false : R Bool) = .ok true from e)
    | union a1 a2 t =>
      cases b with
      | union b1 b2 t' =>
        obtain ⟨e1, e2⟩ := andR_true.mp e
        obtain ⟨e2, e3⟩ := andR_true.mp e2
        rw [ih a1 b1 (ha2 a1 (by simp [parts])) (hb2 b1 (by simp [parts])) e1,
          ih a2 b2 (ha2 a2 (by simp [parts])) (hb2 b2 (by simp [parts])) e2,
          beq_iff_eq.mp (Except.ok.inj e3)]
      | _ => first
        | exact absurd hb1 id
        | cases (show (Except.ok false : R Bool) = .ok true from e)
    | conds s =>
      cases b with
      | conds t => rw [exact_conds hr ih ha2 hb2 ht ha1 hb1 e]
      | _ => first
        | exact absurd hb1 id
        | cases (show (Except.ok false : R Bool) = .ok true from e)
    | select s =>
      cases b with
      | select t => rw [exact_select hr ih ha2 hb2 ht ha1 hb1 e]
      | _ => first
        | exact absurd hb1 id
        | cases (show (Except.ok false : R Bool) = .ok true from e)
    | insert s =>
      cases b with
      | insert t => rw [exact_insert hr ih ha2 hb2 ht ha1 hb1 e]
      | _ => first
        | exact absurd hb1 id
        | cases (show (Except.ok false : R Bool) = .ok true from e)
    | update s =>
      cases b with
      | update t => rw [exact_update hr ih ha2 hb2 ht ha1 hb1 e]
      | _ => first
        | exact absurd hb1 id
        | cases (show (Except.ok false : R Bool) = .ok true from e)
    | delete s =>
      cases b with
      | delete t => rw [exact_delete hr ih ha2 hb2 ht ha1 hb1 e]
      | _ => first
        | exact absurd hb1 id
        | cases (show (Except.ok false : R Bool) = .ok true from e)
    | bool s =>
      cases b with
      | bool t => cases s <;> cases t <;> first | rfl | cases e
      | int t => exact absurd ((show K = .bool from ha1).symm.trans hb1) (by intro h; cases h)
      | float t =>
        cases t <;> first
          | exact absurd hb1 id
          | exact absurd ((show K = .bool from ha1).symm.trans hb1.1) (by intro h; cases h)
          | exact absurd ((show K = .bool from ha1).symm.trans hb1) (by intro h; cases h)
      | decimal t =>
        cases t <;> first
          | exact absurd hb1 id
          | exact absurd ((show K = .bool from ha1).symm.trans hb1.1) (by intro h; cases h)
          | exact absurd ((show K = .bool from ha1).symm.trans hb1) (by intro h; cases h)
      | _ => first
        | exact absurd hb1 id
        | cases (show (Except.ok false : R Bool) = .ok true from e)
    | int s =>
      cases b with
      | int t =>
        have e : numEq (.int s) (.int t) = .ok true := e
        have h := (intNum_eq s t).mp (by
          unfold numEq at e
          cases s <;> cases t <;> exact Except.ok.inj e)
        rw [h]
      | bool t => exact absurd ((show K = .int from ha1).symm.trans hb1) (by intro h; cases h)
      | float t =>
        cases t <;> first
          | exact absurd hb1 id
          | exact absurd ((show K = .int from ha1).symm.trans hb1.1) (by intro h; cases h)
          | exact absurd ((show K = .int from ha1).symm.trans hb1) (by intro h; cases h)
      | decimal t =>
        cases t <;> first
          | exact absurd hb1 id
          | exact absurd ((show K = .int from ha1).symm.trans hb1.1) (by intro h; cases h)
          | exact absurd ((show K = .int from ha1).symm.trans hb1) (by intro h; cases h)
      | _ => first
        | exact absurd hb1 id
        | cases s <;> cases (show (Except.ok false : R Bool) = .ok true from e)
    | float s =>
      have hK : K = .float := by
        cases s with
        | fin x y z => exact ha1.1
        | inf x => exact ha1
        | nan => exact absurd ha1 id
      cases b with
      | float t =>
        cases s with
        | fin n1 m1 e1 =>
          cases t with
          | fin n2 m2 e2 =>
            obtain ⟨r1, r2, r3⟩ := ratio_inj (b := 2) (by decide) ha1.2 hb1.2 (Except.ok.inj e)
            rw [r1, r2, r3]
          | inf x => cases (show (Except.ok false : R Bool) = .ok true from e)
          | nan => exact absurd hb1 id
        | inf x =>
          cases t with
          | fin n2 m2 e2 => cases (show (Except.ok false : R Bool) = .ok true from e)
          | inf y => rw [beq_iff_eq.mp (Except.ok.inj e)]
          | nan => exact absurd hb1 id
        | nan => exact absurd ha1 id
      | bool t => exact absurd (hK.symm.trans hb1) (by intro h; cases h)
      | int t => exact absurd (hK.symm.trans hb1) (by intro h; cases h)
      | decimal t =>
        cases t <;> first
          | exact absurd hb1 id
          | exact absurd (hK.symm.trans hb1.1) (by intro h; cases h)
          | exact absurd (hK.symm.trans hb1) (by intro h; cases h)
      | _ => first
        | exact absurd hb1 id
        | cases s <;> cases (show (Except.ok false : R Bool) = .ok true from e)
    | decimal s =>
      have hK : K = .decimal := by
        cases s with
        | fin x y z => exact ha1.1
        | inf x => exact ha1
        | nan => exact absurd ha1 id
      cases b with
      | decimal t =>
        cases s with
        | fin n1 m1 e1 =>
          cases t with
          | fin n2 m2 e2 =>
            obtain ⟨r1, r2, r3⟩ := ratio_inj (b := 10) (by decide) ha1.2 hb1.2 (Except.ok.inj e)
            rw [r1, r2, r3]
          | inf x => cases (show (Except.ok false : R Bool) = .ok true from e)
          | nan => exact absurd hb1 id
        | inf x =>
          cases t with
          | fin n2 m2 e2 => cases (show (Except.ok false : R Bool) = .ok true from e)
          | inf y => rw [beq_iff_eq.mp (Except.ok.inj e)]
          | nan => exact absurd hb1 id
        | nan => exact absurd ha1 id
      | bool t => exact absurd (hK.symm.trans hb1) (by intro h; cases h)
      | int t => exact absurd (hK.symm.trans hb1) (by intro h; cases h)
      | float t =>
        cases t <;> first
          | exact absurd hb1 id
          | exact absurd (hK.symm.trans hb1.1) (by intro h; cases h)
          | exact absurd (hK.symm.trans hb1) (by intro h; cases h)
      | _ => first
        | exact absurd hb1 id
        | cases s <;> cases (show (Except.ok false : R Bool) = .ok true from e)
    | _ => exact absurd ha1 id

end SqlPuzzle.EqFacts
