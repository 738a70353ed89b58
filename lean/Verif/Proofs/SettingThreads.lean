import Verif.Spec.SettingThreads
import Mathlib.Data.List.Induction

/-!
Lemmas on settings made by several threads.
-/

namespace SqlPuzzle

open Spec

variable {cx : Ctx} {S : Sem}

/-- The assignments of a call, made one after another, are what the call does. -/
theorem callWrites_apply {op : SelectOp} (h : IsSetting op) (q : Select) :
    (callWrites op).foldl Write.apply q = (selectStep cx S q op).1 := by
  have off : ∀ (q : Select) (v : Obj), (offsetWrites v).foldl Write.apply q =
      { q with limit := (limitOffset q.limit v).1 } := by
    intro q v
    unfold offsetWrites limitOffset
    cases checkType [.none, .int] v with
    | error e => rfl
    | ok u =>
      simp only [withR]
      split
      · cases toInt v <;> rfl
      · rfl
  cases op with
  | limit l o =>
    show (limitWrites l o).foldl Write.apply q = { q with limit := (limitLimit q.limit l o).1 }
    unfold limitWrites limitLimit
    cases checkType [.none, .int] l with
    | error e => rfl
    | ok u =>
      simp only [withR]
      split
      · rfl
      · cases toInt l with
        | error e => rfl
        | ok i =>
          simp only [List.foldl_cons]
          split
          · rfl
          · rw [off]; rfl
  | offset o => exact off q o
  | outfile f v =>
    show (outfileWrites f v).foldl Write.apply q = { q with outfile := (outfileSet q.outfile f v).1 }
    unfold outfileWrites outfileSet
    cases checkType [.str] v with
    | error e => rfl
    | ok u => cases f <;> rfl
  | option k a => rfl
  | forUpdate a => rfl
  | _ => exact h.elim

/-- An assignment to the limit or the offset. -/
def Write.OfLimit : Write → Prop
  | .limit _ | .offset _ => True
  | _ => False

theorem offsetWrites_cases (v : Obj) : offsetWrites v = [] ∨
    ∃ o, offsetWrites v = [.offset o] ∧ saysOffset (.offset v) = some o := by
  cases v <;> try exact Or.inl rfl
  · exact Or.inr ⟨none, rfl, rfl⟩
  · rename_i i
    by_cases h : i = 0
    · subst h; exact Or.inr ⟨none, rfl, rfl⟩
    · refine Or.inr ⟨some i, ?_, ?_⟩
      · have : (Obj.int i).truthy = true := by simp [Obj.truthy, h]
        simp only [offsetWrites, this]; rfl
      · simp [saysOffset, offsetOf, h]

theorem limitWrites_cases (l off : Obj) :
    limitWrites l off = [] ∨
    (limitWrites l off = [.limit none, .offset none] ∧ saysLimit (.limit l off) = some none ∧
      saysOffset (.limit l off) = some none) ∨
    (∃ i, limitWrites l off = [.limit (some i)] ∧ saysLimit (.limit l off) = some (some i)) ∨
    ∃ i o, limitWrites l off = [.limit (some i), .offset o] ∧ saysLimit (.limit l off) = some (some i) ∧
      saysOffset (.limit l off) = some o := by
  cases l <;> try exact Or.inl rfl
  · exact Or.inr (Or.inl ⟨rfl, rfl, rfl⟩)
  · rename_i i
    refine Or.inr (Or.inr ?_)
    have e : limitWrites (.int i) off = .limit (some i) :: if off.isNone then [] else offsetWrites off := rfl
    rw [e]
    cases hn : off.isNone with
    | true => exact Or.inl ⟨i, by simp, rfl⟩
    | false =>
      simp only [Bool.false_eq_true, if_false]
      rcases offsetWrites_cases off with h | ⟨o, h, hs⟩
      · rw [h]; exact Or.inl ⟨i, rfl, rfl⟩
      · rw [h]; refine Or.inr ⟨i, o, rfl, rfl, ?_⟩
        cases off <;> simp_all [saysOffset, Obj.isNone]

/-- A call assigns to the limit what it says. -/
theorem saysLimit_of_write {op : SelectOp} {v : Option Int} (h : Write.limit v ∈ callWrites op) :
    saysLimit op = some v := by
  cases op with
  | limit l o =>
    change _ ∈ limitWrites l o at h
    rcases limitWrites_cases l o with e | ⟨e, s, _⟩ | ⟨i, e, s⟩ | ⟨i, o', e, s, _⟩ <;> rw [e] at h <;>
      simp at h <;> rw [s, h]
  | offset o =>
    change _ ∈ offsetWrites o at h
    rcases offsetWrites_cases o with e | ⟨o', e, _⟩ <;> rw [e] at h <;> simp at h
  | outfile f v =>
    change _ ∈ outfileWrites f v at h
    unfold outfileWrites at h
    cases hc : checkType [.str] v <;> simp [hc] at h
  | _ => simp [callWrites] at h

/-- A call assigns to the offset what it says. -/
theorem saysOffset_of_write {op : SelectOp} {v : Option Int} (h : Write.offset v ∈ callWrites op) :
    saysOffset op = some v := by
  cases op with
  | limit l o =>
    change _ ∈ limitWrites l o at h
    rcases limitWrites_cases l o with e | ⟨e, _, s⟩ | ⟨i, e, s⟩ | ⟨i, o', e, _, s⟩ <;> rw [e] at h <;>
      simp at h <;> rw [s, h]
  | offset o =>
    change _ ∈ offsetWrites o at h
    rcases offsetWrites_cases o with e | ⟨o', e, s⟩ <;> rw [e] at h <;> simp at h
    rw [s, h]
  | outfile f v =>
    change _ ∈ outfileWrites f v at h
    unfold outfileWrites at h
    cases hc : checkType [.str] v <;> simp [hc] at h
  | _ => simp [callWrites] at h

/-- A call with more than one assignment is one on the limit and the offset at once. -/
theorem callWrites_cases (op : SelectOp) :
    (callWrites op).length ≤ 1 ∨ BothAtOnce op ∧ ∀ w ∈ callWrites op, w.OfLimit := by
  cases op with
  | limit l o =>
    show (limitWrites l o).length ≤ 1 ∨ _ ∧ ∀ w ∈ limitWrites l o, w.OfLimit
    rcases limitWrites_cases l o with e | ⟨e, s, t⟩ | ⟨i, e, s⟩ | ⟨i, o', e, s, t⟩
    · simp [e]
    · exact Or.inr ⟨by simp [BothAtOnce, s, t], by simp [e, Write.OfLimit]⟩
    · simp [e]
    · exact Or.inr ⟨by simp [BothAtOnce, s, t], by simp [e, Write.OfLimit]⟩
  | offset o =>
    show (offsetWrites o).length ≤ 1 ∨ _
    rcases offsetWrites_cases o with e | ⟨o', e, _⟩ <;> simp [e]
  | outfile f v =>
    show (outfileWrites f v).length ≤ 1 ∨ _
    unfold outfileWrites
    cases checkType [.str] v <;> simp
  | _ => simp [callWrites]

/-- The query without its limit and offset. -/
def Select.butLimit (q : Select) : Select := { q with limit := {} }

theorem apply_butLimit (q : Select) (w : Write) : (w.apply q).butLimit = (w.apply q.butLimit).butLimit := by
  cases w with
  | outfile f v => cases f <;> rfl
  | _ => rfl

theorem ofLimit_butLimit {w : Write} (h : w.OfLimit) (q : Select) : (w.apply q).butLimit = q.butLimit := by
  cases w <;> first | rfl | exact h.elim

theorem ofLimits_butLimit {ws : List Write} (h : ∀ w ∈ ws, w.OfLimit) :
    ∀ q : Select, (ws.foldl Write.apply q).butLimit = q.butLimit := by
  induction ws with
  | nil => intro q; rfl
  | cons w ws ih =>
    intro q
    rw [List.foldl_cons, ih (fun x hx => h x (List.mem_cons_of_mem _ hx)),
      ofLimit_butLimit (h w List.mem_cons_self)]

/-! ### What threads look like on the way -/

/-- A thread that has made the calls `made` of its program. -/
structure OnTheWay (program made : List SelectOp) (writes : List Write) (todo : List SelectOp) : Prop where
  idle : writes = [] → program = made ++ todo
  busy : writes ≠ [] → ∃ op pre, program = made ++ op :: todo ∧ callWrites op = pre ++ writes

theorem callsBy_snoc (i : Nat) (order : List (Nat × SelectOp)) (j : Nat) (op : SelectOp) :
    callsBy i (order ++ [(j, op)]) = callsBy i order ++ if j = i then [op] else [] := by
  unfold callsBy
  rw [List.filterMap_append]
  by_cases h : j = i <;> simp [h]

/-- What holds at every moment. -/
structure Moment (cx : Ctx) (S : Sem) (q : Select) (programs : List (List SelectOp)) (w : SettingWorld)
    (order : List (Nat × SelectOp)) : Prop where
  length : w.2.length = programs.length + 1
  numbers : ∀ c ∈ order, c.1 < programs.length
  threads : ∀ i program, programs[i]? = some program →
    ∃ writes todo, w.2[i]? = some (.calls writes todo) ∧ OnTheWay program (callsBy i order) writes todo
  reader : ∃ r, w.2[programs.length]? = some (.reads r)
  rest : w.1.butLimit = (runOps (selectStep cx S) q (order.map (·.2))).butLimit
  whole : (∀ p ∈ programs, ∀ op ∈ p, ¬ BothAtOnce op) → w.1 = runOps (selectStep cx S) q (order.map (·.2))

theorem runOps_snoc (q : Select) (ops : List SelectOp) (op : SelectOp) :
    runOps (selectStep cx S) q (ops ++ [op]) = (selectStep cx S (runOps (selectStep cx S) q ops) op).1 := by
  simp [runOps, List.foldl_append]

theorem settingThreads_snoc (q : Select) (programs : List (List SelectOp)) (schedule : List Nat) (i : Nat) :
    settingThreads q programs (schedule ++ [i]) = settingTick (settingThreads q programs schedule) i := by
  simp [settingThreads, runSettings, List.foldl_append]

theorem moment {q : Select} {programs : List (List SelectOp)} (hs : ∀ p ∈ programs, ∀ op ∈ p, IsSetting op)
    (schedule : List Nat) : ∃ order, Moment cx S q programs (settingThreads q programs schedule) order := by
  induction schedule using List.reverseRecOn with
  | nil =>
    refine ⟨[], by simp [settingThreads, runSettings], by simp, ?_, ?_, rfl, fun _ => rfl⟩
    · intro i program h
      refine ⟨[], program, ?_, ⟨fun _ => rfl, fun h => absurd rfl h⟩⟩
      have hl := (List.getElem?_eq_some_iff.mp h).1
      show (programs.map (Setter.calls []) ++ [Setter.reads .isSet])[i]? = _
      rw [List.getElem?_append_left (by simpa using hl), List.getElem?_map, h]; rfl
    · refine ⟨.isSet, ?_⟩
      show (programs.map (Setter.calls []) ++ [Setter.reads .isSet])[programs.length]? = _
      rw [List.getElem?_append_right (by simp)]; simp
  | append_singleton schedule i ih =>
    obtain ⟨order, m⟩ := ih
    rw [settingThreads_snoc]
    generalize settingThreads q programs schedule = w at m ⊢
    unfold settingTick
    cases hw : w.2[i]? with
    | none => exact ⟨order, m⟩
    | some s =>
      have hi := (List.getElem?_eq_some_iff.mp hw).1
      simp only
      by_cases hp : i = programs.length
      · -- the thread that writes
        subst hp
        obtain ⟨r, hr⟩ := m.reader
        rw [hw] at hr; cases hr
        refine ⟨order, by simp [settingStep, m.length], m.numbers, ?_, ?_, m.rest, m.whole⟩
        · intro j program hj
          obtain ⟨writes, todo, h1, h2⟩ := m.threads j program hj
          have hl := (List.getElem?_eq_some_iff.mp hj).1
          refine ⟨writes, todo, ?_, h2⟩
          rw [List.getElem?_set_ne (by omega)]; exact h1
        · exact ⟨_, by rw [List.getElem?_set_self hi]; rfl⟩
      · -- a thread that makes calls
        have hlt : i < programs.length := by have := m.length; omega
        have hprog : programs[i]? = some programs[i] := List.getElem?_eq_getElem hlt
        generalize programs[i] = program at hprog
        have hmem : program ∈ programs := List.mem_of_getElem? hprog
        obtain ⟨writes, todo, h1, h2⟩ := m.threads i program hprog
        rw [hw] at h1; cases h1
        -- the state of the other threads and of the thread that writes
        have reader : ∀ s', ∃ r, (w.2.set i s')[programs.length]? = some (.reads r) := by
          intro s'
          rw [List.getElem?_set_ne (by omega)]; exact m.reader
        have others : ∀ s' order', (∀ j, j ≠ i → callsBy j order' = callsBy j order) →
            (∃ writes todo, s' = .calls writes todo ∧ OnTheWay program (callsBy i order') writes todo) →
            ∀ j program, programs[j]? = some program → ∃ writes todo,
              (w.2.set i s')[j]? = some (.calls writes todo) ∧ OnTheWay program (callsBy j order') writes todo := by
          intro s' order' ho hme j program' hj
          by_cases hji : j = i
          · subst hji
            rw [hprog] at hj; cases hj
            obtain ⟨a, b, rfl, h⟩ := hme
            exact ⟨a, b, List.getElem?_set_self hi, h⟩
          · rw [List.getElem?_set_ne (fun h => hji h.symm), ho j hji]
            exact m.threads j program' hj
        have other_calls : ∀ op j, j ≠ i → callsBy j (order ++ [(i, op)]) = callsBy j order := by
          intro op j hj
          rw [callsBy_snoc, if_neg (fun h => hj h.symm), List.append_nil]
        have my_calls : ∀ op, callsBy i (order ++ [(i, op)]) = callsBy i order ++ [op] := by
          intro op; rw [callsBy_snoc, if_pos rfl]
        have numbers' : ∀ op, ∀ c ∈ order ++ [(i, op)], c.1 < programs.length := by
          intro op c hc
          rcases List.mem_append.mp hc with hc | hc
          · exact m.numbers c hc
          · cases List.mem_singleton.mp hc; exact hlt
        cases writes with
        | nil =>
          cases todo with
          | nil =>
            refine ⟨order, by simp [settingStep, m.length], m.numbers, ?_, reader _, m.rest, m.whole⟩
            exact others _ order (fun _ _ => rfl) ⟨[], [], rfl, h2⟩
          | cons op todo =>
            have hprogram := h2.idle rfl
            have hop : op ∈ program := by rw [hprogram]; simp
            cases hcw : callWrites op with
            | nil =>
              -- the call raises before any assignment
              have hstep := callWrites_apply (cx := cx) (S := S) (hs program hmem op hop)
              simp only [hcw, List.foldl_nil] at hstep
              refine ⟨order ++ [(i, op)], by simp [settingStep, m.length], numbers' op, ?_, reader _, ?_, ?_⟩
              · refine others _ _ (other_calls op) ⟨[], todo, by simp [settingStep, hcw], ?_⟩
                refine ⟨fun _ => ?_, fun h => absurd rfl h⟩
                rw [my_calls, hprogram]; simp
              · rw [List.map_append, List.map_singleton, runOps_snoc, ← hstep]; exact m.rest
              · intro hone
                rw [List.map_append, List.map_singleton, runOps_snoc, ← hstep]; exact m.whole hone
            | cons w' ws =>
              refine ⟨order, by simp [settingStep, m.length], m.numbers, ?_, reader _, m.rest, m.whole⟩
              refine others _ order (fun _ _ => rfl) ⟨w' :: ws, todo, by simp [settingStep, hcw], ?_⟩
              refine ⟨fun h => by simp at h, fun _ => ⟨op, [], hprogram, by simp [hcw]⟩⟩
        | cons w' ws =>
          obtain ⟨op, pre, hprogram, hcw⟩ := h2.busy (by simp)
          have hop : op ∈ program := by rw [hprogram]; simp
          have hstep := callWrites_apply (cx := cx) (S := S) (hs program hmem op hop)
          rw [hcw] at hstep
          have hcases := callWrites_cases op
          rw [hcw] at hcases
          cases ws with
          | nil =>
            refine ⟨order ++ [(i, op)], by simp [settingStep, m.length], numbers' op, ?_, reader _, ?_, ?_⟩
            · refine others _ _ (other_calls op) ⟨[], todo, rfl, ?_⟩
              refine ⟨fun _ => ?_, fun h => absurd rfl h⟩
              rw [my_calls, hprogram]; simp
            · rw [List.map_append, List.map_singleton, runOps_snoc, ← hstep]
              show (w'.apply w.1).butLimit = _
              rcases hcases with hl | ⟨_, hl⟩
              · have : pre = [] := by
                  simp only [List.length_append, List.length_singleton] at hl
                  exact List.length_eq_zero_iff.mp (by omega)
                subst this
                simp only [List.nil_append, List.foldl_cons, List.foldl_nil]
                rw [apply_butLimit, m.rest, ← apply_butLimit]
              · rw [ofLimits_butLimit hl, ofLimit_butLimit (hl w' (by simp))]; exact m.rest
            · intro hone
              rw [List.map_append, List.map_singleton, runOps_snoc, ← hstep]
              rcases hcases with hl | ⟨hb, _⟩
              · have : pre = [] := by
                  simp only [List.length_append, List.length_singleton] at hl
                  exact List.length_eq_zero_iff.mp (by omega)
                subst this
                rw [← m.whole hone]; rfl
              · exact absurd hb (hone program hmem op hop)
          | cons w'' ws =>
            rcases hcases with hl | ⟨hb, hl⟩
            · simp only [List.length_append, List.length_cons] at hl; omega
            · refine ⟨order, by simp [settingStep, m.length], m.numbers, ?_, reader _, ?_, ?_⟩
              · refine others _ order (fun _ _ => rfl) ⟨w'' :: ws, todo, rfl, ?_⟩
                refine ⟨fun h => by simp at h, fun _ => ⟨op, pre ++ [w'], hprogram, by simp [hcw]⟩⟩
              · show (w'.apply w.1).butLimit = _
                rw [ofLimit_butLimit (hl w' (by simp))]; exact m.rest
              · intro hone; exact absurd hb (hone program hmem op hop)

end SqlPuzzle
