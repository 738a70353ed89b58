import Verif.Spec.Plain
import Verif.Proofs.State
import Verif.Spec.FirstUse

/-!
Values on which Python's `==` is identity of values, and accumulation of such values.
-/

namespace SqlPuzzle

open Spec

theorem intNum_eq (i j : Int) :
    (match (Obj.int i).num, (Obj.int j).num with
      | some x, some y => x.eq y
      | _, _ => false) = true ↔ i = j := by
  cases i with
  | ofNat a =>
    cases j with
    | ofNat b => simp [Obj.num, NumV.eq, Int.ofNat_inj]
    | negSucc b =>
      constructor
      · intro h
        simp only [Obj.num, NumV.eq, Nat.mul_one, Bool.and_eq_true, beq_iff_eq, Bool.or_eq_true] at h
        obtain ⟨h1, h2⟩ := h
        simp at h2
        omega
      · intro h; cases h
  | negSucc a =>
    cases j with
    | ofNat b =>
      constructor
      · intro h
        simp only [Obj.num, NumV.eq, Nat.mul_one, Bool.and_eq_true, beq_iff_eq, Bool.or_eq_true] at h
        obtain ⟨h1, h2⟩ := h
        simp at h2
      · intro h; cases h
    | negSucc b => simp [Obj.num, NumV.eq]

theorem eqF_scalar (cx : Ctx) (S : Sem) {a b : Obj} (ha : a.scalar = true) (hb : b.scalar = true) :
    ∃ r, eqF cx S a b = .ok r ∧ (r = true ↔ a = b) := by
  cases a with
  | int i =>
    cases b with
    | int j =>
      have := intNum_eq i j
      cases i <;> cases j <;> exact ⟨_, rfl, this.trans (by rw [Obj.int.injEq])⟩
    | _ => first | (cases hb; done) | (cases i <;> exact ⟨false, rfl, by simp⟩)
  | none =>
    cases b with
    | int j => cases j <;> exact ⟨false, rfl, by simp⟩
    | _ => first | (cases hb; done) | exact ⟨_, rfl, by simp⟩
  | str s =>
    cases b with
    | str t => exact ⟨s == t, rfl, by simp⟩
    | _ => first | (cases hb; done) | exact ⟨false, rfl, by simp⟩
  | bytes s =>
    cases b with
    | bytes t => exact ⟨s == t, rfl, by simp⟩
    | int j => cases j <;> exact ⟨false, rfl, by simp⟩
    | _ => first | (cases hb; done) | exact ⟨false, rfl, by simp⟩
  | date s =>
    cases b with
    | date t => exact ⟨s == t, rfl, by simp⟩
    | int j => cases j <;> exact ⟨false, rfl, by simp⟩
    | _ => first | (cases hb; done) | exact ⟨false, rfl, by simp⟩
  | datetime s =>
    cases b with
    | datetime t =>
      refine ⟨s == t, ?_, by simp⟩
      have h1 : s.tz = none := Option.isNone_iff_eq_none.mp ha
      have h2 : t.tz = none := Option.isNone_iff_eq_none.mp hb
      show Except.ok (DateTimeV.eq s t) = _
      simp only [DateTimeV.eq, h1, h2]
    | int j => cases j <;> exact ⟨false, rfl, by simp⟩
    | _ => first | (cases hb; done) | exact ⟨false, rfl, by simp⟩
  | _ => cases ha

theorem eqListR_exact {α : Type} {eq : α → α → R Bool} {P : α → Prop}
    (h : ∀ a b, P a → P b → ∃ r, eq a b = .ok r ∧ (r = true ↔ a = b)) {xs ys : List α}
    (hx : ∀ x ∈ xs, P x) (hy : ∀ y ∈ ys, P y) :
    ∃ r, eqListR eq xs ys = .ok r ∧ (r = true ↔ xs = ys) := by
  unfold eqListR
  by_cases hl : xs.length = ys.length
  · rw [if_pos hl]
    induction xs generalizing ys with
    | nil =>
      cases ys with
      | nil => exact ⟨true, rfl, by simp⟩
      | cons y ys => simp at hl
    | cons x xs ih =>
      cases ys with
      | nil => simp at hl
      | cons y ys =>
        obtain ⟨r, h1, h2⟩ := h x y (hx x (by simp)) (hy y (by simp))
        obtain ⟨r', h3, h4⟩ := ih (ys := ys) (fun z hz => hx z (by simp [hz]))
          (fun z hz => hy z (by simp [hz])) (by simpa using hl)
        refine ⟨r && r', ?_, ?_⟩
        · rw [List.zip_cons_cons, allR, h1, h3, andR_ok]
        · simp [h2, h4]
  · rw [if_neg hl]
    exact ⟨false, rfl, by simp; rintro rfl; exact hl rfl⟩

theorem eqF_plain (cx : Ctx) (n : Nat) {a b : Obj} (ha : a.plain = true) (hb : b.plain = true) :
    ∃ r, eqF cx (sem cx (n + 1)) a b = .ok r ∧ (r = true ↔ a = b) := by
  have lists : ∀ (xs ys : List Obj), (Obj.list xs).plain = true → (Obj.list ys).plain = true →
      ∃ r, eqListR (sem cx (n + 1)).eq xs ys = .ok r ∧ (r = true ↔ xs = ys) := by
    intro xs ys h1 h2
    refine eqListR_exact (P := fun x => x.scalar = true)
      (fun a b ha hb => eqF_scalar cx (sem cx n) ha hb) ?_ ?_
    · simpa [Obj.plain] using h1
    · simpa [Obj.plain] using h2
  cases a with
  | list xs =>
    cases b with
    | list ys =>
      obtain ⟨r, h1, h2⟩ := lists xs ys ha hb
      exact ⟨r, h1, by simp [h2]⟩
    | int j => cases j <;> exact ⟨false, rfl, by simp⟩
    | _ => first | (cases hb; done) | exact ⟨false, rfl, by simp⟩
  | int i =>
    cases b with
    | list ys => cases i <;> exact ⟨false, rfl, by simp⟩
    | _ => first | (cases hb; done) | exact eqF_scalar cx _ ha hb
  | _ =>
    first
      | (cases ha; done)
      | (cases b with
         | list ys => exact ⟨false, rfl, by simp⟩
         | _ => first | (cases hb; done) | exact eqF_scalar cx _ ha hb)

/-- Accumulating items on which the comparison is exact lists them in the order of first use. -/
theorem addAll_firstUses {α β : Type} {eq : α → α → R Bool} {mk : β → R α} {P : α → Prop}
    (heq : ∀ a b, P a → P b → ∃ r, eq a b = .ok r ∧ (r = true ↔ a = b)) {bs : List β} {cs : List α}
    (hm : List.Forall₂ (fun b c => mk b = .ok c) bs cs) (hc : ∀ c ∈ cs, P c) {given ps : List α}
    (hp : ∀ p ∈ ps, P p) (hf : FirstUses given ps) :
    ∃ ps', addAll eq mk ps bs = (ps', none) ∧ FirstUses (given ++ cs) ps' ∧ ∀ p ∈ ps', P p := by
  induction hm generalizing ps given with
  | nil => exact ⟨ps, rfl, by simpa using hf, hp⟩
  | @cons b c bs cs hb _ ih =>
    have hPc := hc c (by simp)
    have hcs : ∀ x ∈ cs, P x := fun x hx => hc x (by simp [hx])
    have hany : ∃ r, anyR (fun q => eq q c) ps = .ok r ∧ (r = true ↔ c ∈ ps) := by
      clear hf ih
      induction ps with
      | nil => exact ⟨false, rfl, by simp⟩
      | cons p ps ihp =>
        obtain ⟨r, h1, h2⟩ := heq p c (hp p (by simp)) hPc
        obtain ⟨r', h3, h4⟩ := ihp fun x hx => hp x (by simp [hx])
        refine ⟨r || r', ?_, ?_⟩
        · rw [anyR, h1, h3, orR_ok]
        · rw [Bool.or_eq_true, h2, h4, List.mem_cons, eq_comm]
    obtain ⟨r, h1, h2⟩ := hany
    cases r with
    | true =>
      obtain ⟨ps', h3, h4, h5⟩ := ih hcs hp (hf.old c (h2.mp rfl))
      refine ⟨ps', ?_, by simpa using h4, h5⟩
      rw [← h3]
      simp only [addAll, forUpd, withR, hb, appendUnique, h1]
    | false =>
      obtain ⟨ps', h3, h4, h5⟩ := ih hcs (ps := ps ++ [c])
        (by intro p hp'; rcases List.mem_append.mp hp' with h | h
            · exact hp p h
            · rw [List.mem_singleton.mp h]; exact hPc)
        (hf.new c fun hm => by simpa using h2.mpr hm)
      refine ⟨ps', ?_, by simpa using h4, h5⟩
      rw [← h3]
      simp only [addAll, forUpd, withR, hb, appendUnique, h1]

/-- What `FirstUses` means: no repetition, the same items. -/
theorem Spec.FirstUses.nodup {α : Type} {given kept : List α} (h : FirstUses given kept) :
    kept.Nodup := by
  induction h with
  | nil => simp
  | old x _ _ ih => exact ih
  | new x _ hx ih =>
    rw [List.nodup_append]
    refine ⟨ih, by simp, ?_⟩
    rintro a ha b hb rfl
    rw [List.mem_singleton.mp hb] at ha
    exact hx ha

theorem Spec.FirstUses.mem_iff {α : Type} {given kept : List α} (h : FirstUses given kept) (x : α) :
    x ∈ kept ↔ x ∈ given := by
  induction h with
  | nil => simp
  | old y _ hy ih =>
    simp only [List.mem_append, List.mem_singleton, ← ih]
    constructor
    · exact .inl
    · rintro (h | rfl)
      · exact h
      · exact hy
  | new y _ _ ih => simp [ih]

theorem Spec.FirstUses.sublist {α : Type} {given kept : List α} (h : FirstUses given kept) :
    kept.Sublist given := by
  induction h with
  | nil => exact .slnil
  | old y _ _ ih => exact ih.trans (List.sublist_append_left _ _)
  | new y _ _ ih => exact ih.append (.refl _)

end SqlPuzzle
