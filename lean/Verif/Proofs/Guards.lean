import Mathlib.Data.List.Forall2
import Verif.Proofs.Strip
import Verif.Spec.Settings

/-!
Facts about the confirmation of UPDATE and DELETE without condition.
-/

namespace SqlPuzzle

open Spec

theorem deleteStr_fields (cx : Ctx) (S : Sem) (q : Delete) :
    (deleteStr cx S q).1.allowAll = q.allowAll ∧ (deleteStr cx S q).1.where_ = q.where_ := by
  unfold deleteStr
  split
  · exact ⟨rfl, rfl⟩
  · simp only; split <;> exact ⟨rfl, rfl⟩

theorem updateStr_fields (cx : Ctx) (S : Sem) (q : Update) :
    (updateStr cx S q).1.allowAll = q.allowAll ∧ (updateStr cx S q).1.where_ = q.where_ := by
  unfold updateStr
  split <;> exact ⟨rfl, rfl⟩

section
variable (cx : Ctx) (S : Sem)

theorem delete_allowAll (q : Delete) (ops : List DeleteOp) :
    (runOps (deleteStep cx S) q ops).allowAll = (latest saysDeleteAll ops).getD q.allowAll := by
  refine runOps_latest (f := DeleteS.allowAll) (fun q o => ?_) q ops
  cases o with
  | str => exact (deleteStr_fields cx S q).1
  | _ => rfl

theorem update_allowAll (q : Update) (ops : List UpdateOp) :
    (runOps (updateStep cx S) q ops).allowAll = (latest saysUpdateAll ops).getD q.allowAll := by
  refine runOps_latest (f := UpdateS.allowAll) (fun q o => ?_) q ops
  cases o with
  | str => exact (updateStr_fields cx S q).1
  | _ => rfl

/-- A new delete query does not allow to delete everything. -/
theorem new_delete {ts : List Obj} {a : Args} {q : Delete}
    (h : mkDelete cx S ts = .ok q ∨ mkDeleteFrom cx S a = .ok q) :
    q.allowAll = false ∧ q.where_ = [] := by
  rcases h with h | h
  · unfold mkDelete at h
    split at h
    · cases h; exact ⟨rfl, rfl⟩
    · cases h
  · unfold mkDeleteFrom at h
    split at h
    · cases h; exact ⟨rfl, rfl⟩
    · cases h

/-- A new update query does not allow to update everything. -/
theorem new_update {t : Obj} {q : Update} (h : mkUpdate cx S t = .ok q) :
    q.allowAll = false ∧ q.where_ = [] := by
  unfold mkUpdate at h
  split at h
  · cases h; exact ⟨rfl, rfl⟩
  · cases h

/-- Without a call of `where` there is no condition. -/
theorem delete_no_where (q : Delete) (hq : q.where_ = []) (ops : List DeleteOp)
    (h : ∀ a, DeleteOp.where_ a ∉ ops) : (runOps (deleteStep cx S) q ops).where_ = [] := by
  induction ops generalizing q with
  | nil => exact hq
  | cons o ops ih =>
    rw [runOps_cons]
    refine ih _ ?_ fun a ha => h a (by simp [ha])
    cases o with
    | where_ a => exact absurd (by simp) (h a)
    | str => show (deleteStr cx S q).1.where_ = []; rw [(deleteStr_fields cx S q).2, hq]
    | _ => exact hq

theorem update_no_where (q : Update) (hq : q.where_ = []) (ops : List UpdateOp)
    (h : ∀ a, UpdateOp.where_ a ∉ ops) : (runOps (updateStep cx S) q ops).where_ = [] := by
  induction ops generalizing q with
  | nil => exact hq
  | cons o ops ih =>
    rw [runOps_cons]
    refine ih _ ?_ fun a ha => h a (by simp [ha])
    cases o with
    | where_ a => exact absurd (by simp) (h a)
    | str => show (updateStr cx S q).1.where_ = []; rw [(updateStr_fields cx S q).2, hq]
    | _ => exact hq

end

/-- The text of a condition on a column is never blank. -/
theorem condText_nonblank {cx : Ctx} {S : Sem} {on : Bool} {c v : Obj} {k : Rel} {u : Str}
    (h : condText cx S (.cond on c k v) = .ok u) : ∃ ch ∈ u, isSpace ch = false := by
  have hk : ∃ ch ∈ k.text, isSpace ch = false := by
    cases k <;> exact ⟨_, List.mem_cons_self .., rfl⟩
  obtain ⟨ch, hch, hs⟩ := hk
  have plain : ∀ {vt v u}, plainCondText cx S c k vt v = .ok u → ch ∈ u := by
    intro vt v u h
    unfold plainCondText at h
    obtain ⟨x, _, h⟩ := bind_ok.mp h
    obtain ⟨y, _, h⟩ := bind_ok.mp h
    cases h
    simp [hch]
  have inc : ∀ {glue nt vt v u}, (∃ x ∈ nt, isSpace x = false) →
      inCondText cx S c k glue nt vt v = .ok u → ∃ ch ∈ u, isSpace ch = false := by
    intro glue nt vt v u hnt h
    unfold inCondText at h
    split at h
    · exact ⟨ch, plain h, hs⟩
    · simp only at h
      split at h
      · split at h
        · obtain ⟨x, _, h⟩ := bind_ok.mp h
          cases h
          obtain ⟨y, hy, hys⟩ := hnt
          exact ⟨y, by simp [hy], hys⟩
        · obtain ⟨x, _, h⟩ := bind_ok.mp h
          obtain ⟨x', _, h⟩ := bind_ok.mp h
          cases h
          exact ⟨'(', by simp, rfl⟩
      · exact ⟨ch, plain h, hs⟩
  simp only [condText, formatCond] at h
  split at h
  · exact inc ⟨'I', by simp, rfl⟩ h
  · exact inc ⟨'I', by simp, rfl⟩ h
  · exact ⟨ch, plain h, hs⟩

theorem forall₂_mem {α β : Type} {R : α → β → Prop} {xs : List α} {ys : List β}
    (h : List.Forall₂ R xs ys) {x : α} (hx : x ∈ xs) : ∃ y ∈ ys, R x y := by
  induction h with
  | nil => cases hx
  | @cons a b as bs hab _ ih =>
    rcases List.mem_cons.mp hx with rfl | hx
    · exact ⟨b, by simp, hab⟩
    · obtain ⟨y, hy, h⟩ := ih hx
      exact ⟨y, by simp [hy], h⟩

theorem joinS_mem {sep : Str} {ts : List Str} {t : Str} (h : t ∈ ts) {c : Char} (hc : c ∈ t) :
    c ∈ joinS sep ts := by
  induction ts with
  | nil => cases h
  | cons x xs ih =>
    cases xs with
    | nil =>
      rw [List.mem_singleton.mp h] at hc
      simpa [joinS] using hc
    | cons y ys =>
      rcases List.mem_cons.mp h with rfl | h
      · simp [joinS, hc]
      · have := ih h
        simp [joinS, this]

theorem strip_tail {pre body : Str} {c : Char} (hc : isSpace c = false)
    (h : ∃ x ∈ body, isSpace x = false) :
    ∃ e, strip (c :: pre ++ body) = c :: pre ++ e ∧ e ≠ [] :=
  ⟨rstrip body, by
    rw [List.cons_append, strip_of_head hc, ← List.cons_append, rstrip_append h], rstrip_ne_nil h⟩

theorem infix_at {p s : Str} (h : p <:+: s) :
    (List.range (s.length + 1)).any (fun i => p.isPrefixOf (s.drop i)) = true := by
  obtain ⟨a, b, rfl⟩ := h
  refine List.any_eq_true.mpr ⟨a.length, by simp; omega, ?_⟩
  simp [List.append_assoc]

end SqlPuzzle
