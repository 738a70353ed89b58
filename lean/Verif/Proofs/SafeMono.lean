import Verif.Spec.Safe

/-!
`Safe` does not depend on the depth, once it is large enough.
-/

namespace SqlPuzzle

open Spec

section
variable {q : Char} {P P' : Kind → Obj → Prop} (hp : ∀ k o, P k o → P' k o)
include hp

theorem safeVal_mono {v : Obj} (h : safeVal q P v) : safeVal q P' v := by
  cases v <;> first
    | exact h
    | exact ⟨h.1, fun x hx => hp _ _ (h.2 x hx)⟩
    | exact hp _ _ h
    | exact ⟨h.1, hp _ _ h.2⟩

theorem safeRef_mono {v : Obj} (h : safeRef q P v) : safeRef q P' v := by
  cases v <;> first
    | exact h
    | exact hp _ _ h
    | exact ⟨h.1, hp _ _ h.2⟩

theorem safeAliased_mono {n a : Obj} (h : safeAliased q P n a) : safeAliased q P' n a :=
  ⟨safeRef_mono hp h.1, fun e => safeRef_mono hp (h.2 e)⟩

theorem safeCond_mono {c : Cond} (h : safeCond q P c) : safeCond q P' c := by
  cases c with
  | item o => exact hp _ _ h
  | cond on col k v =>
    refine ⟨safeRef_mono hp h.1, ?_⟩
    have h2 := h.2
    have keyP : (if on && v.isStr then safeRef q P v else safeVal q P v) →
        (if on && v.isStr then safeRef q P' v else safeVal q P' v) := by
      intro h
      cases hb : on && v.isStr with
      | true => rw [hb] at h; exact safeRef_mono hp h
      | false => rw [hb] at h; exact safeVal_mono hp h
    have keyI : (match v.iterate with
        | none => safeVal q P v
        | some xs => (on && v.isStr) = false ∧ xs ≠ [] ∧ ∀ x ∈ xs, x.isNone = false → P .expr (.sqlValue x)) →
        (match v.iterate with
        | none => safeVal q P' v
        | some xs => (on && v.isStr) = false ∧ xs ≠ [] ∧ ∀ x ∈ xs, x.isNone = false → P' .expr (.sqlValue x)) := by
      intro h
      cases e : v.iterate with
      | none => rw [e] at h; exact safeVal_mono hp h
      | some xs => rw [e] at h; exact ⟨h.1, h.2.1, fun x hx hn => hp _ _ (h.2.2 x hx hn)⟩
    cases k <;> first | exact keyP h2 | exact keyI h2

theorem safeConds_mono {ps : List Cond} (h : safeConds q P ps) : safeConds q P' ps :=
  fun p hp' => safeCond_mono hp (h p hp')

theorem safeAssign_mono {v : Value} (h : safeAssign q P v) : safeAssign q P' v := by
  cases v with
  | item o => exact h
  | value c x => exact ⟨safeRef_mono hp h.1, safeVal_mono hp h.2⟩

theorem safeTable_mono {t : Table} (h : safeTable q P t) : safeTable q P' t :=
  ⟨safeAliased_mono hp h.1, fun j hj =>
    ⟨safeAliased_mono hp (h.2 j hj).1, safeConds_mono hp (h.2 j hj).2⟩⟩

theorem safeOpt_mono {o : Option Obj} (h : safeOpt q P o) : safeOpt q P' o := by
  cases o with
  | none => trivial
  | some v => exact safeVal_mono hp h

theorem safeSelect_mono {s : Select} (h : safeSelect q P s) : safeSelect q P' s := by
  obtain ⟨h1, h2, h3, h4, h5, h6, h7, h8, h9, h10⟩ := h
  exact ⟨fun c hc => safeAliased_mono hp (h1 c hc), fun t ht => safeTable_mono hp (h2 t ht),
    safeConds_mono hp h3, fun o ho => safeRef_mono hp (h4 o ho), safeConds_mono hp h5,
    fun o ho => safeRef_mono hp (h6 o ho), safeOpt_mono hp h7, safeOpt_mono hp h8,
    safeOpt_mono hp h9, safeOpt_mono hp h10⟩

theorem safeRow_mono {r : List Value} (h : safeRow q P r) : safeRow q P' r :=
  ⟨h.1, fun v hv => by
    obtain ⟨c, x, e, h1, h2⟩ := h.2 v hv
    exact ⟨c, x, e, h1, safeVal_mono hp h2⟩⟩

theorem safeArg_mono {a : Obj} (h : safeArg q P a) : safeArg q P' a := by
  cases a <;> first
    | exact ⟨h.1, fun x hx => safeRef_mono hp (h.2 x hx)⟩
    | (unfold safeArg at h ⊢; exact safeRef_mono hp h)

theorem safeExpr_mono {o : Obj} (h : safeExpr q P o) : safeExpr q P' o := by
  cases o
  case sqlValue v => exact safeVal_mono hp h
  case sqlRef v => exact safeRef_mono hp h
  case func f d e => exact safeArg_mono hp h
  case concat cs => exact fun c hc => safeAliased_mono hp (h c hc)
  case groupConcat cs os sep =>
    exact ⟨fun c hc => safeAliased_mono hp (h.1 c hc), fun o ho => safeRef_mono hp (h.2.1 o ho),
      fun e => safeVal_mono hp (h.2.2 e)⟩
  case convert e ty => exact ⟨safeArg_mono hp h.1, h.2⟩
  case exists_ e =>
    cases e <;> first
      | exact hp _ _ h
      | exact h.elim
  all_goals exact h.elim

theorem safeQuery_mono {o : Obj} (h : safeQuery q P o) : safeQuery q P' o := by
  cases o
  case select s => exact safeSelect_mono hp h
  case union a b all => exact ⟨hp _ _ h.1, hp _ _ h.2⟩
  all_goals exact h.elim

theorem safeF_mono {k : Kind} {o : Obj} (h : safeF q P k o) : safeF q P' k o := by
  cases k with
  | expr => exact safeExpr_mono hp h
  | query => exact safeQuery_mono hp h
  | cond =>
    cases o
    case conds ps => exact ⟨h.1, safeConds_mono hp h.2⟩
    case cofc l r op => exact ⟨hp _ _ h.1, hp _ _ h.2⟩
    case not_ ps => exact hp _ _ h
    all_goals (unfold safeF at h ⊢; exact safeExpr_mono hp h)
  | stmt =>
    cases o
    case insert i =>
      obtain ⟨h1, h2, h3, h4, h5⟩ := h
      exact ⟨fun t ht => safeTable_mono hp (h1 t ht), fun r hr => safeRow_mono hp (h2 r hr),
        fun v hv => safeAssign_mono hp (h3 v hv), fun v hv => safeAssign_mono hp (h4 v hv), h5⟩
    case update u =>
      exact ⟨fun t ht => safeTable_mono hp (h.1 t ht), fun v hv => safeAssign_mono hp (h.2.1 v hv),
        safeConds_mono hp h.2.2⟩
    case delete s =>
      exact ⟨fun t ht => safeTable_mono hp (h.1 t ht), fun t ht => safeTable_mono hp (h.2.1 t ht),
        safeConds_mono hp h.2.2⟩
    all_goals (unfold safeF at h ⊢; exact safeQuery_mono hp h)

end

theorem safe_succ {q : Char} {n : Nat} {k : Kind} {o : Obj} (h : Safe q n k o) :
    Safe q (n + 1) k o := by
  induction n generalizing k o with
  | zero => exact h.elim
  | succ n ih => exact safeF_mono (fun _ _ => ih) h

theorem safe_le {q : Char} {m n : Nat} {k : Kind} {o : Obj} (hmn : m ≤ n) (h : Safe q m k o) :
    Safe q n k o := by
  induction hmn with
  | refl => exact h
  | step _ ih => exact safe_succ ih

end SqlPuzzle
