import Verif.Proofs.Sources
import Verif.Proofs.Effects
import Verif.Spec.Changes

/-!
The tables that a server reads between `DELETE` and `FROM`.
-/

namespace SqlPuzzle

open Spec

section
variable {cx : Ctx} {S : Sem} {d : Dialect} {T : Obj → List Tok} {P : Spec.Kind → Obj → Prop}

theorem targets_delete (ih : Phrases T P) {q : Delete} (h : safeDelete cx.backend.quote P q) :
    clauseBody deleteClauses L!"DELETE" (deleteToks cx S d T q) =
      optToks q.ignore (words [L!"IGNORE"]) ++ tablesToks cx S d T [] q.tables := by
  have := clauseBody_eq (ws := deleteClauses) (w := L!"DELETE") (A := [])
    (C := .word L!"FROM" :: (tablesToks cx S d T [] q.references ++ condsToks cx d T [L!"WHERE"] q.where_))
    (by decide) quiet_nil ((quiet_ignore (by decide) q.ignore).append
      (quiet_tables (S := S) (d := d) ih (by decide) h.1)) (.inr ⟨L!"FROM", by decide, rfl⟩)
  rw [← this]
  unfold deleteToks
  simp

/-- Tables given by name alone. -/
theorem tablesToks_named {ps : List (Obj × Obj)} (hne : ps ≠ []) (hp : ∀ p ∈ ps, NamedTable p) :
    tablesToks cx S d T [] (ps.map fun p => (⟨p.1, p.2, []⟩ : Table)) =
      joinT [.sym ','] (ps.map fun p => refToksOf cx T p.1) := by
  have e : tablesToks cx S d T [] (ps.map fun p => (⟨p.1, p.2, []⟩ : Table)) =
      joinT [.sym ','] ((ps.map fun p => (⟨p.1, p.2, []⟩ : Table)).map (tableToks cx S d T)) := by
    unfold tablesToks
    have : (ps.map fun p => (⟨p.1, p.2, []⟩ : Table)).isEmpty = false := by simpa using hne
    rw [this]
    rfl
  rw [e, List.map_map]
  congr 1
  refine List.map_congr_left fun p hm => ?_
  obtain ⟨s, _, rfl⟩ := hp p hm
  have e : keptJoins cx S ⟨.str s, .none, []⟩ = [] := rfl
  simp [tableToks, e, aliasedToks, optToks, Obj.truthy]

end

end SqlPuzzle
