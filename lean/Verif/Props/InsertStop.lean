import Verif.Props.Failures

/-!
C43: what a call of `on_duplicate_key_update` that raises has done.
-/

namespace SqlPuzzle

open Spec

private def env0 : Env := ⟨id, id, fun _ => true, fun _ => [], fun _ => []⟩
private def my0 : Ctx := ⟨.mysql, env0⟩
private def pg0 : Ctx := ⟨.postgresql, env0⟩

/-- `op'` is the call `op` with only the entries before some entry; on PostgreSQL the first argument is
the column of the conflict, which may be all that is left. -/
inductive FirstInsert (pg : Prop) : InsertOp → InsertOp → Prop
  | entries {a before g after} : ¬pg → GivesPairs a (before ++ g :: after) →
      FirstInsert pg (.onDuplicateKeyUpdate a) (.onDuplicateKeyUpdate (asPairs before))
  | conflict {c rest kw before g after} : pg →
      GivesPairs { pos := rest, kw := kw } (before ++ g :: after) →
      FirstInsert pg (.onDuplicateKeyUpdate { pos := .str c :: rest, kw := kw })
        (.onDuplicateKeyUpdate { pos := .str c :: (asPairs before).pos })
  | column {c rest kw} : pg →
      FirstInsert pg (.onDuplicateKeyUpdate { pos := .str c :: rest, kw := kw })
        (.onDuplicateKeyUpdate { pos := [.str c] })

/-- The arguments of calls on an `Insert`; on PostgreSQL the entries come after the column. -/
def ArgsInsert (pg : Prop) : InsertOp → Prop
  | .onDuplicateKeyUpdate a => (¬pg → WellKeyed a) ∧ (pg → WellKeyed { a with pos := a.pos.tail })
  | .into t => ∀ kvs, t ≠ .dict kvs
  | _ => True

private theorem map_same {σ τ : Type} {f : σ → τ} {u : Upd σ} {t' : τ} {e : Err} {s : σ}
    (hs : ∀ s', u = (s', some e) → s' = s) (h : u.map f = (t', some e)) : t' = f s := by
  obtain ⟨s', o⟩ := u
  injection h with h1 h2
  dsimp only at h2
  subst h2
  rw [← h1, hs s' rfl]

section
variable (cx : Ctx) (S : Sem)

/-- What a call on an `Insert` that raises has done: nothing, or exactly what the same call with only
the entries before some entry does, without raising. -/
theorem C43_insert_stop_partial (q q' : Insert) (op : InsertOp) (e : Err)
    (ha : ArgsInsert (cx.backend = .postgresql) op) (hs : op ≠ .str)
    (h : insertStep cx S q op = (q', some e)) :
    q' = q ∨ ∃ op', FirstInsert (cx.backend = .postgresql) op op' ∧
      insertStep cx S q op' = (q', none) := by
  cases op with
  | into t =>
    simp only [insertStep] at h
    exact .inl (map_same (s := q.tables) (fun _ => tablesSet_same cx S (.name t rfl ha)) h)
  | values a =>
    simp only [insertStep] at h
    split at h
    · injection h with h _; exact .inl h.symm
    · refine .inl (map_same (s := q.rows) (fun r h => ?_) h)
      unfold rowsAdd at h
      split at h
      · cases h
      · injection h with h _; exact h.symm
  | ignore a => cases h
  | str => exact absurd rfl hs
  | onDuplicateKeyUpdate a =>
    simp only [insertStep] at h
    unfold onDuplicateKeyUpdate at h
    split at h
    · injection h with h _; exact .inl h.symm
    rename_i hk
    cases hbe : cx.backend with
    | sql => rw [hbe] at h; cases h
    | sqlite =>
      rw [hbe] at h
      simp only [Backend.supportsOnDuplicateKeyUpdate, Backend.supportsOnConflictDoUpdate,
        Backend.supportsReplaceInto, Bool.false_eq_true, if_false, if_true] at h
      split at h
      · injection h with h _; exact .inl h.symm
      · cases h
    | mysql =>
      have hp : ¬cx.backend = .postgresql := by rw [hbe]; decide
      rw [hbe] at h
      simp only [Backend.supportsOnDuplicateKeyUpdate, if_true] at h
      split at h
      · rename_i q1 e1 h1
        injection h with h2 h3
        subst h2
        rcases map_stop (s := q.onDup) (fun _ h => valuesSet_stop (ha.1 hp) h) h1 with
          h | ⟨r, ⟨b, g, c, hg, hr⟩, rfl⟩
        · exact .inl h
        · refine .inr ⟨.onDuplicateKeyUpdate (asPairs b), .entries (by decide) hg, ?_⟩
          show onDuplicateKeyUpdate cx S q (asPairs b) = _
          have hk' : kwSelf (asPairs b) = false := rfl
          unfold onDuplicateKeyUpdate
          rw [hk', hbe]
          simp only [Backend.supportsOnDuplicateKeyUpdate, Backend.supportsOnConflictDoUpdate,
            Backend.supportsReplaceInto, Bool.false_eq_true, if_false, if_true, hr, Upd.map]
      · cases h
    | postgresql =>
      rw [hbe] at h
      simp only [Backend.supportsOnDuplicateKeyUpdate, Backend.supportsOnConflictDoUpdate,
        Backend.supportsReplaceInto, Bool.false_eq_true, if_false, if_true] at h
      split at h
      · rename_i q1 e1 h1
        injection h with h2 h3
        subst h2
        unfold onConflictSet at h1
        rw [if_neg hk] at h1
        obtain ⟨pos, kw⟩ := a
        split at h1
        · rename_i s rest hp
          have hp : pos = .str s :: rest := hp
          subst hp
          have call : ∀ (ps : List Obj) (r : List Value),
              valuesSet cx S q.onConflict { pos := ps } = (r, none) →
              onDuplicateKeyUpdate cx S q { pos := .str s :: ps } =
                ({ q with conflict := some s, onConflict := r }, none) := by
            intro ps r hr
            have hk' : kwSelf { pos := .str s :: ps } = false := rfl
            unfold onDuplicateKeyUpdate onConflictSet
            rw [hk', hbe]
            simp only [Backend.supportsOnDuplicateKeyUpdate, Backend.supportsOnConflictDoUpdate,
              Backend.supportsReplaceInto, Bool.false_eq_true, if_false, if_true, hr, Upd.map]
          rcases map_stop (s := q.onConflict)
            (fun _ h => valuesSet_stop (ha.2 hbe) h) h1 with h | ⟨r, ⟨b, g, c, hg, hr⟩, rfl⟩
          · exact .inr ⟨.onDuplicateKeyUpdate { pos := [.str s] }, .column rfl, by
              rw [h]; exact call [] _ rfl⟩
          · exact .inr ⟨_, .conflict rfl hg, call _ _ hr⟩
        · injection h1 with h1 _; exact .inl h1.symm
      · cases h

end

/-- `on_duplicate_key_update([('a', 1), ('b', {})])` raises and has done what
`on_duplicate_key_update([('a', 1)])` does; on PostgreSQL with the column of the conflict. -/
example :
    let l : Obj := .list [.tuple [.str L!"a", .int 1], .tuple [.str L!"b", .dict []]]
    ArgsInsert (my0.backend = .postgresql) (.onDuplicateKeyUpdate { pos := [l] }) ∧
    (insertStep my0 (sem my0 3) {} (.onDuplicateKeyUpdate { pos := [l] })).2 =
      some .invalidArgument ∧
    (insertStep my0 (sem my0 3) {} (.onDuplicateKeyUpdate { pos := [l] })).1.onDup.length = 1 ∧
    ArgsInsert (pg0.backend = .postgresql) (.onDuplicateKeyUpdate { pos := [.str L!"id", l] }) ∧
    (insertStep pg0 (sem pg0 3) {} (.onDuplicateKeyUpdate { pos := [.str L!"id", l] })).2 =
      some .invalidArgument ∧
    (insertStep pg0 (sem pg0 3) {} (.onDuplicateKeyUpdate { pos := [.str L!"id", l] })).1.conflict =
      some L!"id" := by
  refine ⟨⟨fun _ => ?_, fun h => by cases h⟩, by decide, by decide, ⟨fun h => absurd rfl h, fun _ => ?_⟩,
    by decide, by decide⟩
  · exact ⟨by simp, fun _ h => by simp at h⟩
  · exact ⟨by simp, fun _ h => by simp at h⟩

end SqlPuzzle
