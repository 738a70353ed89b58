import Verif.Proofs.NestedText
import Verif.Proofs.Mono
import Verif.Proofs.SafeMono

/-!
C42: a query used as a name or a value inside a statement stands in its own parentheses.
-/

namespace SqlPuzzle

open Spec

theorem inTable_mono {cx : Ctx} {S S' : Sem} (hs : S.Le S') {b : Bool} {p : Obj} {t : Table}
    (h : inTable (Differ cx S) b p t) : inTable (Differ cx S') b p t := by
  rcases h with h | ⟨hd, h⟩
  · exact Or.inl h
  · exact Or.inr ⟨hd.imp fun e => (le_sameJoin hs _ _).ok e, h⟩

theorem inObj_mono {cx : Ctx} {S S' : Sem} (hs : S.Le S') {b : Bool} {p : Obj} {o : Obj}
    (h : inObj (Differ cx S) b p o) : inObj (Differ cx S') b p o := by
  have ht : ∀ ts : List Table, (∃ t ∈ ts, inTable (Differ cx S) b p t) → ∃ t ∈ ts, inTable (Differ cx S') b p t :=
    fun ts ⟨t, h1, h2⟩ => ⟨t, h1, inTable_mono hs h2⟩
  cases o
  case select q => exact Or.imp id (Or.imp (ht _) id) h
  case insert q => exact Or.imp (ht _) id h
  case update q => exact Or.imp (ht _) id h
  case delete q => exact Or.imp (ht _) (Or.imp (ht _) id) h
  all_goals exact h

theorem Spec.Nested.mono {cx : Ctx} {p : Obj} : ∀ {m n : Nat} {o : Obj}, m ≤ n → Nested cx p m o →
    Nested cx p n o
  | 0, _, _, _, h => h.elim
  | m + 1, 0, _, hn, _ => absurd hn (by omega)
  | m + 1, n + 1, o, hn, h => by
    have hs := sem_le cx (Nat.le_of_succ_le_succ hn)
    rw [Nested, ← differ_eq] at h ⊢
    rcases h with h | ⟨b, q, h1, h2, h3⟩
    · exact Or.inl (inObj_mono hs h)
    · exact Or.inr ⟨b, q, h1, inObj_mono hs h2, h3.mono (Nat.le_of_succ_le_succ hn)⟩

/-- C42. A select or union `p` used as a column, alias, table, joined table, operand of a condition,
assigned value, item of a list or argument of a function, at any depth inside `o`, appears in the text
of `o` as its own text in a pair of parentheses. -/
theorem C42_parenthesised {cx : Ctx} {p o : Obj} {k n : Nat} {t : Str} (hp : isQuery p = true)
    (h : Nested cx p k o) (e : (sem cx n).str o = .ok t) :
    ∃ m u, (sem cx m).str p = .ok u ∧ ('(' :: (u ++ [')'])) <:+: t :=
  nested_text hp (h.mono (Nat.le_max_left k n)) (((sem_le cx (Nat.le_max_right k n)).str o).ok e)

private def cx0 : Ctx := ⟨.sql, ⟨id, id, fun _ => true, fun _ => [], fun _ => []⟩⟩

private def inner : Obj := .select { tables := [⟨.str L!"t", .none, []⟩] }

private def middle : Obj := .select
  { tables := [⟨.str L!"u", .none, []⟩], where_ := [.cond false (.str L!"id") .eq inner] }

private def outer : Obj := .select
  { columns := [⟨.str L!"a", .none⟩], tables := [⟨middle, .str L!"m", []⟩] }

example : Nested cx0 inner 2 outer :=
  Or.inr ⟨true, middle, rfl, Or.inr (Or.inl ⟨_, List.mem_singleton_self _, Or.inl (Or.inl ⟨rfl, rfl⟩)⟩),
    Or.inl (Or.inr (Or.inr (Or.inl ⟨_, List.mem_singleton_self _, Or.inr ⟨rfl, rfl, rfl⟩⟩)))⟩

example : (sem cx0 5).str outer =
    .ok L!"SELECT \"a\" FROM (SELECT * FROM \"u\" WHERE \"id\" = (SELECT * FROM \"t\")) AS \"m\"" := by
  decide +kernel

/-- C42, what does not hold: a select given to `where` as a whole condition is written without
parentheses. -/
theorem C42_bare_condition :
    ∃ cx o t, (sem cx 5).str (.select { where_ := [.item (.select o)] }) = .ok t ∧
      t = L!"SELECT * WHERE SELECT *" :=
  ⟨cx0, {}, _, rfl, by decide +kernel⟩

end SqlPuzzle
