import Verif.Proofs.BackendFacts

/-!
C49: what of the text depends on the backend.
-/

namespace SqlPuzzle
open Spec

namespace Spec

/-- The object is neither a boolean nor a bytes value. -/
def NotBoolBytes : Obj → Prop
  | .bool _ | .bytes _ => False
  | _ => True

/-- No boolean and no bytes value occurs in the object, at any depth. -/
def WithoutBoolBytes (o : Obj) : Prop := Throughout NotBoolBytes o

end Spec

/-- An object without boolean and bytes values renders to the same text (or the same exception) on
any two backends whose identifier quote is the same, and two such objects compare alike. -/
theorem C49_same_quote (env : Env) (b b' : Backend) (hq : b.quote = b'.quote) (n : Nat) (o : Obj)
    (ho : WithoutBoolBytes o) : (sem ⟨b, env⟩ n).str o = (sem ⟨b', env⟩ n).str o := by
  refine (sem_same (cx := ⟨b, env⟩) (cx' := ⟨b', env⟩) (D := WithoutBoolBytes) ⟨hq, rfl, ?_, ?_, ?_, ?_, ?_, ?_, ?_, ?_, ?_⟩ n).str o ho
  · rintro o ⟨_, h⟩; exact h
  · intro v hv; exact ⟨trivial, by simpa [parts, WithoutBoolBytes] using hv⟩
  · intro xs hx; exact ⟨trivial, hx⟩
  · intro ps hx; exact ⟨trivial, hx⟩
  · intro s; exact ⟨trivial, by simp [parts]⟩
  · intro s; exact ⟨trivial, by simp [parts]⟩
  · exact ⟨trivial, by simp [parts]⟩
  · rintro b ⟨h, _⟩; exact h.elim
  · rintro b ⟨h, _⟩; exact h.elim

/-- Every object renders alike on the backends `sql` and `sqlite`, and any two objects compare
alike. -/
theorem C49_sql_sqlite (env : Env) (n : Nat) :
    (∀ o, (sem ⟨.sql, env⟩ n).str o = (sem ⟨.sqlite, env⟩ n).str o) ∧
    ∀ a b, (sem ⟨.sql, env⟩ n).eq a b = (sem ⟨.sqlite, env⟩ n).eq a b := by
  have h := sem_same (cx := ⟨.sql, env⟩) (cx' := ⟨.sqlite, env⟩) (D := fun _ => True)
    ⟨rfl, rfl, fun _ _ _ _ => trivial, fun _ _ => trivial, fun _ _ => trivial, fun _ _ => trivial,
      fun _ => trivial, fun _ => trivial, trivial, fun _ _ => rfl, fun _ _ => rfl⟩ n
  exact ⟨fun o => h.str o trivial, fun a b => h.eq a b trivial trivial⟩

/-- A select with a join, a condition on a list and a nested select. -/
private def sample : Obj := .select
  { columns := [⟨.str L!"a", .none⟩]
    tables := [⟨.str L!"t", .none, [⟨.left, .str L!"u", .str L!"v", [.cond true (.str L!"t.i") .eq (.str L!"v.i")]⟩]⟩]
    where_ := [.cond false (.str L!"x") .in_ (.list [.int 1, .str L!"o'k"]),
      .item (.exists_ (.select { columns := [], tables := [⟨.str L!"w", .none, []⟩] }))] }

private theorem sample_free : WithoutBoolBytes sample := by
  unfold WithoutBoolBytes sample
  repeat' (first
    | (refine ⟨trivial, ?_⟩
       simp only [parts, selectParts, tableParts, joinParts, condParts, colParts,
         outfileParts, List.flatMap_cons, List.flatMap_nil, List.append_nil, List.nil_append,
         List.cons_append, List.forall_mem_cons, Option.toList_none])
    | (refine ⟨?_, ?_⟩)
    | (intro x hx; cases hx))

private def env0 : Env := ⟨id, id, fun _ => true, fun _ => [], fun _ => []⟩

/-- The hypotheses of `C49_same_quote` are met by a statement with a join and a subquery. -/
example : WithoutBoolBytes sample ∧ Backend.quote .sql = Backend.quote .postgresql ∧
    (sem ⟨.postgresql, env0⟩ 9).str sample = .ok
      L!"SELECT \"a\" FROM \"t\" LEFT JOIN \"u\" AS \"v\" ON \"t\".\"i\" = \"v\".\"i\" WHERE \"x\" IN (1, 'o''k') AND EXISTS(SELECT * FROM \"w\")" :=
  ⟨sample_free, rfl, by decide +kernel⟩

/-- Both restrictions are needed: a boolean and a bytes value are written differently on `sql` and
`postgresql`, and a name on `sql` and `mysql`. -/
theorem C49_restrictions :
    (sem ⟨.sql, env0⟩ 2).str (.sqlValue (.bool true)) ≠
      (sem ⟨.postgresql, env0⟩ 2).str (.sqlValue (.bool true)) ∧
    (sem ⟨.sql, env0⟩ 2).str (.sqlValue (.bytes [1])) ≠
      (sem ⟨.postgresql, env0⟩ 2).str (.sqlValue (.bytes [1])) ∧
    (sem ⟨.sql, env0⟩ 2).str (.sqlRef (.str L!"a")) ≠
      (sem ⟨.mysql, env0⟩ 2).str (.sqlRef (.str L!"a")) := by
  refine ⟨?_, ?_, ?_⟩ <;> intro h <;> revert h <;> decide

end SqlPuzzle
