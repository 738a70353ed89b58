import Verif.Model.Has
import Verif.Model.Queries

/-!
A program that builds a query and changes the configured backend on the way.
-/

namespace SqlPuzzle

/-- A statement of the program: `sqlpuzzle.configure(name)` (`__init__.py:54-68`) or a method call on the
query. -/
inductive Command (ω : Type) where
  | configure (name : Str)
  | call (op : ω)

/-- The configured backend, the query, and for each call on the query so far the exception it raised. -/
structure Session (σ : Type) where
  backend : Backend
  query : σ
  raised : List (Option Err) := []

/-- One statement.  The program catches all exceptions; what `configure` itself raises is not recorded.
Simplified: one query; the backend is the module variable of `_backends/__init__.py:16-35`. -/
def Session.run {σ ω : Type} (env : Env) (n : Nat) (step : Ctx → Sem → σ → ω → Upd σ)
    (s : Session σ) : Command ω → Session σ
  | .configure name => { s with backend := (setBackend env s.backend name).1 }
  | .call op =>
    let cx : Ctx := ⟨s.backend, env⟩
    let u := step cx (sem cx n) s.query op
    { s with query := u.1, raised := s.raised ++ [u.2] }

/-- A whole program. -/
def runProgram {σ ω : Type} (env : Env) (n : Nat) (step : Ctx → Sem → σ → ω → Upd σ)
    (s : Session σ) (cs : List (Command ω)) : Session σ :=
  cs.foldl (Session.run env n step) s

end SqlPuzzle
