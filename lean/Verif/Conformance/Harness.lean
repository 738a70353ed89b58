import Verif.Model.Functions
import Verif.Model.Has

/-!
The repository's own tests as checks of the model.  The other files of this directory are generated
from `/repo/tests` by `tools/conformance.py`; each `example` says that the model passes one of the
tests.  These are tests of the model's fidelity on the inputs the authors of the library chose; no
property rests on them.
-/

namespace SqlPuzzle.Conformance
open SqlPuzzle

/-- `str.upper` on ASCII letters, which is all the tests need. -/
def upperA (s : Str) : Str := s.map fun c =>
  if 'a'.toNat ≤ c.toNat && c.toNat ≤ 'z'.toNat then Char.ofNat (c.toNat - 32) else c

/-- `str.lower` on ASCII letters. -/
def lowerA (s : Str) : Str := s.map fun c =>
  if 'A'.toNat ≤ c.toNat && c.toNat ≤ 'Z'.toNat then Char.ofNat (c.toNat + 32) else c

/-- `\w` on ASCII. -/
def wordA (c : Char) : Bool :=
  ('a'.toNat ≤ c.toNat && c.toNat ≤ 'z'.toNat) || ('A'.toNat ≤ c.toNat && c.toNat ≤ 'Z'.toNat) ||
  ('0'.toNat ≤ c.toNat && c.toNat ≤ '9'.toNat) || c == '_'

/-- The context of a test. -/
def ctx (b : Backend) : Ctx := ⟨b, ⟨upperA, lowerA, wordA, fun _ => [], fun _ => []⟩⟩

/-- A call of which the test expects no exception. -/
def call {σ : Type} (u : Upd σ) : R σ :=
  match u.2 with
  | none => .ok u.1
  | some e => .error e

/-- `with pytest.raises(...)`. -/
def raises (p : Err → Bool) (r : R Unit) : Bool :=
  match r with
  | .ok _ => false
  | .error e => p e

/-- `sub in text`. -/
def occurs (sub : Str) : Str → Bool
  | [] => sub.isEmpty
  | c :: cs => sub.isPrefixOf (c :: cs) || occurs sub cs

/-- All assertions of the test hold and no exception escapes from it. -/
def passes (b : Backend) (t : Ctx → Sem → R Bool) : Prop :=
  t (ctx b) (sem (ctx b) 40) = .ok true

instance (b : Backend) (t : Ctx → Sem → R Bool) : Decidable (passes b t) :=
  inferInstanceAs (Decidable (_ = _))

end SqlPuzzle.Conformance
