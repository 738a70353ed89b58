import Verif.Spec.Entries
import Verif.Spec.Arguments
import Verif.Model.Queries

/-!
The same entries, given in one call or in several.
-/

namespace SqlPuzzle.Spec

/-- Calls made one after another by a program that stops at the first call that raises: the object
afterwards, and what was raised. -/
inductive OneByOne {σ ω : Type} (step : σ → ω → Upd σ) : σ → List ω → σ → Option Err → Prop
  | done (s : σ) : OneByOne step s [] s none
  | next {s t u : σ} {o : ω} {os : List ω} {r : Option Err} :
      step s o = (t, none) → OneByOne step t os u r → OneByOne step s (o :: os) u r
  | raise {s t : σ} {o : ω} (os : List ω) {e : Err} :
      step s o = (t, some e) → OneByOne step s (o :: os) t (some e)

/-- `f(a)` gives the pairs that the calls `f(b)`, …, one for each `b`, give together. -/
def PairsInCalls (a : Args) (bs : List Args) : Prop :=
  ∃ pss, GivesPairs a pss.flatten ∧ List.Forall₂ GivesPairs bs pss

/-- The same for methods that take names. -/
def NamesInCalls (a : Args) (bs : List Args) : Prop :=
  ∃ pss, GivesNames a pss.flatten ∧ List.Forall₂ GivesNames bs pss

/-- The call does not give `Q` objects only. -/
def NotOnlyQ (a : Args) : Prop := a.pos ≠ [] → ∃ x ∈ a.pos, ¬IsCondition x

/-- No argument counts as false (those are dropped by methods that take tables: C18). -/
def AllTrue (a : Args) : Prop := ∀ x ∈ a.pos, x.truthy = true

/-- A call on a `Select`, and calls that give the same entries in the same order.  `on` has to be
called at least once to raise when there is no join. -/
inductive SplitSelect : SelectOp → List SelectOp → Prop
  | where_ {a bs} : PairsInCalls a bs → (∀ b ∈ a :: bs, NotOnlyQ b) →
      SplitSelect (.where_ a) (bs.map .where_)
  | having {a bs} : PairsInCalls a bs → (∀ b ∈ a :: bs, NotOnlyQ b) →
      SplitSelect (.having a) (bs.map .having)
  | on {a bs} : PairsInCalls a bs → (∀ b ∈ a :: bs, NotOnlyQ b) → bs ≠ [] →
      SplitSelect (.on a) (bs.map .on)
  | columns {a bs} : NamesInCalls a bs → SplitSelect (.columns a) (bs.map .columns)
  | groupBy {a bs} : NamesInCalls a bs → SplitSelect (.groupBy a) (bs.map .groupBy)
  | orderBy {a bs} : NamesInCalls a bs → SplitSelect (.orderBy a) (bs.map .orderBy)
  | from_ {a bs} : NamesInCalls a bs → (∀ b ∈ a :: bs, AllTrue b) →
      SplitSelect (.from_ a) (bs.map .from_)
  | fromTable {t al b} : GivesNames b [(t, al)] → AllTrue b →
      SplitSelect (.fromTable t al) [.from_ b]

/-- The same for an `Update`. -/
inductive SplitUpdate : UpdateOp → List UpdateOp → Prop
  | set {a bs} : PairsInCalls a bs → SplitUpdate (.set a) (bs.map .set)
  | where_ {a bs} : PairsInCalls a bs → (∀ b ∈ a :: bs, NotOnlyQ b) →
      SplitUpdate (.where_ a) (bs.map .where_)
  | on {a bs} : PairsInCalls a bs → (∀ b ∈ a :: bs, NotOnlyQ b) → bs ≠ [] →
      SplitUpdate (.on a) (bs.map .on)

/-- The same for a `Delete`. -/
inductive SplitDelete : DeleteOp → List DeleteOp → Prop
  | delete {ts tss} : NamesInCalls { pos := ts } (tss.map fun us => { pos := us }) →
      (∀ us ∈ ts :: tss, AllTrue { pos := us }) → SplitDelete (.delete ts) (tss.map .delete)
  | from_ {a bs} : NamesInCalls a bs → (∀ b ∈ a :: bs, AllTrue b) →
      SplitDelete (.from_ a) (bs.map .from_)
  | fromTable {t al b} : GivesNames b [(t, al)] → AllTrue b →
      SplitDelete (.fromTable t al) [.from_ b]
  | where_ {a bs} : PairsInCalls a bs → (∀ b ∈ a :: bs, NotOnlyQ b) →
      SplitDelete (.where_ a) (bs.map .where_)
  | on {a bs} : PairsInCalls a bs → (∀ b ∈ a :: bs, NotOnlyQ b) → bs ≠ [] →
      SplitDelete (.on a) (bs.map .on)

/-- An object made by a constructor that may raise, and the call that makes it. -/
inductive SameStart {σ : Type} : R σ → Upd σ → Prop
  | ok (s : σ) : SameStart (.ok s) (s, none)
  | raise (s : σ) (e : Err) : SameStart (.error e) (s, some e)

end SqlPuzzle.Spec
