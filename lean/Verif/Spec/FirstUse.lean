/-!
Lists without repetition in the order of first use, and the last value written under a key.
-/

namespace SqlPuzzle.Spec

/-- `kept` lists every item of `given` once, in the order of first use. -/
inductive FirstUses {α : Type} : (given kept : List α) → Prop
  | nil : FirstUses [] []
  | old {given kept : List α} (x : α) : FirstUses given kept → x ∈ kept →
      FirstUses (given ++ [x]) kept
  | new {given kept : List α} (x : α) : FirstUses given kept → x ∉ kept →
      FirstUses (given ++ [x]) (kept ++ [x])

/-- `LastValue uses k v`: the last use of key `k` had value `v`. -/
inductive LastValue {κ ν : Type} : (uses : List (κ × ν)) → κ → ν → Prop
  | here (uses : List (κ × ν)) (k : κ) (v : ν) : LastValue (uses ++ [(k, v)]) k v
  | there {uses : List (κ × ν)} {k : κ} {v : ν} (k' : κ) (v' : ν) : LastValue uses k v → k' ≠ k →
      LastValue (uses ++ [(k', v')]) k v

end SqlPuzzle.Spec
