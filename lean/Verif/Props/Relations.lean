import Verif.Model.Queries
import Verif.Proofs.Basic
import Verif.Spec.Arguments

/-!
C13–C14: relations.
-/

namespace SqlPuzzle

open Spec

/-! ### C14 -/

/-- C14. A relation built from one argument stores the argument itself, iff it is an SQL object or
has a documented type, and raises `InvalidArgumentException` otherwise.  All relations except `IN`
and `NOT_IN`. -/
theorem C14_relation_types (k : Rel) (hk : k ≠ .in_ ∧ k ≠ .notIn) (v : Obj) :
    mkRel k [v] =
      if v.isSql || relationAccepts k v then .ok (.rel k v) else .error .invalidArgument := by
  obtain ⟨h1, h2⟩ := hk
  cases k <;> first | contradiction | (cases v <;> rfl)

/-- C14. `IN` and `NOT_IN` accept every iterable and copy its items into a list; other values must
be SQL objects. -/
theorem C14_in_types (k : Rel) (hk : k = .in_ ∨ k = .notIn) (v : Obj) :
    (∀ xs, v.iterate = some xs → mkRel k [v] = .ok (.rel k (.list xs))) ∧
    (v.iterate = none → mkRel k [v] =
      if v.isSql then .ok (.rel k v) else .error .invalidArgument) ∧
    ((∃ xs, v.iterate = some xs) ↔ isIterable v = true) := by
  rcases hk with rfl | rfl <;> cases v <;> simp [Obj.iterate, mkRel, relValue, Rel.isIn, isIterable,
    Rel.allowedTypes, Obj.allowed, Obj.isInst, Obj.isSql, Obj.isBool, bind, Except.bind]

/-- C14. `IN(a, b, …)` is `IN([a, b, …])`; the other relations take exactly one argument. -/
theorem C14_in_args (k : Rel) (vs : List Obj) (hv : vs.length ≠ 1) :
    mkRel k vs = if k = .in_ ∨ k = .notIn then mkRel k [.list vs] else .error .typeError := by
  match vs, hv with
  | [], _ => cases k <;> rfl
  | _ :: _ :: _, _ => cases k <;> rfl

/-- C14. Booleans are refused by the ordering and pattern relations although `bool` is a subclass
of `int`. -/
theorem C14_bool (k : Rel) (hk : k ∈ [Rel.gt, .ge, .lt, .le, .like, .notLike, .regexp]) (b : Bool) :
    mkRel k [.bool b] = .error .invalidArgument := by
  cases k <;> first | rfl | simp at hk

example : mkRel .gt [.int 3] = .ok (.rel .gt (.int 3)) := rfl
example : mkRel .gt [.bytes []] = .error .invalidArgument := rfl
example : mkRel .in_ [.str L!"ab"] = .ok (.rel .in_ (.list [.str L!"a", .str L!"b"])) := rfl

/-! ### C13 -/

/-- `Q(column, value)` after parsing: the one condition it holds. -/
theorem mkConds_pair (cx : Ctx) (S : Sem) (c : Str) (v : Obj) :
    mkConds cx S { pos := [.str c, v] } =
      match mkCond false (.str c) v with
      | .ok p => .ok (.conds [p])
      | .error e => .error e := by
  have h1 : condsWhere cx S false [] { pos := [.str c, v] } =
      withR [] (parseArgs S pairOpts { pos := [.str c, v] }) fun bs =>
        forUpd (fun ps b => withR ps (mkCond false (pairOf b).1 (pairOf b).2) fun c =>
          appendUnique (condEq cx S) ps c) [] bs := by
    simp [condsWhere, kwSelf, customArg, Obj.isConds]
  have h2 : parseArgs S pairOpts { pos := [.str c, v] } = .ok [[.str c, v]] := by
    cases v <;> rfl
  unfold mkConds
  rw [h1, h2]
  simp only [withR, forUpd, pairOf]
  cases mkCond false (.str c) v with
  | error e => rfl
  | ok p => rfl

/-- C13. `Q(column, value)` with a bare value or a value wrapped by `V()` or `R()` uses `IN` for
lists, tuples, ranges and generators, `IS` for `None` and `=` for everything else; an explicit
relation is kept with its value. -/
theorem C13_default_relation (cx : Ctx) (S : Sem) (c : Str) (v q : Obj)
    (h : mkConds cx S { pos := [.str c, v] } = .ok q) :
    (∃ k w, v = .rel k w ∧ q = .conds [.cond false (.str c) k w]) ∨
    ((∀ k w, v ≠ .rel k w) ∧
      ∃ w, q = .conds [.cond false (.str c) (relationFor (unwrap v)) w] ∧
        (relationFor (unwrap v) = .in_ ∧ (∃ xs, v.iterate = some xs ∧ w = .list xs) ∨
         (v.iterate = none ∨ relationFor (unwrap v) ≠ .in_) ∧ w = v)) := by
  rw [mkConds_pair] at h
  cases hc : mkCond false (.str c) v with
  | error e => rw [hc] at h; cases h
  | ok p =>
    rw [hc] at h
    injection h with h
    subst h
    have hcol : checkType [.str] (.str c) = .ok () := rfl
    unfold mkCond at hc
    rw [hcol, ok_bind, bind_ok] at hc
    obtain ⟨⟨k, w⟩, h1, h2⟩ := hc
    injection h2 with h2
    subst h2
    unfold condValue at h1
    rw [bind_ok] at h1
    obtain ⟨_, h0, h1⟩ := h1
    cases v with
    | rel k' w' =>
      injection h1 with h1
      injection h1 with h1 h2
      subst h1; subst h2
      exact .inl ⟨_, _, rfl, rfl⟩
    | sqlValue u =>
      right
      refine ⟨fun k w h => (nomatch h), ?_⟩
      cases u <;> cases h1 <;> exact ⟨_, rfl, .inr ⟨.inl rfl, rfl⟩⟩
    | sqlRef u =>
      right
      refine ⟨fun k w h => (nomatch h), ?_⟩
      cases u <;> cases h1 <;> exact ⟨_, rfl, .inr ⟨.inl rfl, rfl⟩⟩
    | list xs => cases h1; exact .inr ⟨fun k w h => (nomatch h), _, rfl, .inl ⟨rfl, _, rfl, rfl⟩⟩
    | tuple xs => cases h1; exact .inr ⟨fun k w h => (nomatch h), _, rfl, .inl ⟨rfl, _, rfl, rfl⟩⟩
    | range xs => cases h1; exact .inr ⟨fun k w h => (nomatch h), _, rfl, .inl ⟨rfl, _, rfl, rfl⟩⟩
    | gen xs => cases h1; exact .inr ⟨fun k w h => (nomatch h), _, rfl, .inl ⟨rfl, _, rfl, rfl⟩⟩
    | _ =>
      first
        | (cases h0; done)
        | (cases h1
           refine .inr ⟨fun k w h => (nomatch h), _, rfl, .inr ⟨.inr ?_, rfl⟩⟩
           decide)
        | (cases h1
           refine .inr ⟨fun k w h => (nomatch h), _, rfl, .inr ⟨.inr ?_, rfl⟩⟩
           simp [relationFor, unwrap, isSequence, Obj.isNone])

/-- C13. Which calls `Q(column, value)` succeed: the value is an SQL object or has a documented
type, and a `None` wrapped by nothing is fine. -/
theorem C13_accepts (cx : Ctx) (S : Sem) (c : Str) (v : Obj) :
    (∃ q, mkConds cx S { pos := [.str c, v] } = .ok q) ↔ Fit .condValue v := by
  rw [mkConds_pair]
  cases v with
  | sqlValue u => cases u <;> exact ⟨fun _ => .inl rfl, fun _ => ⟨_, rfl⟩⟩
  | sqlRef u => cases u <;> exact ⟨fun _ => .inl rfl, fun _ => ⟨_, rfl⟩⟩
  | _ =>
    first
      | exact ⟨fun _ => .inl rfl, fun _ => ⟨_, rfl⟩⟩
      | exact ⟨fun _ => .inr rfl, fun _ => ⟨_, rfl⟩⟩
      | (constructor
         · rintro ⟨q, h⟩; cases h
         · rintro (h | h) <;> cases h)

/-- C13. The text of the condition: column, operator, value. `IN` with `None` among the items is
C12. -/
theorem C13_text (cx : Ctx) (n : Nat) (c : Str) (v q : Obj) (hs : v.isSql = false)
    (h : mkConds cx (sem cx n) { pos := [.str c, v] } = .ok q)
    (hn : ∀ xs, v.iterate = some xs → v.isStr = false → xs.any Obj.isNone = false) :
    ∃ a, (sem cx (n + 1)).str (.sqlRef (.str c)) = .ok a ∧
      (sem cx (n + 1)).str q =
        ((sem cx (n + 1)).str (.sqlValue (listed v))).map fun t =>
          a ++ ' ' :: wordOfRelation (relationFor v) ++ ' ' :: t := by
  refine ⟨_, rfl, ?_⟩
  have fmt : ∀ (k : Rel) (w : Obj),
      ((sem cx (n + 1)).str (.sqlValue w)).map (fun t =>
          reference cx.backend.quote c ++ ' ' :: wordOfRelation k ++ ' ' :: t) =
        (do let t ← sqlValueText cx (sem cx n) w
            .ok (reference cx.backend.quote c ++ ' ' :: k.text ++ ' ' :: t)) := by
    intro k w
    show (sqlValueText cx (sem cx n) w).map _ = _
    have : wordOfRelation k = k.text := by cases k <;> rfl
    rw [this]
    cases sqlValueText cx (sem cx n) w <;> rfl
  rw [fmt]
  have filt : ∀ xs : List Obj, xs.any Obj.isNone = false →
      xs.filter (fun x => !x.isNone) = xs := by
    intro xs hx
    rw [List.filter_eq_self]
    intro a ha
    cases hb : a.isNone
    · rfl
    · exfalso
      have : xs.any Obj.isNone = true := List.any_eq_true.mpr ⟨a, ha, hb⟩
      rw [hx] at this; cases this
  have one : ∀ p : Cond, (sem cx (n + 1)).str (.conds [p]) = condText cx (sem cx n) p := by
    intro p
    show condsText cx (sem cx n) [] [p] = _
    simp only [condsText, partsText, List.isEmpty_cons, Bool.false_eq_true, if_false, mapR_cons,
      mapR_nil]
    cases condText cx (sem cx n) p <;> rfl
  have inl : ∀ xs : List Obj, xs.any Obj.isNone = false →
      condText cx (sem cx n) (.cond false (.str c) .in_ (.list xs)) =
        (do let t ← sqlValueText cx (sem cx n) (.list xs)
            .ok (reference cx.backend.quote c ++ ' ' :: Rel.in_.text ++ ' ' :: t)) := by
    intro xs hx
    simp only [condText, formatCond, inCondText, Obj.iterate, hx, filt xs hx, Bool.false_eq_true,
      if_false]
    rfl
  rw [mkConds_pair] at h
  cases v with
  | list xs => cases h; rw [one]; exact inl xs (hn xs rfl rfl)
  | tuple xs => cases h; rw [one]; exact inl xs (hn xs rfl rfl)
  | gen xs => cases h; rw [one]; exact inl xs (hn xs rfl rfl)
  | range xs => cases h; rw [one]; exact inl _ (hn _ rfl rfl)
  | _ =>
    first
      | (cases hs; done)
      | (cases h; done)
      | (cases h; rw [one]; rfl)

/-- C13. An explicit relation is written with its operator. `IN` and `NOT_IN` are C12. -/
theorem C13_relation_text (cx : Ctx) (n : Nat) (c : Str) (k : Rel) (hk : k ≠ .in_ ∧ k ≠ .notIn)
    (v r q : Obj) (hr : mkRel k [v] = .ok r)
    (h : mkConds cx (sem cx n) { pos := [.str c, r] } = .ok q) :
    ∃ a, (sem cx (n + 1)).str (.sqlRef (.str c)) = .ok a ∧
      (sem cx (n + 1)).str q = ((sem cx (n + 1)).str (.sqlValue v)).map fun t =>
        a ++ ' ' :: wordOfRelation k ++ ' ' :: t := by
  refine ⟨_, rfl, ?_⟩
  rw [C14_relation_types k hk] at hr
  split at hr
  · cases hr
    rw [mkConds_pair] at h
    cases h
    show condsText cx (sem cx n) [] [.cond false (.str c) k v] = _
    have e : condText cx (sem cx n) (.cond false (.str c) k v) =
        plainCondText cx (sem cx n) (.str c) k (sqlValueText cx (sem cx n)) v := by
      obtain ⟨h1, h2⟩ := hk
      cases k <;> first | contradiction | rfl
    have hw : wordOfRelation k = k.text := by cases k <;> rfl
    simp only [condsText, partsText, List.isEmpty_cons, Bool.false_eq_true, if_false, mapR_cons,
      mapR_nil, e, hw]
    show _ = (sqlValueText cx (sem cx n) v).map _
    unfold plainCondText
    cases sqlValueText cx (sem cx n) v <;> rfl
  · cases hr

private def cxS : Ctx := ⟨.sql, ⟨id, id, fun _ => true, fun _ => [], fun _ => []⟩⟩

example : (mkConds cxS (sem cxS 3) { pos := [.str L!"a", .list [.int 1, .int 2]] } >>=
    (sem cxS 4).str) = .ok L!"\"a\" IN (1, 2)" := by decide
example : (mkConds cxS (sem cxS 3) { pos := [.str L!"a", .none] } >>=
    (sem cxS 4).str) = .ok L!"\"a\" IS NULL" := by decide
example : (mkConds cxS (sem cxS 3) { pos := [.str L!"a", .sqlValue (.list [.int 1])] } >>=
    (sem cxS 4).str) = .ok L!"\"a\" IN (1)" := by decide
example : (mkConds cxS (sem cxS 3) { pos := [.str L!"a", .rel .gt (.int 1)] } >>=
    (sem cxS 4).str) = .ok L!"\"a\" > 1" := by decide

end SqlPuzzle
