import Verif.Spec.Entries
import Verif.Spec.Arguments
import Verif.Proofs.Parsing

/-!
The parser returns exactly the pairs and names that `Spec.GivesPairs` and `Spec.GivesNames` read
off the arguments.
-/

namespace SqlPuzzle

open Spec

/-- Rows of two. -/
def rows2 (ps : List (Obj × Obj)) : List (List Obj) := ps.map fun p => [p.1, p.2]

theorem before_iff {a b : Str} : Before a b ↔ strLe a b = true ∧ a ≠ b := by
  constructor
  · intro h
    induction h with
    | nil b bs => exact ⟨rfl, by simp⟩
    | @here a b as bs h =>
      have hne : a ≠ b := by rintro rfl; omega
      exact ⟨by rw [strLe, if_neg hne]; simpa using h, by simp [hne]⟩
    | there a h ih => exact ⟨by rw [strLe, if_pos rfl]; exact ih.1, by simp [ih.2]⟩
  · rintro ⟨h, hn⟩
    induction a generalizing b with
    | nil =>
      cases b with
      | nil => exact absurd rfl hn
      | cons y ys => exact .nil y ys
    | cons x xs ih =>
      cases b with
      | nil => simp [strLe] at h
      | cons y ys =>
        rw [strLe] at h
        split at h
        · rename_i e
          subst e
          exact .there x (ih h (by simpa using hn))
        · exact .here _ _ (by simpa using h)

theorem ascending_nodup {kw : List (Str × Obj)} {ps : List (Obj × Obj)} (h : Ascending kw ps) :
    (kw.map Prod.fst).Nodup := by
  obtain ⟨s, hp, hs, _⟩ := h
  rw [← (hp.map Prod.fst).nodup_iff, List.Nodup, List.pairwise_map]
  exact hs.imp fun h => (before_iff.mp h).2

theorem ascending_sort {kw : List (Str × Obj)} {ps : List (Obj × Obj)} (h : Ascending kw ps)
    (S : Sem) : sortItems S (kw.map fun p => ((.str p.1 : Obj), p.2)) = .ok ps := by
  have hn := ascending_nodup h
  obtain ⟨s, hp, hs, rfl⟩ := h
  rw [sortItems_str S hn, sortBy_key_perm hp.symm hn,
    sortBy_sorted (hs.imp fun h => (before_iff.mp h).1)]

theorem ascending_exists {kw : List (Str × Obj)} (hn : (kw.map Prod.fst).Nodup) :
    ∃ ps, Ascending kw ps := by
  refine ⟨_, sortBy (fun a b => strLe a.1 b.1) kw, sortBy_perm _ _, ?_, rfl⟩
  have h1 := sortBy_pairwise (le := fun a b : Str × Obj => strLe a.1 b.1) linear_key kw
  have h2 : ((sortBy (fun a b : Str × Obj => strLe a.1 b.1) kw).map Prod.fst).Nodup :=
    ((sortBy_perm (fun a b : Str × Obj => strLe a.1 b.1) kw).map Prod.fst).nodup_iff.mpr hn
  rw [List.Nodup, List.pairwise_map] at h2
  exact h1.imp₂ (fun _ _ h1 h2 => before_iff.mpr ⟨h1, h2⟩) h2

theorem ascending_parse {kw : List (Str × Obj)} {ps : List (Obj × Obj)} (h : Ascending kw ps)
    (S : Sem) {o : ParseOpts} (ho : o.maxItems = 2) :
    parseDict S o (kw.map fun p => ((.str p.1 : Obj), p.2)) = .ok (rows2 ps) := by
  unfold parseDict
  rw [ascending_sort h S, ok_bind, mapR_ok_iff, rows2, List.forall₂_map_right_iff]
  refine List.forall₂_same.mpr fun p _ => ?_
  unfold createBatch
  rw [if_neg (by rw [ho]; simp), ho]
  rfl

theorem isSeq_isListTuple {x : Obj} {xs : List Obj} (h : IsSeq x xs) : x.isListTuple = true := by
  cases h <;> rfl

theorem not_isSeq {x : Obj} : (∀ xs, ¬IsSeq x xs) ↔ x.isListTuple = false := by
  constructor
  · intro h
    cases x <;> first | rfl | exact absurd (IsSeq.list _) (h _) | exact absurd (IsSeq.tuple _) (h _)
  · intro h xs hx
    rw [isSeq_isListTuple hx] at h
    cases h

theorem isSeq_of {x : Obj} (h : x.isListTuple = true) : ∃ xs, IsSeq x xs := by
  cases x <;> first | exact ⟨_, .list _⟩ | exact ⟨_, .tuple _⟩ | cases h

theorem isSeq_item {x : Obj} {xs : List Obj} (h : IsSeq x xs) (o : ParseOpts) :
    parseListItem o x = createBatch o xs := by
  cases h <;> rfl

theorem isPair_iff {x : Obj} {p : Obj × Obj} {o : ParseOpts} (ho : o.maxItems = 2)
    (hx : x.isListTuple = true) : IsPair x p ↔ parseListItem o x = .ok [p.1, p.2] := by
  constructor
  · intro h
    cases h with
    | two h => rw [isSeq_item h, createBatch, ho]; rfl
    | one h => rw [isSeq_item h, createBatch, ho]; rfl
    | zero h => rw [isSeq_item h, createBatch, ho]; rfl
  · intro h
    obtain ⟨xs, hs⟩ := isSeq_of hx
    rw [isSeq_item hs] at h
    obtain ⟨h1, h2⟩ := createBatch_ok h
    rw [ho] at h1 h2
    obtain ⟨a, b⟩ := p
    match xs, h1, h2 with
    | [], _, h2 => cases h2; exact .zero hs
    | [_], _, h2 => cases h2; exact .one hs
    | [_, _], _, h2 => cases h2; exact .two hs

theorem isPair_isListTuple {x : Obj} {p : Obj × Obj} (h : IsPair x p) : x.isListTuple = true := by
  cases h <;> exact isSeq_isListTuple ‹_›

/-- A row the parser returns has two items. -/
theorem parseListItem_two {x : Obj} {b : List Obj} {o : ParseOpts} (ho : o.maxItems = 2)
    (h : parseListItem o x = .ok b) : ∃ p : Obj × Obj, b = [p.1, p.2] := by
  obtain ⟨h1, _⟩ := parseListItem_ok h
  obtain ⟨h2, h3⟩ := createBatch_ok h1
  rw [ho] at h2 h3
  generalize asTuple x = ys at h2 h3
  match ys, h2, h3 with
  | [], _, h3 => exact ⟨(.none, .none), h3⟩
  | [a], _, h3 => exact ⟨(a, .none), h3⟩
  | [a, c], _, h3 => exact ⟨(a, c), h3⟩

theorem pairItem_iff {x : Obj} {p : Obj × Obj} :
    IsPair x p ↔ parseListItem pairOpts x = .ok [p.1, p.2] := by
  cases hx : x.isListTuple with
  | true => exact isPair_iff rfl hx
  | false =>
    constructor
    · intro h; rw [isPair_isListTuple h] at hx; cases hx
    · intro h
      obtain ⟨_, h | ⟨xs, rfl | rfl⟩⟩ := parseListItem_ok h
      · cases h
      · cases hx
      · cases hx

theorem nameItem_iff {x : Obj} {p : Obj × Obj} :
    IsName x p ↔ parseListItem nameOpts x = .ok [p.1, p.2] := by
  cases hx : x.isListTuple with
  | true =>
    rw [← isPair_iff rfl hx]
    constructor
    · intro h
      cases h with
      | name h => rw [not_isSeq.mp h] at hx; cases hx
      | pair h => exact h
    · exact .pair
  | false =>
    have h1 : parseListItem nameOpts x = .ok [x, .none] := by
      cases x <;> first | rfl | cases hx
    rw [h1]
    constructor
    · intro h
      cases h with
      | name h => rfl
      | pair h => rw [isPair_isListTuple h] at hx; cases hx
    · intro h
      obtain ⟨a, b⟩ := p
      cases h
      exact .name (not_isSeq.mpr hx)

theorem list_iff {o : ParseOpts} {R : Obj → Obj × Obj → Prop} (ho : o.maxItems = 2)
    (hR : ∀ x p, R x p ↔ parseListItem o x = .ok [p.1, p.2]) {xs : List Obj}
    {bs : List (List Obj)} :
    parseList o xs = .ok bs ↔ ∃ ps, List.Forall₂ R xs ps ∧ bs = rows2 ps := by
  unfold parseList
  rw [mapR_ok_iff]
  constructor
  · intro h
    induction h with
    | nil => exact ⟨[], .nil, rfl⟩
    | cons h _ ih =>
      obtain ⟨p, rfl⟩ := parseListItem_two ho h
      obtain ⟨ps, h1, rfl⟩ := ih
      exact ⟨p :: ps, .cons ((hR _ _).mpr h) h1, rfl⟩
  · rintro ⟨ps, h, rfl⟩
    induction h with
    | nil => exact .nil
    | cons h _ ih => exact .cons ((hR _ _).mp h) ih

theorem pairs_iff {pos : List Obj} (hd : asDict pos = none) {bs : List (List Obj)} :
    parsePositional pairOpts pos = .ok bs ↔ ∃ ps, Pairs pos ps ∧ bs = rows2 ps := by
  have hl := fun xs bs => list_iff (o := pairOpts) rfl (fun x p => pairItem_iff) (xs := xs) (bs := bs)
  match pos, hd with
  | [], _ =>
    constructor
    · intro h; cases h; exact ⟨[], .nothing, rfl⟩
    · rintro ⟨ps, h, rfl⟩; cases h; rfl
  | [x], hd =>
    cases hx : x.isListTuple with
    | true =>
      obtain ⟨xs, hs⟩ := isSeq_of hx
      have h1 : parsePositional pairOpts [x] = parseList pairOpts xs := by cases hs <;> rfl
      rw [h1, hl]
      constructor
      · rintro ⟨ps, h, e⟩; exact ⟨ps, .listed hs h, e⟩
      · rintro ⟨ps, h, e⟩
        cases h with
        | listed hs' h =>
          refine ⟨ps, ?_, e⟩
          cases hs <;> cases hs' <;> exact h
    | false =>
      have h1 : parsePositional pairOpts [x] = .error .invalidArgument := by
        cases x <;> first | rfl | (simp [Obj.isListTuple] at hx; done) | (simp [asDict] at hd)
      rw [h1]
      constructor
      · intro h; cases h
      · rintro ⟨ps, h, _⟩
        cases h with
        | listed hs' h => rw [isSeq_isListTuple hs'] at hx; cases hx
  | [x, y], _ =>
    cases hx : x.isListTuple with
    | false =>
      have h1 : parsePositional pairOpts [x, y] = .ok [[x, y]] := by
        simp [parsePositional, isArgs, hx, createBatch, pairOpts]
      rw [h1]
      constructor
      · intro h; cases h; exact ⟨_, .direct y (not_isSeq.mpr hx), rfl⟩
      · rintro ⟨ps, h, rfl⟩
        cases h with
        | direct _ _ => rfl
        | several h =>
          cases h with
          | cons h _ => rw [isPair_isListTuple h] at hx; cases hx
    | true =>
      have h1 : parsePositional pairOpts [x, y] = parseList pairOpts [x, y] := by
        simp [parsePositional, isArgs, hx, asList, asDict]
      rw [h1, hl]
      constructor
      · rintro ⟨ps, h, e⟩; exact ⟨ps, .several h, e⟩
      · rintro ⟨ps, h, e⟩
        cases h with
        | direct _ h => rw [not_isSeq.mp h] at hx; cases hx
        | several h => exact ⟨ps, h, e⟩
  | x :: y :: z :: zs, _ =>
    have h1 : parsePositional pairOpts (x :: y :: z :: zs) = parseList pairOpts (x :: y :: z :: zs) := by
      simp [parsePositional, asList, asDict, pairOpts]
    rw [h1, hl]
    constructor
    · rintro ⟨ps, h, e⟩; exact ⟨ps, .several h, e⟩
    · rintro ⟨ps, h, e⟩
      cases h with
      | several h => exact ⟨ps, h, e⟩

theorem names_iff {pos : List Obj} (hd : asDict pos = none) {bs : List (List Obj)} :
    parsePositional nameOpts pos = .ok bs ↔ ∃ ps, List.Forall₂ IsName pos ps ∧ bs = rows2 ps := by
  have h1 : parsePositional nameOpts pos = parseList nameOpts pos := by
    unfold parsePositional
    simp only [nameOpts, Nat.lt_irrefl, decide_false, Bool.false_and, Bool.false_eq_true, if_false,
      hd, Option.isNone_none, Bool.true_and]
    cases pos <;> rfl
  rw [h1]
  exact list_iff rfl fun x p => nameItem_iff

theorem free_options {kw : List (Str × Obj)} (h : KwFree kw) :
    kw.any (fun p => p.1 == L!"options") = false := KwFree.options h

theorem free_self {kw : List (Str × Obj)} {pos : List Obj} (h : KwFree kw) :
    kwSelf { pos := pos, kw := kw } = false := KwFree.self h

theorem parseArgs_usual (S : Sem) {o : ParseOpts} (ho : o.Keyed) (hm : o.maxItems = 2)
    {pos : List Obj} {kw : List (Str × Obj)} {qs : List (Obj × Obj)} (hd : asDict pos = none)
    (hk : Ascending kw qs) (hf : kw.any (fun p => p.1 == L!"options") = false)
    {bs : List (List Obj)} :
    parseArgs S o { pos := pos, kw := kw } = .ok bs ↔
      ∃ xs, parsePositional o pos = .ok xs ∧ bs = xs ++ rows2 qs := by
  have h1 : parseKeyed S o { pos := pos, kw := kw } = .ok (rows2 qs) := by
    unfold parseKeyed
    simp only [hd, ho.dict, if_true]
    cases kw with
    | nil =>
      obtain ⟨s, hp, _, rfl⟩ := hk
      rw [hp.eq_nil]
      rfl
    | cons p ps => exact ascending_parse hk S hm
  unfold parseArgs
  simp only [hf, Bool.false_eq_true, if_false, ho.dict, ho.assert, h1, ok_bind]
  rw [bind_ok]
  constructor
  · rintro ⟨xs, h2, h3⟩; cases h3; exact ⟨xs, h2, rfl⟩
  · rintro ⟨xs, h2, rfl⟩; exact ⟨xs, h2, rfl⟩

theorem parseArgs_dict (S : Sem) {o : ParseOpts} (ho : o.Keyed) (hm : o.maxItems = 2)
    {items kw : List (Str × Obj)} {ps : List (Obj × Obj)} (hk : Ascending items ps)
    (hf : kw.any (fun p => p.1 == L!"options") = false) :
    parseArgs S o { pos := [dictOf items], kw := kw } = .ok (rows2 ps) := by
  have h0 := parse_dict S ho (items.map fun p => ((.str p.1 : Obj), p.2))
  rw [ascending_parse hk S hm] at h0
  rw [← h0]
  unfold parseArgs
  rw [hf]
  rfl

/-- Calls that give pairs are parsed to those pairs. -/
theorem givesPairs_parse {a : Args} {ps : List (Obj × Obj)} (h : GivesPairs a ps) (S : Sem) :
    parseArgs S pairOpts a = .ok (rows2 ps) ∧ kwSelf a = false := by
  cases h with
  | @usual pos kw ps qs h1 h2 h3 =>
    have hd : asDict pos = none := by
      cases h1 with
      | nothing => rfl
      | direct _ _ => simp [asDict]
      | listed h _ => cases h <;> rfl
      | several _ => simp [asDict]
    refine ⟨(parseArgs_usual S keyed_pair rfl hd h2 (free_options h3)).mpr
      ⟨_, (pairs_iff hd).mpr ⟨_, h1, rfl⟩, ?_⟩, free_self h3⟩
    simp [rows2]
  | dict h1 h2 => exact ⟨parseArgs_dict S keyed_pair rfl h1 (free_options h2), free_self h2⟩

/-- Calls that give names are parsed to those names. -/
theorem givesNames_parse {a : Args} {ps : List (Obj × Obj)} (h : GivesNames a ps) (S : Sem) :
    parseArgs S nameOpts a = .ok (rows2 ps) ∧ kwSelf a = false := by
  cases h with
  | @usual pos kw ps qs h0 h1 h2 h3 =>
    have hd : asDict pos = none := by
      cases h : asDict pos with
      | none => rfl
      | some kvs => exact absurd (asDict_ok h) (h0 kvs)
    refine ⟨(parseArgs_usual S keyed_name rfl hd h2 (free_options h3)).mpr
      ⟨_, (names_iff hd).mpr ⟨_, h1, rfl⟩, ?_⟩, free_self h3⟩
    simp [rows2]
  | dict h1 h2 => exact ⟨parseArgs_dict S keyed_name rfl h1 (free_options h2), free_self h2⟩

theorem free_of {a : Args} (S : Sem) {o : ParseOpts} {bs : List (List Obj)} (hs : kwSelf a = false)
    (h : parseArgs S o a = .ok bs) : KwFree a.kw := by
  intro p hp
  constructor
  · intro e
    unfold parseArgs at h
    rw [if_pos (List.any_eq_true.mpr ⟨p, hp, by simpa using e⟩)] at h
    cases h
  · intro e
    unfold kwSelf at hs
    rw [List.any_eq_false] at hs
    exact hs p hp (by simpa using e)

/-- Conversely, every call that is parsed gives pairs. -/
theorem givesPairs_of {a : Args} (S : Sem) {bs : List (List Obj)} (hw : WellKeyed a)
    (hs : kwSelf a = false) (h : parseArgs S pairOpts a = .ok bs) :
    ∃ ps, GivesPairs a ps ∧ bs = rows2 ps := by
  have hf := free_of S hs h
  obtain ⟨pos, kw⟩ := a
  cases hd : asDict pos with
  | some kvs =>
    have hp := asDict_ok hd
    obtain ⟨items, rfl, hn⟩ := hw.2 kvs hp
    obtain ⟨ps, hps⟩ := ascending_exists hn
    have hp' : pos = [dictOf items] := hp
    subst hp'
    have h1 : GivesPairs ⟨[dictOf items], kw⟩ ps := .dict hps hf
    refine ⟨ps, h1, ?_⟩
    rw [(givesPairs_parse h1 S).1] at h
    cases h; rfl
  | none =>
    obtain ⟨qs, hqs⟩ := ascending_exists hw.1
    obtain ⟨xs, h1, rfl⟩ := (parseArgs_usual S keyed_pair rfl hd hqs (free_options hf)).mp h
    obtain ⟨ps, h2, rfl⟩ := (pairs_iff hd).mp h1
    exact ⟨ps ++ qs, .usual h2 hqs hf, by simp [rows2]⟩

/-- Conversely, every call that is parsed gives names. -/
theorem givesNames_of {a : Args} (S : Sem) {bs : List (List Obj)} (hw : WellKeyed a)
    (hs : kwSelf a = false) (h : parseArgs S nameOpts a = .ok bs) :
    ∃ ps, GivesNames a ps ∧ bs = rows2 ps := by
  have hf := free_of S hs h
  obtain ⟨pos, kw⟩ := a
  cases hd : asDict pos with
  | some kvs =>
    have hp := asDict_ok hd
    obtain ⟨items, rfl, hn⟩ := hw.2 kvs hp
    obtain ⟨ps, hps⟩ := ascending_exists hn
    have hp' : pos = [dictOf items] := hp
    subst hp'
    have h1 : GivesNames ⟨[dictOf items], kw⟩ ps := .dict hps hf
    refine ⟨ps, h1, ?_⟩
    rw [(givesNames_parse h1 S).1] at h
    cases h; rfl
  | none =>
    obtain ⟨qs, hqs⟩ := ascending_exists hw.1
    obtain ⟨xs, h1, rfl⟩ := (parseArgs_usual S keyed_name rfl hd hqs (free_options hf)).mp h
    obtain ⟨ps, h2, rfl⟩ := (names_iff hd).mp h1
    refine ⟨ps ++ qs, .usual ?_ h2 hqs hf, by simp [rows2]⟩
    rintro kvs rfl
    cases hd

/-! ### Conditions -/

/-- A constructed condition is the one its column and value stand for. -/
theorem mkCond_condOf {col v : Obj} {c : Cond} (h : mkCond false col v = .ok c) : c = condOf col v := by
  unfold mkCond at h
  obtain ⟨_, _, h⟩ := bind_ok.mp h
  obtain ⟨⟨k, w⟩, h1, h2⟩ := bind_ok.mp h
  cases h2
  unfold condValue at h1
  obtain ⟨_, _, h1⟩ := bind_ok.mp h1
  have key : ∀ v : Obj, relValue (defaultRel (valueInside v)) v = .ok w →
      w = listed v := by
    intro v h
    have h5 : ∀ (k : Rel) (u : Obj), relValue k u = .ok w →
        w = if k.isIn then (match u.iterate with
          | some xs => .list xs
          | none => u) else u := by
      intro k u h
      unfold relValue at h
      simp only at h
      generalize (if k.isIn = true then (match u.iterate with
          | some xs => Obj.list xs
          | none => u) else u) = r at h ⊢
      split at h
      · injection h with h; exact h.symm
      · cases h
    rw [h5 _ _ h]
    cases v with
    | sqlValue u => cases u <;> rfl
    | sqlRef u => cases u <;> rfl
    | _ => rfl
  have rel : ∀ v : Obj, defaultRel (valueInside v) = relationFor (unwrap v) := by
    intro v
    have : ∀ u, defaultRel u = relationFor u := by intro u; cases u <;> rfl
    rw [this]
    cases v <;> rfl
  cases v with
  | rel k' w' => cases h1; rfl
  | _ =>
    obtain ⟨w', h3, h4⟩ := bind_ok.mp h1
    cases h4
    rw [key _ h3, rel]
    rfl

/-- `==` of two one-condition `Q` objects is `==` of the conditions. -/
theorem eq_single (cx : Ctx) (n : Nat) (a b : Cond) :
    (sem cx (n + 1)).eq (.conds [a]) (.conds [b]) = condEq cx (sem cx n) a b := by
  show condsEq cx (sem cx n) [a] [b] = _
  simp only [condsEq, eqListR, List.length_cons, List.length_nil, if_true, List.zip_cons_cons,
    List.zip_nil_left, allR]
  cases condEq cx (sem cx n) a b with
  | error e => rfl
  | ok r => cases r <;> rfl

/-- `Q(…)` and combinations of them. -/
theorem isConds_iff {x : Obj} : x.isConds = true ↔ IsCondition x := by
  cases x <;> simp [Obj.isConds, IsCondition]

theorem givesPairs_custom {a : Args} {ps : List (Obj × Obj)} (h : GivesPairs a ps) :
    customArg a = none := by
  cases h with
  | @usual pos kw ps qs h1 _ _ =>
    unfold customArg
    split
    · rename_i o e1 e2
      simp only at e1 e2
      subst e1 e2
      cases h1 with
      | listed h _ => cases h <;> rfl
    · rfl
  | dict _ _ =>
    unfold customArg
    split
    · rename_i o _ e
      simp only [dictOf, List.cons.injEq, and_true] at e
      rw [← e]
      rfl
    · rfl

/-- Which conditions are in a clause after a call that gives pairs. -/
theorem condsWhere_represented (cx : Ctx) (n : Nat) {ps ps' : List Cond} {a : Args}
    {given : List (Obj × Obj)} (hg : GivesPairs a given)
    (hq : (!a.pos.isEmpty && a.pos.all Obj.isConds) = false)
    (h : condsWhere cx (sem cx n) false ps a = (ps', none)) {p : Obj × Obj} (hp : p ∈ given) :
    ∃ c ∈ ps', c = condOf p.1 p.2 ∨
      (sem cx (n + 1)).eq (.conds [c]) (.conds [condOf p.1 p.2]) = .ok true := by
  obtain ⟨h1, h2⟩ := givesPairs_parse hg (sem cx n)
  unfold condsWhere at h
  rw [h2, givesPairs_custom hg, hq, h1] at h
  simp only [Bool.false_eq_true, if_false] at h
  obtain ⟨c, hc, c', hc', h3⟩ := addAll_represented h [p.1, p.2]
    (List.mem_map.mpr ⟨p, hp, rfl⟩)
  have hc := mkCond_condOf hc
  simp only [pairOf] at hc
  subst hc
  exact ⟨c', hc', by rwa [eq_single]⟩

/-- The shapes of the arguments of a `where` that does not raise. -/
theorem condsWhere_shape (cx : Ctx) (S : Sem) {ps ps' : List Cond} {on : Bool} {a : Args}
    (hw : WellKeyed a) (h : condsWhere cx S on ps a = (ps', none)) :
    (∃ o, o.isSql = true ∧ a = ⟨[o], []⟩ ∧ ps' = ps ++ [.item o]) ∨
    (a.pos ≠ [] ∧ (∀ x ∈ a.pos, IsCondition x) ∧
      forUpd (fun ps o => appendUnique (condEq cx S) ps (.item o)) ps a.pos = (ps', none)) ∨
    ((!a.pos.isEmpty && a.pos.all Obj.isConds) = false ∧ ∃ given, GivesPairs a given) := by
  unfold condsWhere at h
  split at h
  · cases h
  · rename_i hs
    have hs : kwSelf a = false := by simpa using hs
    split at h
    · rename_i o ho
      left
      unfold customArg at ho
      split at ho
      · rename_i x e1 e2
        split at ho
        · rename_i hx
          cases ho
          cases h
          exact ⟨o, hx, by cases a; simp_all, rfl⟩
        · cases ho
      · cases ho
    · right
      split at h
      · rename_i hq
        left
        simp only [Bool.and_eq_true, Bool.not_eq_true', List.isEmpty_eq_false_iff,
          List.all_eq_true] at hq
        exact ⟨hq.1, fun x hx => isConds_iff.mp (hq.2 x hx), h⟩
      · rename_i hq
        right
        refine ⟨by simpa using hq, ?_⟩
        cases hp : parseArgs S pairOpts a with
        | error e => rw [hp] at h; cases h
        | ok bs =>
          obtain ⟨given, hg, _⟩ := givesPairs_of S hw hs hp
          exact ⟨given, hg⟩

end SqlPuzzle
