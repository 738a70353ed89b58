import Verif.Proofs.Entries
import Verif.Proofs.DictOrder

/-!
C16–C19: the argument parser.
-/

namespace SqlPuzzle

open Spec

/-! ### C16: width of the tuples -/

/-- C16, full statement: every tuple is one the caller gave, with at least the minimal number of
items, filled up with `None` to the maximal width. -/
def C16_claim : Prop :=
  ∀ (S : Sem) (o : ParseOpts) (a : Args) (bs : List (List Obj)), 1 ≤ o.minItems →
    parseArgs S o a = .ok bs → ∀ b ∈ bs,
      ∃ g, Given a g ∧ o.minItems ≤ g.length ∧ g.length ≤ o.maxItems ∧
        b = g ++ List.replicate (o.maxItems - g.length) .none

/-- C16 is false: `where([('a',)])` gives the pair `('a', None)`, although pairs are required. -/
theorem C16_refuted : ¬C16_claim := by
  intro h
  obtain ⟨g, h1, h2, h3, h4⟩ := h (sem ⟨.sql, ⟨id, id, fun _ => true, fun _ => [], fun _ => []⟩⟩ 0)
    pairOpts { pos := [.list [.tuple [.str L!"a"]]] } [[.str L!"a", .none]] (by decide) rfl
    [.str L!"a", .none] (by simp)
  have hlen : g.length = 2 := Nat.le_antisymm h3 h2
  rw [hlen] at h4
  simp only [pairOpts, Nat.sub_self, List.replicate_zero, List.append_nil] at h4
  cases h1 with
  | whole => cases h4
  | item x hx =>
    rw [List.mem_singleton.mp hx] at h4
    cases h4
  | inList xs x hl hx =>
    rcases hl with hl | hl
    · simp only [List.cons.injEq, Obj.list.injEq, and_true] at hl
      subst hl
      rw [List.mem_singleton.mp hx] at h4
      cases h4
    · cases hl
  | inDict kvs k v hd _ => cases hd
  | keyword k v hk => cases hk

/-- C16, the part that holds for all calls and options: width, padding and origin. -/
theorem C16_width_partial (S : Sem) (o : ParseOpts) (a : Args) (bs : List (List Obj))
    (h : parseArgs S o a = .ok bs) (b : List Obj) (hb : b ∈ bs) :
    b.length = o.maxItems ∧ ∃ g, Given a g ∧ g.length ≤ o.maxItems ∧
      b = g ++ List.replicate (o.maxItems - g.length) .none := by
  obtain ⟨g, h1, h2, _⟩ := parseArgs_mem h hb
  obtain ⟨h3, h4⟩ := createBatch_ok h2
  refine ⟨?_, g, h1, h3, h4⟩
  rw [h4, List.length_append, List.length_replicate]
  omega

/-- C16, the minimum (the library uses one or two): it is only missed by a tuple that the caller
wrote as a list or tuple that is too short, as an argument or in the only argument. -/
theorem C16_minimum_partial (S : Sem) (o : ParseOpts) (a : Args) (bs : List (List Obj))
    (ho : o.minItems ≤ 2) (h : parseArgs S o a = .ok bs) (b : List Obj) (hb : b ∈ bs) :
    ∃ g, Given a g ∧ b = g ++ List.replicate (o.maxItems - g.length) .none ∧
      (o.minItems ≤ g.length ∨ ∃ x, IsSeq x g ∧
        (x ∈ a.pos ∨ ∃ y ys, a.pos = [y] ∧ IsSeq y ys ∧ x ∈ ys)) := by
  obtain ⟨g, h1, h2, h3⟩ := parseArgs_mem h hb
  refine ⟨g, h1, (createBatch_ok h2).2, (h3 ho).imp_right ?_⟩
  rintro ⟨x, hx, hl, rfl⟩
  refine ⟨x, ?_, ?_⟩
  · cases x <;> first | exact .list _ | exact .tuple _ | cases hl
  · unfold Args.items at hx
    rcases List.mem_append.mp hx with hx | hx
    · exact .inl hx
    · cases ha : asList a.pos with
      | none => rw [ha] at hx; cases hx
      | some ys =>
        rw [ha] at hx
        rcases asList_ok ha with e | e
        · exact .inr ⟨_, ys, e, .list ys, hx⟩
        · exact .inr ⟨_, ys, e, .tuple ys, hx⟩

/-- C16 for a method that takes pairs: a `where` that does not raise was given one SQL object, or
conditions, or pairs in one of the documented ways. -/
theorem C16_pairs (cx : Ctx) (S : Sem) (q q' : Select) (a : Args) (hw : WellKeyed a)
    (h : selectStep cx S q (.where_ a) = (q', none)) :
    (∃ o, o.isSql = true ∧ a = ⟨[o], []⟩) ∨ (a.pos ≠ [] ∧ ∀ x ∈ a.pos, IsCondition x) ∨
      ∃ given, GivesPairs a given := by
  simp only [selectStep, Upd.map, Prod.mk.injEq] at h
  rcases condsWhere_shape cx S hw (Prod.ext rfl h.2) with ⟨o, h1, h2, _⟩ | ⟨h1, h2, _⟩ | ⟨_, h1⟩
  · exact .inl ⟨o, h1, h2⟩
  · exact .inr (.inl ⟨h1, h2⟩)
  · exact .inr (.inr h1)

/-- C16 for a method that takes names: a call of `columns` that does not raise was given names, with
or without aliases, in one of the documented ways. -/
theorem C16_names (cx : Ctx) (S : Sem) (q q' : Select) (a : Args) (hw : WellKeyed a)
    (h : selectStep cx S q (.columns a) = (q', none)) : ∃ given, GivesNames a given := by
  simp only [selectStep, Upd.map, Prod.mk.injEq] at h
  obtain ⟨_, h⟩ := h
  unfold columnsAdd at h
  split at h
  · cases h
  · rename_i hs
    cases hp : parseArgs S nameOpts a with
    | error e => rw [hp] at h; cases h
    | ok bs =>
      obtain ⟨given, hg, _⟩ := givesNames_of S hw (by simpa using hs) hp
      exact ⟨given, hg⟩

/-- A call of each kind. -/
example : GivesPairs { pos := [.list [.tuple [.str L!"x", .int 1]]], kw := [(L!"b", .int 3), (L!"a", .int 2)] }
    [(.str L!"x", .int 1), (.str L!"a", .int 2), (.str L!"b", .int 3)] :=
  .usual (ps := [(.str L!"x", .int 1)]) (.listed (.list _) (.cons (.two (.tuple _)) .nil))
    ⟨[(L!"a", .int 2), (L!"b", .int 3)], .swap _ _ _,
      .cons (by simp; exact .here _ _ (by decide)) (.cons (by simp) .nil), rfl⟩
    (by simp [KwFree])

example : GivesNames { pos := [.str L!"x", .tuple [.str L!"y", .str L!"z"]] }
    [(.str L!"x", .none), (.str L!"y", .str L!"z")] :=
  .usual (ps := [(.str L!"x", .none), (.str L!"y", .str L!"z")]) (qs := []) (by simp)
    (.cons (.name (by rintro _ ⟨⟩)) (.cons (.pair (.two (.tuple _))) .nil))
    ⟨[], .nil, .nil, rfl⟩ (by simp [KwFree])

/-- C16. Too many items are refused: a tuple longer than the maximum raises. -/
theorem C16_maximum (S : Sem) (o : ParseOpts) (xs : List Obj) (hx : o.maxItems < xs.length)
    (pre post : List Obj) (hl : o.allowList = true) :
    ∀ bs, parseArgs S o { pos := [.list (pre ++ .tuple xs :: post)] } ≠ .ok bs := by
  intro bs h
  unfold parseArgs at h
  split at h
  · cases h
  · split at h
    · cases h
    · obtain ⟨ys, h1, _⟩ := bind_ok.mp h
      have h2 : parsePositional o [.list (pre ++ .tuple xs :: post)] =
          parseList o (pre ++ .tuple xs :: post) := by
        unfold parsePositional
        simp [isArgs, Obj.isListTuple, hl, asList]
      rw [h2] at h1
      obtain ⟨b, _, hb⟩ := mapR_mem_left h1 (x := .tuple xs) (by simp)
      have := (createBatch_ok (o := o) (vs := xs) hb).1
      omega

example : parseArgs (sem ⟨.sql, ⟨id, id, fun _ => true, fun _ => [], fun _ => []⟩⟩ 0) nameOpts
    { pos := [.str L!"a", .tuple [.str L!"b", .str L!"c"]], kw := [(L!"d", .str L!"e")] } =
    .ok [[.str L!"a", .none], [.str L!"b", .str L!"c"], [.str L!"d", .str L!"e"]] := rfl

/-! ### C17: calling styles -/

/-- C17. Keyword arguments and a dictionary with the same items are parsed to the same tuples. -/
theorem C17_kw_dict (S : Sem) {o : ParseOpts} (ho : o.Keyed) {kw : List (Str × Obj)}
    (h : KwFree kw) :
    parseArgs S o { kw := kw } = parseArgs S o { pos := [dictOf kw] } := by
  rw [parse_kw S ho h, dictOf, parse_dict S ho]

/-- C17. The order of keyword arguments, or of the items of a dictionary, does not matter. -/
theorem C17_order (S : Sem) {o : ParseOpts} (ho : o.Keyed) {kw kw' : List (Str × Obj)}
    (h : KwFree kw) (hn : (kw.map Prod.fst).Nodup) (hp : kw.Perm kw') :
    parseArgs S o { kw := kw } = parseArgs S o { kw := kw' } ∧
    parseArgs S o { pos := [dictOf kw] } = parseArgs S o { pos := [dictOf kw'] } := by
  have key : parseDict S o (kw.map fun p => (.str p.1, p.2)) =
      parseDict S o (kw'.map fun p => (.str p.1, p.2)) := by
    unfold parseDict
    rw [sortItems_str S hn, sortItems_str S ((hp.map _).nodup_iff.mp hn), sortBy_key_perm hp hn]
  constructor
  · rw [parse_kw S ho h, parse_kw S ho (h.perm hp), key]
  · rw [dictOf, dictOf, parse_dict S ho, parse_dict S ho, key]

/-- C17. Keyword arguments are parsed like the list of pairs in ascending order of the names: given
as one list, or one by one as tuples (one tuple alone must be in a list if two items are
required). -/
theorem C17_pairs (S : Sem) {o : ParseOpts} (ho : o.Keyed) {kw kw' : List (Str × Obj)}
    (h : KwFree kw) (hn : (kw.map Prod.fst).Nodup) (hp : kw.Perm kw')
    (hs : kw'.Pairwise fun a b => Before a.1 b.1) :
    (o.allowList = true → parseArgs S o { kw := kw } = parseArgs S o { pos := [.list (pairsOf kw')] }) ∧
    (o.allowList = true → parseArgs S o { kw := kw } = parseArgs S o { pos := [.tuple (pairsOf kw')] }) ∧
    (o.allowList = false ∨ kw.length ≠ 1 →
      parseArgs S o { kw := kw } = parseArgs S o { pos := pairsOf kw' }) := by
  rw [parse_kw S ho h]
  have hn' : (kw'.map Prod.fst).Nodup := (hp.map _).nodup_iff.mp hn
  have key : parseDict S o (kw.map fun p => (.str p.1, p.2)) = parseList o (pairsOf kw') := by
    rw [← parseDict_sorted S hn' (hs.imp fun h => (before_iff.mp h).1)]
    unfold parseDict
    rw [sortItems_str S hn, sortItems_str S hn', sortBy_key_perm hp hn]
  have fin : ∀ pos, parsePositional o pos = parseList o (pairsOf kw') → asDict pos = none →
      parseDict S o (kw.map fun p => (.str p.1, p.2)) = parseArgs S o { pos := pos } := by
    intro pos h1 h2
    rw [key]
    unfold parseArgs
    simp only [List.any_nil, Bool.false_eq_true, if_false, ho.dict, ho.assert, h1, parseKeyed, h2,
      List.isEmpty_nil, if_true]
    cases parseList o (pairsOf kw') with
    | error e => rfl
    | ok xs => simp
  refine ⟨fun hl => fin _ ?_ rfl, fun hl => fin _ ?_ rfl, fun hl => ?_⟩
  · simp [parsePositional, isArgs, Obj.isListTuple, hl, asList]
  · simp [parsePositional, isArgs, Obj.isListTuple, hl, asList]
  · cases kw' with
    | nil =>
      refine fin _ ?_ rfl
      simp only [pairsOf, List.map_nil, parsePositional, isArgs, Bool.and_false, Bool.false_and,
        Bool.false_eq_true, if_false, asList, asDict]
      cases o.allowList <;> rfl
    | cons p ps =>
      refine fin _ ?_ ?_
      · simp only [pairsOf, List.map_cons, parsePositional, isArgs, Obj.isListTuple, Bool.not_true,
          Bool.and_false, Bool.false_and, Bool.false_eq_true, if_false]
        have hd : asDict (.tuple [.str p.1, p.2] ::
            ps.map fun p : Str × Obj => (.tuple [.str p.1, p.2] : Obj)) = none := by
          cases ps <;> rfl
        cases ha : o.allowList with
        | false => simp [hd]
        | true =>
          rw [ha] at hl
          have : kw.length ≠ 1 := by simpa using hl
          rw [hp.length_eq] at this
          cases ps with
          | nil => simp at this
          | cons q qs => rfl
      · cases ps <;> rfl

/-- C17. The order of the items of a dictionary does not matter either if library objects or integers
are among its keys (`sorted` compares library objects by their texts). A dictionary has no key
twice. -/
theorem C17_order_objects (S : Sem) {o : ParseOpts} (ho : o.Keyed) {kvs kvs' : List (Obj × Obj)}
    (hk : (kvs.map Prod.fst).Nodup) (hb : ∀ kv ∈ kvs, kv.1.isBool = false) (hp : kvs.Perm kvs')
    (bs : List (List Obj)) :
    parseArgs S o { pos := [.dict kvs] } = .ok bs ↔ parseArgs S o { pos := [.dict kvs'] } = .ok bs := by
  have key : ∀ kvs kvs' : List (Obj × Obj), (kvs.map Prod.fst).Nodup →
      (∀ kv ∈ kvs, kv.1.isBool = false) → kvs.Perm kvs' →
      parseArgs S o { pos := [.dict kvs] } = .ok bs →
      parseArgs S o { pos := [.dict kvs'] } = .ok bs := by
    intro kvs kvs' hk hb hp h
    rw [parse_dict S ho] at h ⊢
    obtain ⟨items, h1, h2⟩ := bind_ok.mp h
    refine bind_ok.mpr ⟨items, sortItems_any_order ?_ ?_ hp h1, h2⟩
    · intro k v w i h3 h4 _
      have : ∀ l : List (Obj × Obj), (l.map Prod.fst).Nodup → (k, v) ∈ l → (k, w) ∈ l → v = w := by
        intro l
        induction l with
        | nil => intro _ h; cases h
        | cons x l ih =>
          intro hn h5 h6
          rw [List.map_cons, List.nodup_cons] at hn
          rcases List.mem_cons.mp h5 with rfl | h7
          · rcases List.mem_cons.mp h6 with h8 | h8
            · cases h8; rfl
            · exact absurd (List.mem_map_of_mem (f := Prod.fst) h8) hn.1
          · rcases List.mem_cons.mp h6 with rfl | h8
            · exact absurd (List.mem_map_of_mem (f := Prod.fst) h7) hn.1
            · exact ih hn.2 h7 h8
      exact this kvs hk h3 h4
    · intro b v h3
      exact absurd (hb _ h3) (by simp [Obj.isBool])
  exact ⟨key _ _ hk hb hp, key _ _ ((hp.map _).nodup_iff.mp hk)
    (fun kv h => hb kv (hp.symm.subset h)) hp.symm⟩

example : parseArgs (sem ⟨.sql, ⟨id, id, fun _ => true, fun _ => [], fun _ => []⟩⟩ 3) pairOpts
      { pos := [.dict [(.str L!"b", .int 1), (.custom L!"a + 1", .int 2)]] } =
    .ok [[.custom L!"a + 1", .int 2], [.str L!"b", .int 1]] := by rfl

/-- C17. For every method that takes names or pairs, keyword arguments, in any order, act like a
dictionary with the same items, in any order. -/
theorem C17_methods {kw kw' : List (Str × Obj)} (h : KwFree kw) (hn : (kw.map Prod.fst).Nodup)
    (hp : kw.Perm kw') :
    CallsAgree { kw := kw } { kw := kw' } ∧ CallsAgree { kw := kw } { pos := [dictOf kw'] } := by
  have k1 : ∀ kw : List (Str × Obj), customArg { kw := kw } = none := by
    intro kw; cases kw <;> rfl
  have h' := h.perm hp
  constructor
  · exact callsAgree h.self h'.self (k1 _) (k1 _) rfl rfl
      (fun S => (C17_order S keyed_pair h hn hp).1) (fun S => (C17_order S keyed_name h hn hp).1)
      (fun S => (C17_order S keyed_name h hn hp).1)
  · refine callsAgree h.self rfl (k1 _) rfl rfl rfl
      (fun S => by rw [(C17_order S keyed_pair h hn hp).1, C17_kw_dict S keyed_pair h'])
      (fun S => by rw [(C17_order S keyed_name h hn hp).1, C17_kw_dict S keyed_name h'])
      (fun S => ?_)
    cases kw' with
    | nil => rw [hp.eq_nil]; rfl
    | cons p ps =>
      have : List.filter Obj.truthy [dictOf (p :: ps)] = [dictOf (p :: ps)] := rfl
      simp only [List.filter_nil, this]
      rw [(C17_order S keyed_name h hn hp).1, C17_kw_dict S keyed_name h']

example : parseArgs (sem ⟨.sql, ⟨id, id, fun _ => true, fun _ => [], fun _ => []⟩⟩ 0) pairOpts
      { kw := [(L!"b", .int 1), (L!"a", .int 2)] } =
    .ok [[.str L!"a", .int 2], [.str L!"b", .int 1]] := rfl

/-! ### C19: any keyword name -/

/-- C19, full statement: keyword arguments with any distinct names act like the dictionary. -/
def C19_claim : Prop :=
  ∀ kw : List (Str × Obj), (kw.map Prod.fst).Nodup → CallsAgree { kw := kw } { pos := [dictOf kw] }

private def cx0 : Ctx := ⟨.sql, ⟨id, id, fun _ => true, fun _ => [], fun _ => []⟩⟩

/-- C19 is false for a column called `options` (and for `self`): the call raises `TypeError`. -/
theorem C19_refuted : ¬C19_claim := by
  intro h
  have h1 := (h [(L!"options", .int 1)] (by decide)).set cx0 (sem cx0 1) {}
  have h2 : (updateStep cx0 (sem cx0 1) {} (.set { kw := [(L!"options", .int 1)] })).2 =
      some .typeError := by decide
  have h3 : (updateStep cx0 (sem cx0 1) {} (.set { pos := [dictOf [(L!"options", .int 1)]] })).2 =
      none := by decide
  rw [h1, h3] at h2
  cases h2

/-- C19 for `self`. -/
theorem C19_refuted_self : (updateStep cx0 (sem cx0 1) {} (.set { kw := [(L!"self", .int 1)] })).2 =
      some .typeError ∧
    (updateStep cx0 (sem cx0 1) {} (.set { pos := [dictOf [(L!"self", .int 1)]] })).2 = none := by
  decide

/-- C19 holds for all other names. -/
theorem C19_any_name_partial (kw : List (Str × Obj)) (hn : (kw.map Prod.fst).Nodup)
    (h : ∀ p ∈ kw, p.1 ≠ L!"options" ∧ p.1 ≠ L!"self") :
    CallsAgree { kw := kw } { pos := [dictOf kw] } :=
  (C17_methods h hn (.refl _)).2

/-! ### C18: no argument is ignored -/

/-- C18 for the parser, when a dictionary is not mixed with keyword arguments: every positional
argument and every keyword argument occurs in the result. -/
theorem C18_parse_partial (S : Sem) (o : ParseOpts) (a : Args) (bs : List (List Obj))
    (h : parseArgs S o a = .ok bs) (hm : (∀ kvs, a.pos ≠ [.dict kvs]) ∨ a.kw = []) :
    (∀ x ∈ a.pos, Used bs x) ∧ ∀ k v, (k, v) ∈ a.kw → ∃ b ∈ bs, ∃ r, b = .str k :: v :: r := by
  unfold parseArgs at h
  split at h
  · cases h
  · split at h
    · cases h
    · obtain ⟨xs, h1, h2⟩ := bind_ok.mp h
      obtain ⟨ys, h3, h4⟩ := bind_ok.mp h2
      cases h4
      have left : ∀ b ∈ xs, b ∈ xs ++ ys := fun b hb => by simp [hb]
      constructor
      · cases hd : asDict a.pos with
        | some kvs =>
          rw [asDict_ok hd]
          intro x hx
          rw [List.mem_singleton.mp hx]
          refine .dict kvs fun k v hkv => ?_
          unfold parseKeyed at h3
          rw [hd] at h3
          simp only at h3
          split at h3
          · obtain ⟨b, hb, r⟩ := parseDict_mem_left h3 hkv
            exact ⟨b, by simp [hb], r⟩
          · cases h3
        | none =>
          unfold parsePositional at h1
          split at h1
          · obtain ⟨b, h5, h6⟩ := bind_ok.mp h1
            cases h6
            intro x hx
            refine .here b x (by simp) ?_
            rw [(createBatch_ok h5).2]
            simp [hx]
          · split at h1
            · rename_i zs _ hl
              have := parseList_used h1 left
              rcases asList_ok hl with hp | hp <;> rw [hp] <;> intro x hx <;>
                rw [List.mem_singleton.mp hx]
              · exact .list zs this
              · exact .tuple zs this
            · split at h1
              · exact parseList_used h1 left
              · rename_i hne
                rw [hd] at hne
                simp only [Option.isNone_none, Bool.true_and, Bool.not_eq_true, Bool.not_eq_false',
                  List.isEmpty_iff] at hne
                rw [hne]
                simp
      · intro k v hkv
        rcases hm with hm | hm
        · have hm : asDict a.pos = none := by
            cases hd : asDict a.pos with
            | none => rfl
            | some kvs => exact absurd (asDict_ok hd) (hm kvs)
          unfold parseKeyed at h3
          rw [hm] at h3
          simp only at h3
          split at h3
          · rename_i he
            rw [List.isEmpty_iff.mp he] at hkv
            cases hkv
          · split at h3
            · obtain ⟨b, hb, r⟩ := parseDict_mem_left h3
                (show ((.str k : Obj), v) ∈ a.kwDict from List.mem_map.mpr ⟨(k, v), hkv, rfl⟩)
              exact ⟨b, by simp [hb], r⟩
            · cases h3
        · rw [hm] at hkv; cases hkv

/-- C18, full statement for `where`: a call that does not raise adds a condition for every keyword
argument. -/
def C18_claim : Prop :=
  ∀ (cx : Ctx) (n : Nat) (q q' : Select) (a : Args),
    selectStep cx (sem cx n) q (.where_ a) = (q', none) →
      ∀ k v, (k, v) ∈ a.kw → ∃ c ∈ q'.where_, ∃ r w, c = .cond false (.str k) r w

/-- C18 is false: `where(Q(a=1), b=2)` ignores `b=2`. -/
theorem C18_refuted : ¬C18_claim := by
  intro h
  obtain ⟨c, hc, r, w, h1⟩ := h cx0 0 {} { where_ := [.item (.conds [])] }
    { pos := [.conds []], kw := [(L!"b", .int 2)] } rfl L!"b" (.int 2) (by simp)
  rw [List.mem_singleton.mp hc] at h1
  cases h1

/-- C18 is also false for a dictionary together with keyword arguments: for every method,
`f({'a': 1}, b=2)` acts like `f({'a': 1})`. -/
theorem C18_refuted_dict (p : Obj × Obj) (ps : List (Obj × Obj)) (kw : List (Str × Obj))
    (h : KwFree kw) : CallsAgree { pos := [.dict (p :: ps)], kw := kw } { pos := [.dict (p :: ps)] } := by
  have key : ∀ S o, parseArgs S o { pos := [.dict (p :: ps)], kw := kw } =
      parseArgs S o { pos := [.dict (p :: ps)] } := by
    intro S o
    unfold parseArgs
    rw [h.options]
    rfl
  refine callsAgree h.self rfl ?_ rfl rfl rfl (fun S => key S _) (fun S => key S _) fun S => key S _
  cases kw <;> rfl

/-- C18 is also false for tables: a false argument of `from_` is dropped. -/
theorem C18_refuted_tables (cx : Ctx) (S : Sem) (q : Select) :
    selectStep cx S q (.from_ { pos := [.str []] }) = (q, none) ∧
    selectStep cx S q (.from_ { pos := [.int 0] }) = (q, none) := by
  constructor <;> rfl

/-- C18 for `where`: unless keyword arguments come together with conditions or with a dictionary,
every argument of a call that does not raise is in the clause: the SQL object, each condition, each
pair of column and value, itself or by one that `==` calls equal. -/
theorem C18_where_partial (cx : Ctx) (n : Nat) (q q' : Select) (a : Args) (hw : WellKeyed a)
    (h : selectStep cx (sem cx n) q (.where_ a) = (q', none))
    (hk : a.kw = [] ∨ (∃ x ∈ a.pos, ¬IsCondition x ∧ ∀ kvs, a.pos ≠ [.dict kvs]) ∨ a.pos = []) :
    (∃ o, o.isSql = true ∧ a = ⟨[o], []⟩ ∧ .item o ∈ q'.where_) ∨
    (a.kw = [] ∧ a.pos ≠ [] ∧ ∀ x ∈ a.pos, IsCondition x ∧
      ∃ c ∈ q'.where_, c = .item x ∨
        (sem cx (n + 1)).eq (.conds [c]) (.conds [.item x]) = .ok true) ∨
    ∃ given, GivesPairs a given ∧ (∀ k v, (k, v) ∈ a.kw → (.str k, v) ∈ given) ∧
      ∀ p ∈ given, ∃ c ∈ q'.where_, c = condOf p.1 p.2 ∨
        (sem cx (n + 1)).eq (.conds [c]) (.conds [condOf p.1 p.2]) = .ok true := by
  obtain ⟨ps, hps, h1⟩ : ∃ ps, ps = q'.where_ ∧
      condsWhere cx (sem cx n) false q.where_ a = (ps, none) := by
    simp only [selectStep, Upd.map, Prod.mk.injEq] at h
    refine ⟨_, ?_, Prod.ext rfl h.2⟩
    rw [← h.1]
  rw [← hps]
  rcases condsWhere_shape cx _ hw h1 with ⟨o, h2, h3, h4⟩ | ⟨h2, h3, h4⟩ | ⟨h2, given, hg⟩
  · exact .inl ⟨o, h2, h3, by rw [h4]; simp⟩
  · refine .inr (.inl ⟨?_, h2, fun x hx => ⟨h3 x hx, ?_⟩⟩)
    · rcases hk with hk | ⟨x, hx, hn, _⟩ | hk
      · exact hk
      · exact absurd (h3 x hx) hn
      · exact absurd hk h2
    · have h5 : addAll (condEq cx (sem cx n)) (fun o => (.ok (.item o) : R Cond)) q.where_ a.pos =
          (ps, none) := by
        unfold addAll
        simp only [withR]
        exact h4
      obtain ⟨c, hc, c', hc', h6⟩ := addAll_represented h5 x hx
      cases hc
      exact ⟨c', hc', by rwa [eq_single]⟩
  · refine .inr (.inr ⟨given, hg, ?_, fun p hp => condsWhere_represented cx n hg h2 h1 hp⟩)
    intro k v hkv
    cases hg with
    | usual _ h3 _ =>
      obtain ⟨s, h4, _, h5⟩ := h3
      rw [h5]
      exact List.mem_append_right _ (List.mem_map.mpr ⟨(k, v), h4.mem_iff.mpr hkv, rfl⟩)
    | @dict items kw _ _ _ =>
      rcases hk with hk | ⟨_, _, _, hn⟩ | hk
      · simp only at hk hkv; rw [hk] at hkv; cases hkv
      · exact absurd rfl (hn (items.map fun p => (.str p.1, p.2)))
      · cases hk

/-- A call that meets the hypotheses of `C18_where_partial`. -/
example : (selectStep cx0 (sem cx0 2) {} (.where_ { kw := [(L!"b", .int 2), (L!"a", .int 1)] })).2 =
    none := by decide

end SqlPuzzle
