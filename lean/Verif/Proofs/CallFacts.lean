import Verif.Spec.Calls
import Verif.Proofs.ErrFacts
import Verif.Model.Functions

/-!
Calls with regular arguments keep a query regular and raise only documented exceptions.
-/

namespace SqlPuzzle
open Spec

namespace Calls

/-! ### The parser -/

/-- The result has the property, and what was raised is documented. -/
def Good {σ : Type} (P : σ → Prop) (u : Upd σ) : Prop :=
  P u.1 ∧ ∀ e, u.2 = some e → Documented e

theorem Good.done {σ : Type} {P : σ → Prop} {s : σ} (h : P s) : Good P (s, none) :=
  ⟨h, fun e he => by cases he⟩

theorem Good.raise {σ : Type} {P : σ → Prop} {s : σ} {e : Err} (h : P s)
    (he : e.isSqlPuzzle = true) : Good P (s, some e) :=
  ⟨h, fun e' h' => by injection h' with h'; subst h'; exact Or.inl he⟩

theorem Good.withR {σ α : Type} {P : σ → Prop} {s : σ} {r : R α} {f : α → Upd σ} (hs : P s)
    (hr : Fine r) (hf : ∀ a, r = .ok a → Good P (f a)) : Good P (withR s r f) := by
  cases r with
  | error e => exact ⟨hs, fun e' h' => hr e' (by injection h' with h'; rw [h'])⟩
  | ok a => exact hf a rfl

theorem Good.forUpd {σ α : Type} {P : σ → Prop} {f : σ → α → Upd σ} {xs : List α}
    (hf : ∀ s, ∀ x ∈ xs, P s → Good P (f s x)) {s : σ} (hs : P s) : Good P (forUpd f s xs) := by
  induction xs generalizing s with
  | nil => exact .done hs
  | cons x xs ih =>
    have h1 := hf s x (by simp) hs
    unfold SqlPuzzle.forUpd
    split
    · rename_i s' h; rw [h] at h1; exact ih (fun s y hy => hf s y (by simp [hy])) h1.1
    · rename_i s' e h; rw [h] at h1; exact h1

theorem Good.append {α : Type} {P : α → Prop} {eq : α → α → R Bool} {ps : List α} {p : α}
    (heq : ∀ a b, P a → P b → Fine (eq a b)) (hp : P p) (hps : ∀ x ∈ ps, P x) :
    Good (fun l => ∀ x ∈ l, P x) (appendUnique eq ps p) := by
  refine ⟨appendUnique_inv hps hp, fun e he => ?_⟩
  unfold appendUnique at he
  split at he
  · rename_i e' h
    injection he with he
    subst he
    exact Fine.anyR (fun x hx => heq x p (hps x hx) hp) _ h
  · cases he
  · cases he

theorem Good.map {σ τ : Type} {P : σ → Prop} {Q : τ → Prop} {f : σ → τ} {u : Upd σ}
    (h : Good P u) (hf : ∀ s, P s → Q (f s)) : Good Q (u.map f) := ⟨hf _ h.1, h.2⟩

theorem kwSelf_false {a : Args} (h : RegularArgs a) : kwSelf a = false := by
  unfold kwSelf
  rw [List.any_eq_false]
  intro p hp
  simpa using (h.names p hp).1

theorem Good.unlessSelf {σ : Type} {P : σ → Prop} {a : Args} (h : RegularArgs a) {s : σ}
    {u : Upd σ} (hu : Good P u) : Good P (if kwSelf a then (s, some .typeError) else u) := by
  rw [kwSelf_false h]
  exact hu

theorem fine_createBatch (o : ParseOpts) (vs : List Obj) : Fine (createBatch o vs) := by
  unfold createBatch
  split
  · exact .bad rfl
  · exact .ok _

theorem fine_parseListItem (o : ParseOpts) (x : Obj) : Fine (parseListItem o x) := by
  unfold parseListItem
  split
  · exact fine_createBatch _ _
  · exact fine_createBatch _ _
  · exact (fine_createBatch _ _).ite (.bad rfl)

theorem fine_positional (o : ParseOpts) (pos : List Obj) : Fine (parsePositional o pos) := by
  unfold parsePositional
  split
  · exact (fine_createBatch _ _).bind fun _ _ => .ok _
  · split
    · exact Fine.mapR fun x _ => fine_parseListItem o x
    · exact (Fine.mapR fun x _ => fine_parseListItem o x).ite (.ok _)

theorem fine_dict (S : Sem) (o : ParseOpts) {kw : List (Str × Obj)}
    (hn : (kw.map Prod.fst).Nodup) :
    Fine (parseDict S o (kw.map fun p => ((.str p.1 : Obj), p.2))) := by
  unfold parseDict
  rw [sortItems_str S hn]
  exact Fine.mapR fun _ _ => fine_createBatch _ _

theorem fine_parse (S : Sem) {o : ParseOpts} (ho : o = pairOpts ∨ o = nameOpts) {a : Args}
    (h : RegularArgs a) : Fine (parseArgs S o a) := by
  have hk : (a.kw.any fun p => p.1 == L!"options") = false := by
    rw [List.any_eq_false]
    intro p hp
    simpa using (h.names p hp).2
  have ha : (decide (o.maxItems < o.minItems) || (o.allowDict && decide (o.maxItems ≤ 1))) = false := by
    rcases ho with rfl | rfl <;> rfl
  have hd : o.allowDict = true := by rcases ho with rfl | rfl <;> rfl
  unfold parseArgs
  rw [hk, ha]
  simp only [Bool.false_eq_true, if_false]
  refine (fine_positional o a.pos).bind fun _ _ => Fine.bind ?_ fun _ _ => .ok _
  unfold parseKeyed
  split
  · rename_i kvs hv
    rw [if_pos hd]
    have hp := asDict_ok hv
    rcases h.pos with h1 | ⟨kvs', h1, h2, h3⟩
    · exact absurd (h1 (.dict kvs) (by simp [hp])).here id
    · rw [h1] at hp
      injection hp with hp
      injection hp with hp
      rw [← hp]
      exact fine_dict S o h2
  · split
    · exact .ok _
    · exact fine_dict S o h.distinct

theorem regular_tuple {x : Obj} (h : Regular x) : ∀ y ∈ asTuple x, Regular y := by
  have hp := h.part
  unfold asTuple
  split
  · exact hp
  · exact hp
  · simpa using h

/-- Where a tuple comes from, for the two ways the library calls the parser. -/
inductive Source (o : ParseOpts) (a : Args) : List Obj → Prop
  | whole : o.minItems = 2 → 2 ≤ a.pos.length → Source o a a.pos
  | item (x : Obj) : (∀ kvs, a.pos ≠ [.dict kvs]) → x ∈ a.pos → Source o a (asTuple x)
  | inList (xs : List Obj) (x : Obj) : o.allowList = true →
      a.pos = [.list xs] ∨ a.pos = [.tuple xs] → x ∈ xs → Source o a (asTuple x)
  | inDict (kvs : List (Obj × Obj)) (k v : Obj) : a.pos = [.dict kvs] → (k, v) ∈ kvs → Source o a [k, v]
  | keyword (k : Str) (v : Obj) : (k, v) ∈ a.kw → Source o a [.str k, v]

theorem parsed_source {S : Sem} {o : ParseOpts} (ho : o = pairOpts ∨ o = nameOpts)
    {a : Args} {bs : List (List Obj)} (hb : parseArgs S o a = .ok bs) {b : List Obj} (hm : b ∈ bs) :
    ∃ g, Source o a g ∧ createBatch o g = .ok b := by
  unfold parseArgs at hb
  split at hb
  · cases hb
  · split at hb
    · cases hb
    · obtain ⟨xs, h1, h2⟩ := bind_ok.mp hb
      obtain ⟨ys, h3, h4⟩ := bind_ok.mp h2
      cases h4
      rcases List.mem_append.mp hm with hm | hm
      · unfold parsePositional at h1
        split at h1
        · rename_i hc
          obtain ⟨b', h5, h6⟩ := bind_ok.mp h1
          cases h6
          rw [List.mem_singleton.mp hm]
          simp only [Bool.and_eq_true, decide_eq_true_eq] at hc
          have h2 : o.minItems = 2 := by
            rcases ho with rfl | rfl
            · rfl
            · exact absurd hc.1.1 (by decide)
          exact ⟨a.pos, .whole h2 (h2 ▸ hc.2.1), h5⟩
        · split at h1
          · rename_i zs hl1 hl
            obtain ⟨x, hx, hp⟩ := mapR_mem h1 hm
            exact ⟨_, .inList zs x hl1 (asList_ok hl) hx, (parseListItem_ok hp).1⟩
          · split at h1
            · rename_i hc
              obtain ⟨x, hx, hp⟩ := mapR_mem h1 hm
              refine ⟨_, .item x (fun kvs e => ?_) hx, (parseListItem_ok hp).1⟩
              simp [e, asDict] at hc
            · cases h1; cases hm
      · unfold parseKeyed at h3
        split at h3
        · rename_i kvs hd
          split at h3
          · obtain ⟨⟨k, v⟩, hk, hc⟩ := parseDict_mem h3 hm
            exact ⟨[k, v], .inDict kvs k v (asDict_ok hd) hk, hc⟩
          · cases h3
        · split at h3
          · cases h3; cases hm
          · split at h3
            · obtain ⟨⟨k, v⟩, hk, hc⟩ := parseDict_mem h3 hm
              simp only [Args.kwDict, List.mem_map, Prod.mk.injEq] at hk
              obtain ⟨⟨k', v'⟩, hk, rfl, rfl⟩ := hk
              exact ⟨[.str k', v'], .keyword k' v' hk, hc⟩
            · cases h3

theorem source_regular {o : ParseOpts} {a : Args} (h : RegularArgs a) {g : List Obj}
    (hg : Source o a g) : ∀ x ∈ g, Regular x := by
  cases hg with
  | whole _ hl =>
    rcases h.pos with h1 | ⟨kvs, h1, _⟩
    · exact h1
    · rw [h1] at hl; exact absurd hl (by decide : ¬ 2 ≤ 1)
  | item x hd hx =>
    rcases h.pos with h1 | ⟨kvs, h1, _⟩
    · exact regular_tuple (h1 x hx)
    · exact absurd h1 (hd _)
  | inList xs x _ hp hx =>
    rcases h.pos with h1 | ⟨kvs, h1, _⟩
    · rcases hp with hp | hp
      · exact regular_tuple ((h1 (.list xs) (by simp [hp])).part x hx)
      · exact regular_tuple ((h1 (.tuple xs) (by simp [hp])).part x hx)
    · rw [h1] at hp
      rcases hp with hp | hp <;> cases hp
  | inDict kvs k v hp hm =>
    rcases h.pos with h1 | ⟨kvs', h1, _, h3⟩
    · exact absurd (h1 (.dict kvs) (by simp [hp])).here id
    · rw [h1] at hp
      injection hp with hp
      injection hp with hp
      rw [← hp] at hm
      obtain ⟨p, hp, e⟩ := List.mem_map.mp hm
      injection e with e1 e2
      subst e1 e2
      simp [regular_str, h3 p hp]
  | keyword k v hm => simp [regular_str, h.values _ hm]

theorem batch_pair {o : ParseOpts} (ho : o = pairOpts ∨ o = nameOpts) {g b : List Obj}
    (hb : createBatch o g = .ok b) :
    pairOf b = (g.head?.getD .none, (g[1]?).getD .none) := by
  obtain ⟨h1, h2⟩ := createBatch_ok hb
  have h3 : o.maxItems = 2 := by rcases ho with rfl | rfl <;> rfl
  rw [h3] at h1 h2
  subst h2
  match g with
  | [] => rfl
  | [x] => rfl
  | [x, y] => rfl

theorem batch_regular {o : ParseOpts} (ho : o = pairOpts ∨ o = nameOpts) {g b : List Obj}
    (hb : createBatch o g = .ok b) (hg : ∀ x ∈ g, Regular x) :
    Regular (pairOf b).1 ∧ Regular (pairOf b).2 := by
  rw [batch_pair ho hb]
  match g with
  | [] => exact ⟨regular_none, regular_none⟩
  | [x] => exact ⟨hg x (by simp), regular_none⟩
  | x :: y :: _ => exact ⟨hg x (by simp), hg y (by simp)⟩

/-- A tuple made from the arguments has regular components. -/
theorem parsed_regular {S : Sem} {o : ParseOpts} (ho : o = pairOpts ∨ o = nameOpts)
    {a : Args} (h : RegularArgs a) {bs : List (List Obj)} (hb : parseArgs S o a = .ok bs)
    {b : List Obj} (hm : b ∈ bs) : Regular (pairOf b).1 ∧ Regular (pairOf b).2 := by
  obtain ⟨g, h1, h2⟩ := parsed_source ho hb hm
  exact batch_regular ho h2 (source_regular h h1)

/-! ### The parts -/

theorem fine_checkType (ts : List PyType) (v : Obj) : Fine (checkType ts v) := by
  unfold checkType
  exact (Fine.ok _).ite (.bad rfl)

theorem relValue_reg {k : Rel} {v w : Obj} (hv : Regular v) (h : relValue k v = .ok w) :
    Regular w := by
  have key : ∀ v', Regular v' → (if v'.allowed k.allowedTypes then .ok v' else
      (.error .invalidArgument : R Obj)) = .ok w → Regular w := by
    intro v' hv' e
    split at e
    · injection e with e; exact e ▸ hv'
    · cases e
  refine key _ ?_ h
  split
  · split
    · rename_i xs hx; exact regular_list (regular_iterate hv hx)
    · exact hv
  · exact hv

theorem fine_relValue (k : Rel) (v : Obj) : Fine (relValue k v) := by
  unfold relValue
  exact (Fine.ok _).ite (.bad rfl)

theorem fine_mkCond (on : Bool) (c v : Obj) : Fine (mkCond on c v) := by
  unfold mkCond
  refine (fine_checkType _ _).bind fun _ _ => Fine.bind ?_ fun _ _ => .ok _
  unfold condValue
  refine (fine_checkType _ _).bind fun _ _ => ?_
  split
  · exact .ok _
  · exact (fine_relValue _ _).bind fun _ _ => .ok _

theorem mkCond_reg {on : Bool} {c v : Obj} {x : Cond} (hc : Regular c) (hv : Regular v)
    (h : mkCond on c v = .ok x) : RegCond x := by
  unfold mkCond at h
  obtain ⟨_, _, h⟩ := bind_ok.mp h
  obtain ⟨⟨k, w⟩, h1, h⟩ := bind_ok.mp h
  injection h with h
  subst h
  refine ⟨fun o e => (by cases e), ?_⟩
  have hw : Regular w := by
    unfold condValue at h1
    obtain ⟨_, _, h1⟩ := bind_ok.mp h1
    split at h1
    · injection h1 with h1
      injection h1 with h1 h2
      subst h1 h2
      exact hv.part _ (by simp [parts])
    · obtain ⟨w', h2, h3⟩ := bind_ok.mp h1
      injection h3 with h3
      injection h3 with h3 h4
      subst h3 h4
      exact relValue_reg hv h2
  simp [condParts, hc, hw]

theorem customArg_some {a : Args} {o : Obj} (h : customArg a = some o) :
    a.pos = [o] ∧ o.isSql = true := by
  unfold customArg at h
  split at h
  · rename_i h1 h2
    split at h
    · rename_i h3
      injection h with h
      subst h
      exact ⟨h2, h3⟩
    · cases h
  · cases h

theorem pos_regular {a : Args} (h : RegularArgs a) (hd : ∀ kvs, a.pos ≠ [.dict kvs]) :
    ∀ o ∈ a.pos, Regular o := by
  rcases h.pos with h1 | ⟨kvs, h1, _⟩
  · exact h1
  · exact absurd h1 (hd _)

section
variable {cx : Ctx} {S : Sem} (h : S.Fine)
include h

theorem good_conds (on : Bool) {ps : List Cond} {a : Args} (ha : RegularArgs a)
    (hp : ∀ c ∈ ps, RegCond c) : Good (fun ps => ∀ c ∈ ps, RegCond c) (condsWhere cx S on ps a) := by
  unfold condsWhere
  refine Good.unlessSelf ha ?_
  split
  · rename_i o ho
    obtain ⟨h1, h2⟩ := customArg_some ho
    refine .done fun c hc => ?_
    rcases List.mem_append.mp hc with hc | hc
    · exact hp c hc
    · rw [List.mem_singleton.mp hc]
      refine ⟨fun o' e => by injection e with e; exact e ▸ h2, ?_⟩
      have : Regular o := pos_regular ha (fun kvs e => by rw [h1] at e; injection e with e; subst e; cases h2)
        o (by simp [h1])
      simpa [condParts] using this
  · split
    · rename_i hc
      simp only [Bool.and_eq_true, List.all_eq_true] at hc
      have hr := pos_regular ha (fun kvs e => by
        have := hc.2 (.dict kvs) (by simp [e]); cases this)
      refine Good.forUpd (fun ps o ho hps => Good.append (fun a b => fine_condEq h) ?_ hps) hp
      refine ⟨fun o' e => ?_, by simpa [condParts] using hr o ho⟩
      injection e with e
      subst e
      have := hc.2 o ho
      cases o <;> first | rfl | cases this
    · refine Good.withR hp (fine_parse S (.inl rfl) ha) fun bs hb => ?_
      refine Good.forUpd (fun ps b hm hps => Good.withR hps (fine_mkCond _ _ _) fun c hc => ?_) hp
      obtain ⟨h1, h2⟩ := parsed_regular (.inl rfl) ha hb hm
      exact Good.append (fun a b => fine_condEq h) (mkCond_reg h1 h2 hc) hps

theorem good_columns {cs : List Column} {a : Args} (ha : RegularArgs a)
    (hp : ∀ c ∈ cs, RegColumn c) : Good (fun cs => ∀ c ∈ cs, RegColumn c) (columnsAdd S cs a) := by
  unfold columnsAdd
  refine Good.unlessSelf ha (Good.withR hp (fine_parse S (.inr rfl) ha) fun bs hb => ?_)
  refine Good.forUpd (fun cs b hm hcs => Good.withR hcs ?_ fun c hc => ?_) hp
  · unfold mkColumn
    exact (fine_checkType _ _).bind fun _ _ => (fine_checkType _ _).bind fun _ _ => .ok _
  · obtain ⟨h1, h2⟩ := parsed_regular (.inr rfl) ha hb hm
    refine Good.append (fun a b => fine_columnEq h) ?_ hcs
    unfold mkColumn at hc
    obtain ⟨_, _, hc⟩ := bind_ok.mp hc
    obtain ⟨_, _, hc⟩ := bind_ok.mp hc
    injection hc with hc
    subst hc
    exact ⟨h1, h2⟩

omit h in
theorem truthy_args {a : Args} (ha : RegularArgs a) :
    RegularArgs { a with pos := a.pos.filter Obj.truthy } := by
  refine ⟨ha.names, ha.distinct, ha.values, ?_⟩
  rcases ha.pos with h1 | ⟨kvs, h1, h2⟩
  · exact .inl fun o ho => h1 o (List.mem_of_mem_filter ho)
  · rw [h1]
    by_cases ht : (Obj.dict (kvs.map fun p => (.str p.1, p.2))).truthy = true
    · exact .inr ⟨kvs, by simp [ht], h2⟩
    · exact .inl (by simp [ht])

omit h in
theorem fine_mkTable (n al : Obj) : Fine (mkTable n al) := by
  unfold mkTable
  exact (fine_checkType _ _).bind fun _ _ => (fine_checkType _ _).bind fun _ _ => .ok _

omit h in
theorem mkTable_ok {n al : Obj} {t : Table} (e : mkTable n al = .ok t) : t = ⟨n, al, []⟩ := by
  unfold mkTable at e
  obtain ⟨_, _, e⟩ := bind_ok.mp e
  obtain ⟨_, _, e⟩ := bind_ok.mp e
  injection e with e
  exact e.symm

theorem good_tables {ts : List Table} {a : Args} (ha : RegularArgs a)
    (hp : ∀ t ∈ ts, RegTable t) : Good (fun ts => ∀ t ∈ ts, RegTable t) (tablesSet cx S ts a) := by
  unfold tablesSet
  have ha' := truthy_args ha
  refine Good.unlessSelf ha (Good.withR hp (fine_parse S (.inr rfl) ha') fun bs hb => ?_)
  refine Good.forUpd (fun ts b hm hts => Good.withR hts (fine_mkTable _ _) fun t ht => ?_) hp
  obtain ⟨h1, h2⟩ := parsed_regular (.inr rfl) ha' hb hm
  refine Good.append (fun a b => fine_tableEq h) ?_ hts
  rw [mkTable_ok ht]
  exact ⟨h1, h2, by simp⟩

omit h in
theorem fine_orderSort {v : Obj} (hv : Direction v) : Fine (orderSort cx v) := by
  intro e he
  unfold orderSort at he
  cases hc : checkType [.str, .int, .none] v with
  | error e' =>
    rw [hc] at he
    injection he with he
    exact he ▸ fine_checkType _ _ e' hc
  | ok u =>
    rw [hc] at he
    replace he : (match v with
      | .none => (.ok false : R Bool)
      | .str s =>
        if cx.env.upper s = L!"ASC" then .ok false
        else if cx.env.upper s = L!"DESC" then .ok true
        else .error .invalidArgument
      | _ => .error .attributeError) = .error e := he
    have hk : v.allowed [.str, .int, .none] = true := by
      unfold checkType at hc
      by_contra hn
      rw [if_neg hn] at hc
      cases hc
    split at he
    · cases he
    · exact ((Fine.ok _).ite ((Fine.ok _).ite (.bad rfl))) e he
    · rename_i hnone hstr
      exfalso
      have hs := hv.2
      cases v with
      | none => exact hnone rfl
      | str s => exact hstr s rfl
      | int i => exact hv.1 i rfl
      | _ => first | exact Bool.noConfusion (show false = true from hk) | exact Bool.noConfusion (show true = false from hs)

theorem fine_orderPut {os : List Order} {c d : Obj} (ho : ∀ o ∈ os, Regular o.col)
    (hc : Regular c) (hd : Direction d) : Fine (orderPut cx S os c d) := by
  induction os with
  | nil =>
    unfold orderPut
    refine Fine.bind ?_ fun _ _ => .ok _
    unfold mkOrder
    exact (fine_checkType _ _).bind fun _ _ => (fine_orderSort hd).bind fun _ _ => .ok _
  | cons o os ih =>
    unfold orderPut
    refine (h.eq _ _ (ho o (by simp)) hc).bind fun b _ => ?_
    split
    · exact (fine_orderSort hd).bind fun _ _ => .ok _
    · exact (ih fun x hx => ho x (by simp [hx])).bind fun _ _ => .ok _

omit h in
theorem orderPut_reg {os os' : List Order} {c d : Obj} (ho : ∀ o ∈ os, Regular o.col)
    (hc : Regular c) (e : orderPut cx S os c d = .ok os') : ∀ o ∈ os', Regular o.col := by
  induction os generalizing os' with
  | nil =>
    unfold orderPut at e
    obtain ⟨o, h1, e⟩ := bind_ok.mp e
    unfold mkOrder at h1
    obtain ⟨_, _, h1⟩ := bind_ok.mp h1
    obtain ⟨_, _, h1⟩ := bind_ok.mp h1
    cases h1
    cases e
    simpa using hc
  | cons o os ih =>
    unfold orderPut at e
    obtain ⟨b, _, e⟩ := bind_ok.mp e
    split at e
    · obtain ⟨_, _, e⟩ := bind_ok.mp e
      cases e
      intro x hx
      rcases List.mem_cons.mp hx with rfl | hx
      · exact ho o (by simp)
      · exact ho x (by simp [hx])
    · obtain ⟨r, h1, e⟩ := bind_ok.mp e
      cases e
      intro x hx
      rcases List.mem_cons.mp hx with rfl | hx
      · exact ho _ (by simp)
      · exact ih (fun y hy => ho y (by simp [hy])) h1 x hx

omit h in
theorem parsed_direction {a : Args} (hd : Directions a) {bs : List (List Obj)}
    (hb : parseArgs S nameOpts a = .ok bs) {b : List Obj} (hm : b ∈ bs) :
    Direction (pairOf b).2 := by
  obtain ⟨g, h1, h2⟩ := parsed_source (.inr rfl) hb hm
  rw [batch_pair (.inr rfl) h2]
  have key : ∀ y, g[1]? = some y → Direction y := by
    cases h1 with
    | whole hmin _ => exact absurd hmin (by decide)
    | item x _ hx => exact hd.1 x hx
    | inList xs x hl => cases hl
    | inDict kvs k v hp hk =>
      intro y hy
      injection hy with hy
      exact hy ▸ hd.2.1 kvs hp _ hk
    | keyword k v hk =>
      intro y hy
      injection hy with hy
      exact hy ▸ hd.2.2 _ hk
  cases hg : g[1]? with
  | none => exact ⟨fun i e => (by cases e), rfl⟩
  | some y => exact key y hg

theorem good_orders {os : List Order} {a : Args} (ha : RegularArgs a) (hd : Directions a)
    (hp : ∀ o ∈ os, Regular o.col) :
    Good (fun os => ∀ o ∈ os, Regular (OrderS.col o)) (ordersAdd cx S os a) := by
  unfold ordersAdd
  refine Good.unlessSelf ha (Good.withR hp (fine_parse S (.inr rfl) ha) fun bs hb => ?_)
  refine Good.forUpd (fun os b hm hos => ?_) hp
  obtain ⟨h1, _⟩ := parsed_regular (.inr rfl) ha hb hm
  exact Good.withR hos (fine_orderPut h hos h1 (parsed_direction hd hb hm)) fun r hr =>
    .done (orderPut_reg hos h1 hr)

omit h in
theorem fine_mkValue (c v : Obj) : Fine (mkValue c v) := by
  unfold mkValue
  exact (fine_checkType _ _).bind fun _ _ => (fine_checkType _ _).bind fun _ _ => .ok _

omit h in
theorem mkValue_ok {c v : Obj} {x : Value} (e : mkValue c v = .ok x) :
    x = .value c v ∧ c.allowed [.str] = true := by
  unfold mkValue at e
  obtain ⟨_, h1, e⟩ := bind_ok.mp e
  obtain ⟨_, _, e⟩ := bind_ok.mp e
  injection e with e
  refine ⟨e.symm, ?_⟩
  unfold checkType at h1
  by_contra hn
  rw [if_neg hn] at h1
  cases h1

theorem good_values {vs : List Value} {a : Args} (ha : RegularArgs a)
    (hp : ∀ v ∈ vs, RegValue v) : Good (fun vs => ∀ v ∈ vs, RegValue v) (valuesSet cx S vs a) := by
  unfold valuesSet
  refine Good.unlessSelf ha ?_
  split
  · rename_i o ho
    obtain ⟨h1, h2⟩ := customArg_some ho
    refine .done fun c hc => ?_
    rcases List.mem_append.mp hc with hc | hc
    · exact hp c hc
    · rw [List.mem_singleton.mp hc]
      refine ⟨fun o' e => by injection e with e; exact e ▸ h2, ?_⟩
      have : Regular o := pos_regular ha (fun kvs e => by rw [h1] at e; injection e with e; subst e; cases h2)
        o (by simp [h1])
      simpa [valueParts] using this
  · refine Good.withR hp (fine_parse S (.inl rfl) ha) fun bs hb => ?_
    refine Good.forUpd (fun ps b hm hps => Good.withR hps (fine_mkValue _ _) fun c hc => ?_) hp
    obtain ⟨h1, h2⟩ := parsed_regular (.inl rfl) ha hb hm
    refine Good.append (fun a b => fine_valueEq h) ?_ hps
    rw [(mkValue_ok hc).1]
    exact ⟨fun o e => (by cases e), by simp [valueParts, h1, h2]⟩

omit h in
theorem source_given {o : ParseOpts} {a : Args} {g : List Obj} (hg : Source o a g) :
    Given a g := by
  cases hg with
  | whole => exact .whole
  | item x _ hx => exact .item x hx
  | inList xs x _ hp hx => exact .inList xs x hp hx
  | inDict kvs k v hp hm => exact .inDict kvs k v hp hm
  | keyword k v hm => exact .keyword k v hm

omit h in
theorem str_of_allowed {c : Obj} (h1 : c.allowed [.str] = true) (h2 : c.isSql = false) :
    ∃ s, c = .str s := by
  cases c with
  | str s => exact ⟨s, rfl⟩
  | _ => first | exact Bool.noConfusion (show false = true from h1) | exact Bool.noConfusion (show true = false from h2)

omit h in
/-- A row all of whose values have named columns. -/
theorem row_named {a : Args} (hc : PlainColumns a) :
    NamedRow (valuesSet cx S [] a).1 := by
  unfold valuesSet
  split
  · intro v hv; cases hv
  · have hn : customArg a = none := by
      unfold customArg
      split
      · rename_i o _ e
        have := hc _ .whole o (by rw [e]; rfl)
        rw [this]; rfl
      · rfl
    rw [hn]
    refine withR_inv (P := NamedRow) (fun v hv => by cases hv) fun bs hb => ?_
    refine forUpd_inv (P := NamedRow) (fun ps b hm hps => ?_) (fun v hv => by cases hv)
    refine withR_inv (P := NamedRow) hps fun c hv => ?_
    obtain ⟨h1, h2⟩ := mkValue_ok hv
    obtain ⟨g, h3, h4⟩ := parsed_source (.inl rfl) hb hm
    have h5 : (pairOf b).1.isSql = false := by
      rw [batch_pair (.inl rfl) h4]
      cases hg : g.head? with
      | none => rfl
      | some c => exact hc g (source_given h3) c hg
    obtain ⟨s, hs⟩ := str_of_allowed h2 h5
    exact appendUnique_inv hps ⟨s, _, by rw [h1, hs]⟩

theorem good_rows {rows : List (List Value)} {a : Args} (ha : RegularArgs a)
    (hc : PlainColumns a) (hp : ∀ r ∈ rows, NamedRow r ∧ ∀ x ∈ r.flatMap valueParts, Regular x) :
    Good (fun rows => ∀ r ∈ rows, NamedRow r ∧ ∀ x ∈ List.flatMap valueParts r, Regular x)
      (rowsAdd cx S rows a) := by
  have h1 : Good (fun vs => ∀ v ∈ vs, RegValue v) (valuesSet cx S [] a) :=
    good_values h ha (by simp)
  have h2 := row_named (cx := cx) (S := S) hc
  unfold rowsAdd
  split
  · rename_i row e
    rw [e] at h1 h2
    refine .done fun r hr => ?_
    rcases List.mem_append.mp hr with hr | hr
    · exact hp r hr
    · rw [List.mem_singleton.mp hr]
      exact ⟨h2, (regValues_iff.mpr h1.1).2⟩
  · rename_i row e' e
    rw [e] at h1
    exact ⟨hp, h1.2⟩

omit h in
theorem Good.updateLast {α : Type} {P : α → Prop} {f : α → Upd α} {xs : List α}
    {r : Upd (List α)} (hx : ∀ x ∈ xs, P x) (hf : ∀ x ∈ xs, Good P (f x))
    (e : updateLast f xs = some r) : Good (fun l => ∀ x ∈ l, P x) r := by
  obtain ⟨ys, y, rfl, rfl⟩ := updateLast_some e
  have hy := hf y (by simp)
  refine ⟨fun x hm => ?_, hy.2⟩
  rcases List.mem_append.mp hm with hm | hm
  · exact hx x (by simp [hm])
  · rw [List.mem_singleton.mp hm]; exact hy.1

theorem fine_mkJoin (ty : JoinType) {arg : Obj} (ha : RegularArg arg) :
    Fine (mkJoin S ty arg) := by
  unfold mkJoin
  split
  · exact (fine_mkTable _ _).bind fun _ _ => .ok _
  · exact (fine_mkTable _ _).bind fun _ _ => .ok _
  · exact (fine_mkTable _ _).bind fun _ _ => .ok _
  · exact .ok _
  · split
    · rename_i hs
      rcases ha with ha | ⟨kvs, rfl, _⟩
      · exact (h.str _ ha hs).bind fun _ _ => .bad rfl
      · cases hs
    · exact .bad rfl

omit h in
theorem mkJoin_reg {ty : JoinType} {arg : Obj} (ha : RegularArg arg) {j : Join}
    (e : mkJoin S ty arg = .ok j) : RegJoin j := by
  have key : ∀ n al, Regular n → Regular al →
      (do let t ← mkTable n al; (.ok ⟨ty, t.name, t.alias, []⟩ : R Join)) = .ok j → RegJoin j := by
    intro n al hn hal e
    obtain ⟨t, h1, e⟩ := bind_ok.mp e
    rw [mkTable_ok h1] at e
    cases e
    exact ⟨hn, hal, by simp⟩
  unfold mkJoin at e
  split at e
  · rcases ha with ha | ⟨kvs, hk, _⟩
    · exact key _ _ (ha.part _ (by simp [parts])) (ha.part _ (by simp [parts])) e
    · cases hk
  · rcases ha with ha | ⟨kvs, hk, _⟩
    · exact key _ _ (ha.part _ (by simp [parts])) (ha.part _ (by simp [parts])) e
    · cases hk
  · rcases ha with ha | ⟨kvs, hk, hr⟩
    · exact absurd ha.here id
    · injection hk with hk
      subst hk
      exact key _ _ (hr _ (List.mem_singleton.mpr rfl)).1 (hr _ (List.mem_singleton.mpr rfl)).2 e
  · cases e
    exact ⟨regular_str _, regular_none, by simp⟩
  · split at e
    · obtain ⟨_, _, e⟩ := bind_ok.mp e
      cases e
    · cases e

theorem good_join {ts : List Table} (ty : JoinType) {arg : Obj} (ha : RegularArg arg)
    (hp : ∀ t ∈ ts, RegTable t) :
    Good (fun ts => ∀ t ∈ ts, RegTable t) (tablesJoin cx S ts ty arg) := by
  unfold tablesJoin
  split
  · exact .raise hp rfl
  · split
    · exact .raise hp rfl
    · rename_i r e
      refine Good.updateLast hp (fun t ht => ?_) e
      refine Good.withR (hp t ht) (fine_mkJoin h ty ha) fun j hj => .done ?_
      obtain ⟨h1, h2, h3⟩ := hp t ht
      refine ⟨h1, h2, fun k hk => ?_⟩
      rcases List.mem_append.mp hk with hk | hk
      · exact h3 k hk
      · rw [List.mem_singleton.mp hk]; exact mkJoin_reg ha hj

theorem good_on {ts : List Table} {a : Args} (ha : RegularArgs a)
    (hp : ∀ t ∈ ts, RegTable t) : Good (fun ts => ∀ t ∈ ts, RegTable t) (tablesOn cx S ts a) := by
  unfold tablesOn
  refine Good.unlessSelf ha ?_
  split
  · exact .raise hp rfl
  · rename_i r e
    refine Good.updateLast hp (fun t ht => ?_) e
    unfold tableOn
    split
    · exact .raise (hp t ht) rfl
    · rename_i js e' hj
      obtain ⟨h1, h2, h3⟩ := hp t ht
      have := Good.updateLast (P := RegJoin) h3 (fun j hj => ?_) hj
      · exact ⟨⟨h1, h2, this.1⟩, this.2⟩
      · obtain ⟨j1, j2, j3⟩ := h3 j hj
        have := good_conds (cx := cx) h true ha j3
        exact ⟨⟨j1, j2, this.1⟩, this.2⟩

theorem good_strTable {t : Table} (ht : RegTable t) : Good RegTable (strTable cx S t) := by
  obtain ⟨h1, h2, h3⟩ := ht
  unfold strTable
  split
  · rename_i e he
    exact ⟨⟨h1, h2, h3⟩, fun e' e1 => by
      injection e1 with e1; subst e1; exact fine_aliasedText h h1 h2 _ he⟩
  · split
    · exact .done ⟨h1, h2, h3⟩
    · split
      · rename_i e he
        exact ⟨⟨h1, h2, h3⟩, fun e' e1 => by
          injection e1 with e1; subst e1; exact fine_minimizeJoins h h3 _ he⟩
      · rename_i js he
        have hj := minimize_reg h3 he
        refine ⟨⟨h1, h2, hj⟩, fun e' e1 => ?_⟩
        dsimp only at e1
        split at e1
        · rename_i e2 he2
          injection e1 with e1
          subst e1
          exact Fine.mapR (fun j hm => fine_joinText h (hj j hm)) _ he2
        · cases e1

theorem good_strTables {ts : List Table} (hp : ∀ t ∈ ts, RegTable t) :
    Good (fun ts => ∀ t ∈ ts, RegTable t) (strTables cx S ts) := by
  induction ts with
  | nil => exact .done hp
  | cons t ts ih =>
    have h1 := good_strTable (cx := cx) h (hp t (by simp))
    have h2 := ih fun x hx => hp x (by simp [hx])
    unfold strTables
    split
    · rename_i t' e he
      rw [he] at h1
      refine ⟨fun x hx => ?_, h1.2⟩
      rcases List.mem_cons.mp hx with rfl | hx
      · exact h1.1
      · exact hp x (by simp [hx])
    · rename_i t' he
      rw [he] at h1
      refine ⟨fun x hx => ?_, h2.2⟩
      rcases List.mem_cons.mp hx with rfl | hx
      · exact h1.1
      · exact h2.1 x hx

omit h in
theorem errOf_fine {α : Type} {x : R α} (hx : Fine x) : ∀ e, errOf x = some e → Documented e := by
  intro e he
  cases x with
  | error e' => injection he with he; subst he; exact hx _ rfl
  | ok a => cases he

omit h in
theorem orElse_doc {a b : Option Err} (ha : ∀ e, a = some e → Documented e)
    (hb : ∀ e, b = some e → Documented e) : ∀ e, (a <|> b) = some e → Documented e := by
  intro e he
  cases a with
  | some x => exact ha e he
  | none => exact hb e he

omit h in
theorem good_offset {l : LimitS} {v : Obj} (hv : v.isSql = false) :
    Good (fun _ => True) (limitOffset l v) := by
  unfold limitOffset
  refine Good.withR trivial (fine_checkType _ _) fun u hu => ?_
  split
  · rename_i ht
    have : ∃ i, v = .int i := by
      unfold checkType at hu
      have hk : v.allowed [.none, .int] = true := by
        by_contra hn
        rw [if_neg hn] at hu
        cases hu
      cases v with
      | int i => exact ⟨i, rfl⟩
      | none => cases ht
      | _ => first | exact Bool.noConfusion (show false = true from hk) | exact Bool.noConfusion (show true = false from hv)
    obtain ⟨i, rfl⟩ := this
    exact .done trivial
  · exact .done trivial

omit h in
theorem good_limit {l : LimitS} {v o : Obj} (hv : v.isSql = false) (ho : o.isSql = false) :
    Good (fun _ => True) (limitLimit l v o) := by
  unfold limitLimit
  refine Good.withR trivial (fine_checkType _ _) fun u hu => ?_
  split
  · exact .done trivial
  · rename_i ht
    have : ∃ i, v = .int i := by
      unfold checkType at hu
      have hk : v.allowed [.none, .int] = true := by
        by_contra hn
        rw [if_neg hn] at hu
        cases hu
      cases v with
      | int i => exact ⟨i, rfl⟩
      | none => exact absurd rfl ht
      | _ => first | exact Bool.noConfusion (show false = true from hk) | exact Bool.noConfusion (show true = false from hv)
    obtain ⟨i, rfl⟩ := this
    show Good _ (if o.isNone then _ else _)
    split
    · exact .done trivial
    · exact good_offset ho

omit h in
theorem good_outfile {o : Outfile} (f : OutfileField) {v : Obj} (hv : Regular v)
    (hp : RegOutfile o) : Good RegOutfile (outfileSet o f v) := by
  unfold outfileSet
  refine Good.withR hp (fine_checkType _ _) fun _ _ => ?_
  unfold RegOutfile outfileParts at hp
  simp only [List.forall_mem_append] at hp
  obtain ⟨⟨⟨p1, p2⟩, p3⟩, p4⟩ := hp
  have hv' : ∀ x ∈ (some v).toList, Regular x := by simpa using hv
  cases f
  all_goals
    refine .done ?_
    unfold RegOutfile outfileParts
    simp only [List.forall_mem_append]
  · exact ⟨⟨⟨hv', p2⟩, p3⟩, p4⟩
  · exact ⟨⟨⟨p1, hv'⟩, p3⟩, p4⟩
  · exact ⟨⟨⟨p1, p2⟩, hv'⟩, p4⟩
  · exact ⟨⟨⟨p1, p2⟩, p3⟩, hv'⟩

/-! ### The queries -/

omit h in
theorem regular_single {o : Obj} (ho : Regular o) : RegularArgs { pos := [o] } :=
  ⟨by simp, by simp, by simp, .inl (by simpa using ho)⟩

omit h in
theorem regular_pair {t al : Obj} (ht : Regular t) (hal : Regular al) :
    RegularArgs { pos := [.tuple [t, al]] } :=
  regular_single ⟨trivial, by simp [parts, show Throughout RegularHere t from ht, show Throughout RegularHere al from hal]⟩

theorem good_select {q : Select} (hq : RegSelect q) {op : SelectOp} (ho : SelectCall op) :
    Good RegSelect (selectStep cx S q op) := by
  obtain ⟨q1, q2, q3, q4, q5, q6, q7⟩ := hq
  cases op with
  | columns a => exact (good_columns h ho q1).map fun _ r => ⟨r, q2, q3, q4, q5, q6, q7⟩
  | from_ a => exact (good_tables h ho q2).map fun _ r => ⟨q1, r, q3, q4, q5, q6, q7⟩
  | fromTable t al =>
    exact (good_tables h (regular_pair ho.1 ho.2) q2).map fun _ r => ⟨q1, r, q3, q4, q5, q6, q7⟩
  | join ty arg => exact (good_join h ty ho q2).map fun _ r => ⟨q1, r, q3, q4, q5, q6, q7⟩
  | on a => exact (good_on h ho q2).map fun _ r => ⟨q1, r, q3, q4, q5, q6, q7⟩
  | where_ a => exact (good_conds h _ ho q3).map fun _ r => ⟨q1, q2, r, q4, q5, q6, q7⟩
  | having a => exact (good_conds h _ ho q5).map fun _ r => ⟨q1, q2, q3, q4, r, q6, q7⟩
  | groupBy a => exact (good_orders h ho.1 ho.2 q4).map fun _ r => ⟨q1, q2, q3, r, q5, q6, q7⟩
  | orderBy a => exact (good_orders h ho.1 ho.2 q6).map fun _ r => ⟨q1, q2, q3, q4, q5, r, q7⟩
  | limit l o => exact (good_limit ho.1 ho.2).map fun _ _ => ⟨q1, q2, q3, q4, q5, q6, q7⟩
  | offset o => exact (good_offset ho).map fun _ _ => ⟨q1, q2, q3, q4, q5, q6, q7⟩
  | outfile f v => exact (good_outfile f ho q7).map fun _ r => ⟨q1, q2, q3, q4, q5, q6, r⟩
  | option k al => exact .done ⟨q1, q2, q3, q4, q5, q6, q7⟩
  | forUpdate al => exact .done ⟨q1, q2, q3, q4, q5, q6, q7⟩
  | str =>
    have h1 := orElse_doc (errOf_fine (fine_clause (b := true) (fine_columnsText (cx := cx) h q1)))
      (orElse_doc (errOf_fine (fine_clause (b := !q.groupBy.isEmpty)
        (fine_ordersText (cx := cx) h L!"GROUP BY" q4)))
      (orElse_doc (errOf_fine (fine_clause (b := !q.having.isEmpty)
        (fine_condsText (cx := cx) h L!"HAVING" q5)))
      (orElse_doc (errOf_fine (fine_clause (b := q.outfile.file.isSome)
        (fine_outfileText (cx := cx) h q7)))
      (errOf_fine (fine_clause (b := !q.orderBy.isEmpty)
        (fine_ordersText (cx := cx) h L!"ORDER BY" q6))))))
    have h2 := good_strTables (cx := cx) h q2
    show Good RegSelect (selectStr cx S q)
    unfold selectStr
    split
    · rename_i e he
      refine ⟨⟨q1, q2, q3, q4, q5, q6, q7⟩, fun e' e1 => ?_⟩
      injection e1 with e1
      subst e1
      exact h1 _ he
    · exact ⟨⟨q1, h2.1, q3, q4, q5, q6, q7⟩,
        orElse_doc h2.2 (errOf_fine (fine_clause (fine_condsText h _ q3)))⟩

theorem good_update {q : Update} (hq : RegUpdate q) {op : UpdateOp} (ho : UpdateCall op) :
    Good RegUpdate (updateStep cx S q op) := by
  obtain ⟨q1, q2, q3⟩ := hq
  cases op with
  | allowUpdateAll => exact .done ⟨q1, q2, q3⟩
  | forbidUpdateAll => exact .done ⟨q1, q2, q3⟩
  | table t => exact (good_tables h (regular_single ho) q1).map fun _ r => ⟨r, q2, q3⟩
  | set a => exact (good_values h ho q2).map fun _ r => ⟨q1, r, q3⟩
  | where_ a => exact (good_conds h _ ho q3).map fun _ r => ⟨q1, q2, r⟩
  | join arg => exact (good_join h _ ho q1).map fun _ r => ⟨r, q2, q3⟩
  | leftJoin arg => exact (good_join h _ ho q1).map fun _ r => ⟨r, q2, q3⟩
  | rightJoin arg => exact (good_join h _ ho q1).map fun _ r => ⟨r, q2, q3⟩
  | on a => exact (good_on h ho q1).map fun _ r => ⟨r, q2, q3⟩
  | ignore al => exact .done ⟨q1, q2, q3⟩
  | str =>
    have h2 := good_strTables (cx := cx) h q1
    show Good RegUpdate (updateStr cx S q)
    unfold updateStr
    split
    · exact .raise ⟨q1, q2, q3⟩ rfl
    · exact ⟨⟨h2.1, q2, q3⟩, orElse_doc h2.2 (orElse_doc
        (errOf_fine (fine_clause (fine_valuesText h _ q2)))
        (errOf_fine (fine_clause (fine_condsText h _ q3))))⟩

theorem good_delete {q : Delete} (hq : RegDelete q) {op : DeleteOp} (ho : DeleteCall op) :
    Good RegDelete (deleteStep cx S q op) := by
  obtain ⟨q1, q2, q3⟩ := hq
  cases op with
  | allowDeleteAll => exact .done ⟨q1, q2, q3⟩
  | forbidDeleteAll => exact .done ⟨q1, q2, q3⟩
  | delete ts =>
    have ha : RegularArgs { pos := ts } := ⟨by simp, by simp, by simp, .inl ho⟩
    exact (good_tables h ha q1).map fun _ r => ⟨r, q2, q3⟩
  | from_ a => exact (good_tables h ho q2).map fun _ r => ⟨q1, r, q3⟩
  | fromTable t al =>
    exact (good_tables h (regular_pair ho.1 ho.2) q2).map fun _ r => ⟨q1, r, q3⟩
  | join arg => exact (good_join h _ ho q2).map fun _ r => ⟨q1, r, q3⟩
  | leftJoin arg => exact (good_join h _ ho q2).map fun _ r => ⟨q1, r, q3⟩
  | rightJoin arg => exact (good_join h _ ho q2).map fun _ r => ⟨q1, r, q3⟩
  | on a => exact (good_on h ho q2).map fun _ r => ⟨q1, r, q3⟩
  | where_ a => exact (good_conds h _ ho q3).map fun _ r => ⟨q1, q2, r⟩
  | ignore al => exact .done ⟨q1, q2, q3⟩
  | str =>
    have h1 := good_strTables (cx := cx) h q1
    have h2 := good_strTables (cx := cx) h q2
    show Good RegDelete (deleteStr cx S q)
    unfold deleteStr
    split
    · exact .raise ⟨q1, q2, q3⟩ rfl
    · dsimp only
      split
      · rename_i e he
        refine ⟨⟨q1, h2.1, q3⟩, fun e' e1 => ?_⟩
        injection e1 with e1
        subst e1
        exact h2.2 _ he
      · exact ⟨⟨h1.1, h2.1, q3⟩,
          orElse_doc h1.2 (errOf_fine (fine_clause (fine_condsText h _ q3)))⟩

theorem good_conflict {q : Insert} (hq : RegInsert q) {a : Args} (ha : RegularArgs a) :
    Good RegInsert (onConflictSet cx S q a) := by
  obtain ⟨q1, q2, q3, q4⟩ := hq
  unfold onConflictSet
  refine Good.unlessSelf ha ?_
  split
  · rename_i c rest e
    have ha' : RegularArgs { a with pos := rest } := by
      refine ⟨ha.names, ha.distinct, ha.values, .inl fun o ho => ?_⟩
      rcases ha.pos with h1 | ⟨kvs, h1, _⟩
      · exact h1 o (by rw [e]; simp [show o ∈ rest from ho])
      · rw [h1] at e; cases e
    exact (good_values h ha' q4).map fun _ r => ⟨q1, q2, q3, r⟩
  · exact .raise ⟨q1, q2, q3, q4⟩ rfl

theorem good_insert {q : Insert} (hq : RegInsert q) {op : InsertOp}
    (ho : InsertCall cx.backend op) : Good RegInsert (insertStep cx S q op) := by
  obtain ⟨q1, q2, q3, q4⟩ := hq
  cases op with
  | into t => exact (good_tables h (regular_single ho) q1).map fun _ r => ⟨r, q2, q3, q4⟩
  | values a =>
    exact Good.unlessSelf ho.1 ((good_rows h ho.1 ho.2 q2).map fun _ r => ⟨q1, r, q3, q4⟩)
  | onDuplicateKeyUpdate a =>
    obtain ⟨ha, hs⟩ := ho
    show Good RegInsert (onDuplicateKeyUpdate cx S q a)
    unfold onDuplicateKeyUpdate
    refine Good.unlessSelf ha ?_
    dsimp only
    have hu : Good RegInsert (if cx.backend.supportsOnDuplicateKeyUpdate then
        (valuesSet cx S q.onDup a).map fun r => { q with onDup := r } else (q, none)) := by
      split
      · exact (good_values h ha q3).map fun _ r => ⟨q1, q2, r, q4⟩
      · exact .done ⟨q1, q2, q3, q4⟩
    split
    · rename_i e; rw [e] at hu; exact hu
    · rename_i p e
      rw [e] at hu
      have hv : Good RegInsert (if cx.backend.supportsOnConflictDoUpdate then
          onConflictSet cx S p a else (p, none)) := by
        split
        · exact good_conflict h hu.1 ha
        · exact .done hu.1
      split
      · rename_i e; rw [e] at hv; exact hv
      · rename_i r e
        rw [e] at hv
        split
        · rename_i hr
          have hb : cx.backend = .sqlite := by
            cases hb : cx.backend <;> rw [hb] at hr <;> first | rfl | cases hr
          obtain ⟨h1, h2⟩ := hs hb
          rw [h1, h2]
          obtain ⟨r1, r2, r3, r4⟩ := hv.1
          exact .done ⟨r1, r2, r3, r4⟩
        · exact .done hv.1
  | ignore al => exact .done ⟨q1, q2, q3, q4⟩
  | str =>
    have h1 := orElse_doc (errOf_fine (fine_clause (b := !q.onConflict.isEmpty)
        (fine_valuesText (cx := cx) h (conflictKeyword cx q.conflict) q4)))
      (errOf_fine (fine_clause (b := !q.onDup.isEmpty)
        (fine_valuesText (cx := cx) h L!"ON DUPLICATE KEY UPDATE" q3)))
    have h2 := good_strTables (cx := cx) h q1
    show Good RegInsert (insertStr cx S q)
    unfold insertStr
    split
    · rename_i e he
      refine ⟨⟨q1, q2, q3, q4⟩, fun e' e1 => ?_⟩
      injection e1 with e1
      subst e1
      exact h1 _ he
    · exact ⟨⟨h2.1, q2, q3, q4⟩,
        orElse_doc h2.2 (errOf_fine (fine_clause (fine_rowsText h q2)))⟩

end

theorem good_history {σ ω : Type} {P : σ → Prop} {C : ω → Prop} {step : σ → ω → Upd σ}
    (h : ∀ s o, P s → C o → Good P (step s o)) {s : σ} (hs : P s) {ops : List ω}
    (ho : ∀ o ∈ ops, C o) : P (runOps step s ops) := by
  induction ops generalizing s with
  | nil => exact hs
  | cons o ops ih =>
    exact ih (h s o hs (ho o (by simp))).1 fun x hx => ho x (by simp [hx])

end Calls

end SqlPuzzle
