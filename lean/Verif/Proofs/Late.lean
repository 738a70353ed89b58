import Verif.Spec.Late
import Verif.Proofs.BackendFacts
import Verif.Proofs.EqFacts
import Verif.Proofs.CallFacts
import Verif.Proofs.RefineJoin

/-!
Comparing and building under two backends, without comparisons by text.
-/

namespace SqlPuzzle.Late
open Spec SqlPuzzle

/-- Two meanings of `==` that agree where nothing is compared by text. -/
def EqSame (S S' : Sem) : Prop := ∀ a b, Untexted a → Untexted b → S.eq a b = S'.eq a b

theorem not_textual {o : Obj} (h : Untexted o) : o.textual = false := by
  cases h with
  | mk h _ => cases o <;> first | rfl | exact absurd trivial h

theorem part {o : Obj} (h : Untexted o) : ∀ x ∈ parts o, Untexted x := by
  cases h with
  | mk _ h => exact h

section
variable {cx cx' : Ctx} {S S' : Sem} (h : EqSame S S')
include h

theorem columnEq_same {a b : Column} (ha : ∀ x ∈ colParts a, Untexted x)
    (hb : ∀ x ∈ colParts b, Untexted x) : columnEq S a b = columnEq S' a b :=
  andR_same (h _ _ (ha _ (by simp [colParts])) (hb _ (by simp [colParts])))
    (h _ _ (ha _ (by simp [colParts])) (hb _ (by simp [colParts])))

theorem orderEq_same {a b : Order} (ha : ∀ x ∈ orderParts a, Untexted x)
    (hb : ∀ x ∈ orderParts b, Untexted x) : orderEq S a b = orderEq S' a b :=
  andR_same (h _ _ (ha _ (by simp [orderParts])) (hb _ (by simp [orderParts]))) rfl

theorem condEq_same {a b : Cond} (ha : ∀ x ∈ condParts a, Untexted x)
    (hb : ∀ x ∈ condParts b, Untexted x) : condEq cx S a b = condEq cx' S' a b := by
  cases a with
  | cond on c k v =>
    have hac := ha c (by simp [condParts])
    have hav := ha v (by simp [condParts])
    cases b with
    | item _ => rfl
    | cond on' c' k' v' =>
      have hbc := hb c' (by simp [condParts])
      have hbv := hb v' (by simp [condParts])
      unfold condEq
      simp only [h _ _ hac hbc, h _ _ hav hbv, h _ _ hav hbc, h _ _ hac hbv]
  | item o =>
    have hao := ha o (by simp [condParts])
    cases b with
    | item p => exact h _ _ hao (hb p (by simp [condParts]))
    | cond on c k v =>
      unfold condEq
      simp only [not_textual hao, Bool.false_eq_true, if_false]

theorem condsEq_same {a b : List Cond} (ha : ∀ x ∈ a.flatMap condParts, Untexted x)
    (hb : ∀ x ∈ b.flatMap condParts, Untexted x) : condsEq cx S a b = condsEq cx' S' a b :=
  flat_same (condEq_same h) ha hb

theorem valueEq_same {a b : Value} (ha : ∀ x ∈ valueParts a, Untexted x)
    (hb : ∀ x ∈ valueParts b, Untexted x) : valueEq cx S a b = valueEq cx' S' a b := by
  cases a with
  | value c v =>
    cases b with
    | item _ => rfl
    | value c' v' =>
      exact andR_same (h _ _ (ha _ (by simp [valueParts])) (hb _ (by simp [valueParts])))
        (h _ _ (ha _ (by simp [valueParts])) (hb _ (by simp [valueParts])))
  | item o =>
    have hao := ha o (by simp [valueParts])
    cases b with
    | item p => exact h _ _ hao (hb p (by simp [valueParts]))
    | value c v =>
      unfold valueEq
      simp only [not_textual hao, Bool.false_eq_true, if_false]

theorem sameJoin_same {a b : Join} (ha : ∀ x ∈ joinParts a, Untexted x)
    (hb : ∀ x ∈ joinParts b, Untexted x) : sameJoin cx S a b = sameJoin cx' S' a b := by
  obtain ⟨ha, ha'⟩ := List.forall_mem_append.mp ha
  obtain ⟨hb, hb'⟩ := List.forall_mem_append.mp hb
  exact andR_same (andR_same (h _ _ (ha _ (by simp)) (hb _ (by simp)))
    (h _ _ (ha _ (by simp)) (hb _ (by simp)))) (condsEq_same h ha' hb')

theorem tableEq_same {a b : Table} (ha : ∀ x ∈ tableParts a, Untexted x)
    (hb : ∀ x ∈ tableParts b, Untexted x) : tableEq cx S a b = tableEq cx' S' a b := by
  obtain ⟨ha, ha'⟩ := List.forall_mem_append.mp ha
  obtain ⟨hb, hb'⟩ := List.forall_mem_append.mp hb
  exact andR_same (andR_same (h _ _ (ha _ (by simp)) (hb _ (by simp)))
    (h _ _ (ha _ (by simp)) (hb _ (by simp))))
    (flat_same (fun ha hb => andR_same rfl (sameJoin_same h ha hb)) ha' hb')

theorem optEq_same {a b : Option Obj} (ha : ∀ x ∈ a.toList, Untexted x)
    (hb : ∀ x ∈ b.toList, Untexted x) : optEq S a b = optEq S' a b := by
  cases a <;> cases b <;> first | rfl | exact h _ _ (ha _ (by simp)) (hb _ (by simp))

theorem selectEq_same {a b : Select} (ha : ∀ x ∈ selectParts a, Untexted x)
    (hb : ∀ x ∈ selectParts b, Untexted x) : selectEq cx S a b = selectEq cx' S' a b := by
  simp only [selectParts, outfileParts, List.forall_mem_append] at ha hb
  obtain ⟨⟨⟨⟨⟨⟨a1, a2⟩, a3⟩, a4⟩, a5⟩, a6⟩, ⟨⟨a7, a8⟩, a9⟩, a0⟩ := ha
  obtain ⟨⟨⟨⟨⟨⟨b1, b2⟩, b3⟩, b4⟩, b5⟩, b6⟩, ⟨⟨b7, b8⟩, b9⟩, b0⟩ := hb
  unfold selectEq
  rw [flat_same (columnEq_same h) a1 b1, flat_same (tableEq_same (cx' := cx') h) a2 b2,
    condsEq_same (cx' := cx') h a3 b3, flat_same (orderEq_same h) a4 b4,
    condsEq_same (cx' := cx') h a5 b5, flat_same (orderEq_same h) a6 b6, optEq_same h a7 b7,
    optEq_same h a8 b8, optEq_same h a9 b9, optEq_same h a0 b0]

theorem insertEq_same {a b : Insert} (ha : ∀ x ∈ insertParts a, Untexted x)
    (hb : ∀ x ∈ insertParts b, Untexted x) : insertEq cx S a b = insertEq cx' S' a b := by
  simp only [insertParts, List.forall_mem_append] at ha hb
  obtain ⟨⟨⟨a1, a2⟩, a3⟩, a4⟩ := ha
  obtain ⟨⟨⟨b1, b2⟩, b3⟩, b4⟩ := hb
  unfold insertEq
  rw [flat_same (tableEq_same (cx' := cx') h) a1 b1, flat_same (valueEq_same (cx' := cx') h) a3 b3,
    flat_same (valueEq_same (cx' := cx') h) a4 b4,
    flat_same (fun ha hb => flat_same (valueEq_same (cx' := cx') h) ha hb) a2 b2]

theorem updateEq_same {a b : Update} (ha : ∀ x ∈ updateParts a, Untexted x)
    (hb : ∀ x ∈ updateParts b, Untexted x) : updateEq cx S a b = updateEq cx' S' a b := by
  simp only [updateParts, List.forall_mem_append] at ha hb
  obtain ⟨⟨a1, a2⟩, a3⟩ := ha
  obtain ⟨⟨b1, b2⟩, b3⟩ := hb
  unfold updateEq
  rw [flat_same (tableEq_same (cx' := cx') h) a1 b1, flat_same (valueEq_same (cx' := cx') h) a2 b2,
    condsEq_same (cx' := cx') h a3 b3]

theorem deleteEq_same {a b : Delete} (ha : ∀ x ∈ deleteParts a, Untexted x)
    (hb : ∀ x ∈ deleteParts b, Untexted x) : deleteEq cx S a b = deleteEq cx' S' a b := by
  simp only [deleteParts, List.forall_mem_append] at ha hb
  obtain ⟨⟨a1, a2⟩, a3⟩ := ha
  obtain ⟨⟨b1, b2⟩, b3⟩ := hb
  unfold deleteEq
  rw [flat_same (tableEq_same (cx' := cx') h) a1 b1, flat_same (tableEq_same (cx' := cx') h) a2 b2,
    condsEq_same (cx' := cx') h a3 b3]

theorem eqF_same {a b : Obj} (ha : Untexted a) (hb : Untexted b) :
    eqF cx S a b = eqF cx' S' a b := by
  have pa := part ha
  have pb := part hb
  have tb := not_textual hb
  unfold eqF
  rw [not_textual ha]
  simp only [Bool.false_eq_true, if_false]
  split <;> first
    | rfl
    | (rw [tb]; rfl)
    | exact eqListR_same fun x hx y hy => h x y (pa x hx) (pb y hy)
    | exact ite_same (h _ _ (pa _ (by simp [parts])) (pb _ (by simp [parts]))) rfl
    | exact condsEq_same h pa pb
    | exact selectEq_same h pa pb
    | exact andR_same (h _ _ (pa _ (by simp [parts])) (pb _ (by simp [parts])))
        (andR_same (h _ _ (pa _ (by simp [parts])) (pb _ (by simp [parts]))) rfl)
    | exact insertEq_same h pa pb
    | exact updateEq_same h pa pb
    | exact deleteEq_same h pa pb

end

theorem sem_eq_same (cx cx' : Ctx) (n : Nat) : EqSame (sem cx n) (sem cx' n) := by
  induction n with
  | zero => exact fun _ _ _ _ => rfl
  | succ n ih => exact fun a b ha hb => eqF_same ih ha hb

/-! ### The arguments -/

theorem untexted_none : Untexted .none := .mk id fun _ h => by cases h
theorem untexted_str (s : Str) : Untexted (.str s) := .mk id fun _ h => by cases h
theorem untexted_int (i : Int) : Untexted (.int i) := .mk id fun _ h => by cases h
theorem untexted_list {xs : List Obj} (h : ∀ x ∈ xs, Untexted x) : Untexted (.list xs) := .mk id h
theorem untexted_tuple {xs : List Obj} (h : ∀ x ∈ xs, Untexted x) : Untexted (.tuple xs) := .mk id h

theorem untexted_iterate {v : Obj} (hv : Untexted v) {xs : List Obj} (e : v.iterate = some xs) :
    ∀ x ∈ xs, Untexted x := by
  have hp := part hv
  intro x hx
  cases v <;> simp only [Obj.iterate, Option.some.injEq, reduceCtorEq] at e <;> subst e <;> first
    | exact hp x hx
    | (obtain ⟨i, _, rfl⟩ := List.mem_map.mp hx; exact untexted_int _)
    | (obtain ⟨i, _, rfl⟩ := List.mem_map.mp hx; exact untexted_str _)
    | (obtain ⟨p, hm, rfl⟩ := List.mem_map.mp hx
       exact hp p.1 (List.mem_flatMap.mpr ⟨p, hm, by simp⟩))

theorem untexted_asTuple {x : Obj} (h : Untexted x) : ∀ y ∈ asTuple x, Untexted y := by
  have hp := part h
  unfold asTuple
  split
  · exact hp
  · exact hp
  · simpa using h

theorem truthy_args {a : Args} (h : UntextedArgs a) :
    UntextedArgs { a with pos := a.pos.filter Obj.truthy } :=
  ⟨fun x hx => h.pos x (List.mem_of_mem_filter hx), h.kw, h.keywords,
    fun kvs hx => h.dicts kvs (List.mem_of_mem_filter hx)⟩

theorem source_untexted {o : ParseOpts} {a : Args} (h : UntextedArgs a) {g : List Obj}
    (hg : Calls.Source o a g) : ∀ x ∈ g, Untexted x := by
  cases hg with
  | whole => exact h.pos
  | item x _ hx => exact untexted_asTuple (h.pos x hx)
  | inList xs x _ hp hx =>
    rcases hp with hp | hp
    · exact untexted_asTuple (part (h.pos (.list xs) (by simp [hp])) x hx)
    · exact untexted_asTuple (part (h.pos (.tuple xs) (by simp [hp])) x hx)
  | inDict kvs k v hp hm =>
    have hd := part (h.pos (.dict kvs) (by simp [hp]))
    intro x hx
    exact hd x (List.mem_flatMap.mpr ⟨(k, v), hm, hx⟩)
  | keyword k v hm => simp [untexted_str, h.kw _ hm]

theorem parsed_untexted {S : Sem} {o : ParseOpts} (ho : o = pairOpts ∨ o = nameOpts)
    {a : Args} (h : UntextedArgs a) {bs : List (List Obj)} (hb : parseArgs S o a = .ok bs)
    {b : List Obj} (hm : b ∈ bs) : Untexted (pairOf b).1 ∧ Untexted (pairOf b).2 := by
  obtain ⟨g, h1, h2⟩ := Calls.parsed_source ho hb hm
  have hg := source_untexted h h1
  rw [Calls.batch_pair ho h2]
  match g with
  | [] => exact ⟨untexted_none, untexted_none⟩
  | [x] => exact ⟨hg x (by simp), untexted_none⟩
  | x :: y :: _ => exact ⟨hg x (by simp), hg y (by simp)⟩

theorem parseDict_same (S S' : Sem) (o : ParseOpts) {kw : List (Str × Obj)}
    (hn : (kw.map Prod.fst).Nodup) :
    parseDict S o (kw.map fun p => ((.str p.1 : Obj), p.2)) =
      parseDict S' o (kw.map fun p => ((.str p.1 : Obj), p.2)) := by
  unfold parseDict
  rw [sortItems_str S hn, sortItems_str S' hn]

theorem parse_same (S S' : Sem) (o : ParseOpts) {a : Args} (h : UntextedArgs a) :
    parseArgs S o a = parseArgs S' o a := by
  have hk : parseKeyed S o a = parseKeyed S' o a := by
    unfold parseKeyed
    split
    · rename_i kvs hv
      obtain ⟨items, rfl, hn⟩ := h.dicts kvs (by simp [asDict_ok hv])
      rw [parseDict_same S S' o hn]
    · rw [show parseDict S o a.kwDict = parseDict S' o a.kwDict from parseDict_same S S' o h.keywords]
  unfold parseArgs
  rw [hk]

/-! ### The parts of a query -/

/-- The two calls end in the same way, in a state with the property. -/
def Both {σ : Type} (P : σ → Prop) (u u' : Upd σ) : Prop := u = u' ∧ P u.1

theorem Both.same {σ : Type} {P : σ → Prop} {u : Upd σ} (h : P u.1) : Both P u u := ⟨rfl, h⟩

theorem Both.withR {σ α : Type} {P : σ → Prop} {s : σ} {r r' : R α} {f f' : α → Upd σ} (hs : P s)
    (hr : r = r') (hf : ∀ a, r = .ok a → Both P (f a) (f' a)) :
    Both P (withR s r f) (withR s r' f') := by
  subst hr
  cases r with
  | error e => exact .same hs
  | ok a => exact hf a rfl

theorem Both.forUpd {σ α : Type} {P : σ → Prop} {f f' : σ → α → Upd σ} {xs : List α}
    (hf : ∀ s, ∀ x ∈ xs, P s → Both P (f s x) (f' s x)) {s : σ} (hs : P s) :
    Both P (forUpd f s xs) (forUpd f' s xs) := by
  induction xs generalizing s with
  | nil => exact .same hs
  | cons x xs ih =>
    obtain ⟨h1, h2⟩ := hf s x (by simp) hs
    unfold SqlPuzzle.forUpd
    rw [← h1]
    split
    · rename_i s' h; rw [h] at h2; exact ih (fun s y hy => hf s y (by simp [hy])) h2
    · rename_i s' e h; rw [h] at h2; exact .same h2

theorem anyR_same {α : Type} {f g : α → R Bool} {xs : List α} (h : ∀ x ∈ xs, f x = g x) :
    anyR f xs = anyR g xs := by
  induction xs with
  | nil => rfl
  | cons x xs ih => rw [anyR, anyR, h x (by simp), ih fun y hy => h y (by simp [hy])]

theorem Both.append {α : Type} {P : α → Prop} {eq eq' : α → α → R Bool} {ps : List α} {p : α}
    (heq : ∀ a b, P a → P b → eq a b = eq' a b) (hp : P p) (hps : ∀ x ∈ ps, P x) :
    Both (fun l => ∀ x ∈ l, P x) (appendUnique eq ps p) (appendUnique eq' ps p) := by
  refine ⟨?_, appendUnique_inv hps hp⟩
  unfold appendUnique
  rw [anyR_same fun x hx => heq x p (hps x hx) hp]

theorem Both.map {σ τ : Type} {P : σ → Prop} {Q : τ → Prop} {f : σ → τ} {u u' : Upd σ}
    (h : Both P u u') (hf : ∀ s, P s → Q (f s)) : Both Q (u.map f) (u'.map f) :=
  ⟨by rw [h.1], hf _ h.2⟩

theorem Both.unlessSelf {σ : Type} {P : σ → Prop} {a : Args} {s : σ} (hs : P s) {u u' : Upd σ}
    (h : Both P u u') :
    Both P (if kwSelf a then (s, some .typeError) else u) (if kwSelf a then (s, some .typeError) else u') := by
  split
  · exact .same hs
  · exact h

/-- Nothing in the list of components is compared by text. -/
def Clear {α : Type} (f : α → List Obj) (xs : List α) : Prop := ∀ a ∈ xs, ∀ x ∈ f a, Untexted x

theorem clear_iff {α : Type} {f : α → List Obj} {xs : List α} :
    Clear f xs ↔ ∀ x ∈ xs.flatMap f, Untexted x := by
  simp only [Clear, List.mem_flatMap]
  exact ⟨fun h x ⟨a, ha, hx⟩ => h a ha x hx, fun h a ha x hx => h x ⟨a, ha, hx⟩⟩

theorem relValue_untexted {k : Rel} {v w : Obj} (hv : Untexted v) (h : relValue k v = .ok w) :
    Untexted w := by
  have key : ∀ v', Untexted v' → (if v'.allowed k.allowedTypes then .ok v' else
      (.error .invalidArgument : R Obj)) = .ok w → Untexted w := by
    intro v' hv' e
    split at e
    · injection e with e; exact e ▸ hv'
    · cases e
  refine key _ ?_ h
  split
  · split
    · rename_i xs hx; exact untexted_list (untexted_iterate hv hx)
    · exact hv
  · exact hv

theorem mkCond_untexted {on : Bool} {c v : Obj} {x : Cond} (hc : Untexted c) (hv : Untexted v)
    (h : mkCond on c v = .ok x) : ∀ y ∈ condParts x, Untexted y := by
  unfold mkCond at h
  obtain ⟨_, _, h⟩ := bind_ok.mp h
  obtain ⟨⟨k, w⟩, h1, h⟩ := bind_ok.mp h
  injection h with h
  subst h
  have hw : Untexted w := by
    unfold condValue at h1
    obtain ⟨_, _, h1⟩ := bind_ok.mp h1
    split at h1
    · injection h1 with h1
      injection h1 with h1 h2
      subst h1 h2
      exact part hv _ (by simp [parts])
    · obtain ⟨w', h2, h3⟩ := bind_ok.mp h1
      injection h3 with h3
      injection h3 with h3 h4
      subst h3 h4
      exact relValue_untexted hv h2
  simp [condParts, hc, hw]

theorem mkColumn_ok {n al : Obj} {c : Column} (e : mkColumn n al = .ok c) : c = ⟨n, al⟩ := by
  unfold mkColumn at e
  obtain ⟨_, _, e⟩ := bind_ok.mp e
  obtain ⟨_, _, e⟩ := bind_ok.mp e
  injection e with e
  exact e.symm

theorem mkValue_ok {n al : Obj} {c : Value} (e : mkValue n al = .ok c) : c = .value n al := by
  unfold mkValue at e
  obtain ⟨_, _, e⟩ := bind_ok.mp e
  obtain ⟨_, _, e⟩ := bind_ok.mp e
  injection e with e
  exact e.symm

section
variable {cx cx' : Ctx} {S S' : Sem} (h : EqSame S S')
include h

theorem conds_both (on : Bool) {ps : List Cond} {a : Args} (ha : UntextedArgs a)
    (hp : Clear condParts ps) :
    Both (Clear condParts) (condsWhere cx S on ps a) (condsWhere cx' S' on ps a) := by
  unfold condsWhere
  refine Both.unlessSelf hp ?_
  split
  · rename_i o ho
    obtain ⟨h1, h2⟩ := Calls.customArg_some ho
    refine .same fun c hc => ?_
    rcases List.mem_append.mp hc with hc | hc
    · exact hp c hc
    · rw [List.mem_singleton.mp hc]
      simpa [condParts] using ha.pos o (by simp [h1])
  · split
    · exact Both.forUpd (fun ps o ho hps => Both.append (fun a b => condEq_same h)
        (by simpa [condParts] using ha.pos o ho) hps) hp
    · refine Both.withR hp (parse_same S S' _ ha) fun bs hb => ?_
      refine Both.forUpd (fun ps b hm hps => Both.withR hps rfl fun c hc => ?_) hp
      obtain ⟨h1, h2⟩ := parsed_untexted (.inl rfl) ha hb hm
      exact Both.append (fun a b => condEq_same h) (mkCond_untexted h1 h2 hc) hps

theorem columns_both {cs : List Column} {a : Args} (ha : UntextedArgs a) (hp : Clear colParts cs) :
    Both (Clear colParts) (columnsAdd S cs a) (columnsAdd S' cs a) := by
  unfold columnsAdd
  refine Both.unlessSelf hp (Both.withR hp (parse_same S S' _ ha) fun bs hb => ?_)
  refine Both.forUpd (fun cs b hm hcs => Both.withR hcs rfl fun c hc => ?_) hp
  obtain ⟨h1, h2⟩ := parsed_untexted (.inr rfl) ha hb hm
  refine Both.append (fun a b => columnEq_same h) ?_ hcs
  rw [mkColumn_ok hc]
  simp [colParts, h1, h2]

theorem tables_both {ts : List Table} {a : Args} (ha : UntextedArgs a) (hp : Clear tableParts ts) :
    Both (Clear tableParts) (tablesSet cx S ts a) (tablesSet cx' S' ts a) := by
  unfold tablesSet
  have ha' := truthy_args ha
  refine Both.unlessSelf hp (Both.withR hp (parse_same S S' _ ha') fun bs hb => ?_)
  refine Both.forUpd (fun cs b hm hcs => Both.withR hcs rfl fun c hc => ?_) hp
  obtain ⟨h1, h2⟩ := parsed_untexted (.inr rfl) ha' hb hm
  refine Both.append (fun a b => tableEq_same h) ?_ hcs
  rw [Calls.mkTable_ok hc]
  simp [tableParts, h1, h2]

theorem values_both {vs : List Value} {a : Args} (ha : UntextedArgs a) (hp : Clear valueParts vs) :
    Both (Clear valueParts) (valuesSet cx S vs a) (valuesSet cx' S' vs a) := by
  unfold valuesSet
  refine Both.unlessSelf hp ?_
  split
  · rename_i o ho
    obtain ⟨h1, h2⟩ := Calls.customArg_some ho
    refine .same fun c hc => ?_
    rcases List.mem_append.mp hc with hc | hc
    · exact hp c hc
    · rw [List.mem_singleton.mp hc]
      simpa [valueParts] using ha.pos o (by simp [h1])
  · refine Both.withR hp (parse_same S S' _ ha) fun bs hb => ?_
    refine Both.forUpd (fun ps b hm hps => Both.withR hps rfl fun c hc => ?_) hp
    obtain ⟨h1, h2⟩ := parsed_untexted (.inl rfl) ha hb hm
    refine Both.append (fun a b => valueEq_same h) ?_ hps
    rw [mkValue_ok hc]
    simp [valueParts, h1, h2]

theorem rows_both {rows : List (List Value)} {a : Args} (ha : UntextedArgs a)
    (hp : Clear (·.flatMap valueParts) rows) :
    Both (Clear (·.flatMap valueParts)) (rowsAdd cx S rows a) (rowsAdd cx' S' rows a) := by
  have hv := values_both (cx := cx) (cx' := cx') h (vs := []) ha (fun _ h => by cases h)
  unfold rowsAdd
  rw [← hv.1]
  split
  · rename_i row e
    have h2 := hv.2
    rw [e] at h2
    refine .same fun r hr => ?_
    rcases List.mem_append.mp hr with hr | hr
    · exact hp r hr
    · rw [List.mem_singleton.mp hr]
      exact clear_iff.mp h2
  · exact .same hp

theorem orderPut_same (hx : cx.env = cx'.env) {os : List Order} {c : Obj} (d : Obj)
    (ho : Clear orderParts os) (hc : Untexted c) :
    orderPut cx S os c d = orderPut cx' S' os c d := by
  have hs : ∀ v, orderSort cx v = orderSort cx' v := fun v => by unfold orderSort; rw [hx]
  induction os with
  | nil => unfold orderPut mkOrder; simp only [hs]
  | cons o os ih =>
    unfold orderPut
    rw [h _ _ (ho o (by simp) o.col (by simp [orderParts])) hc, hs,
      ih fun x hx => ho x (by simp [hx])]

omit h in
theorem orderPut_clear {os os' : List Order} {c d : Obj} (ho : Clear orderParts os)
    (hc : Untexted c) (e : orderPut cx S os c d = .ok os') : Clear orderParts os' := by
  induction os generalizing os' with
  | nil =>
    unfold orderPut at e
    obtain ⟨o, h1, e⟩ := bind_ok.mp e
    unfold mkOrder at h1
    obtain ⟨_, _, h1⟩ := bind_ok.mp h1
    obtain ⟨_, _, h1⟩ := bind_ok.mp h1
    cases h1
    cases e
    simpa [Clear, orderParts] using hc
  | cons o os ih =>
    unfold orderPut at e
    obtain ⟨b, _, e⟩ := bind_ok.mp e
    split at e
    · obtain ⟨_, _, e⟩ := bind_ok.mp e
      cases e
      intro x hx
      rcases List.mem_cons.mp hx with rfl | hx
      · exact ho o (by simp)
      · exact ho x (by simp [hx])
    · obtain ⟨r, h1, e⟩ := bind_ok.mp e
      cases e
      intro x hx
      rcases List.mem_cons.mp hx with rfl | hx
      · exact ho _ (by simp)
      · exact ih (fun y hy => ho y (by simp [hy])) h1 x hx

theorem orders_both (hx : cx.env = cx'.env) {os : List Order} {a : Args} (ha : UntextedArgs a)
    (hp : Clear orderParts os) :
    Both (Clear orderParts) (ordersAdd cx S os a) (ordersAdd cx' S' os a) := by
  unfold ordersAdd
  refine Both.unlessSelf hp (Both.withR hp (parse_same S S' _ ha) fun bs hb => ?_)
  refine Both.forUpd (fun cs b hm hcs => ?_) hp
  obtain ⟨h1, h2⟩ := parsed_untexted (.inr rfl) ha hb hm
  exact Both.withR hcs (orderPut_same h hx _ hcs h1) fun c hc => .same (orderPut_clear hcs h1 hc)

omit h in
theorem updateLast_both {α : Type} {P : α → Prop} {f f' : α → Upd α} {xs : List α}
    (hf : ∀ x, P x → Both P (f x) (f' x)) (hx : ∀ x ∈ xs, P x) :
    updateLast f xs = updateLast f' xs ∧
      ∀ r, updateLast f xs = some r → ∀ x ∈ r.1, P x := by
  rcases List.eq_nil_or_concat' xs with rfl | ⟨ys, y, rfl⟩
  · exact ⟨rfl, fun r e => by cases e⟩
  · have hy := hf y (hx y (by simp))
    rw [Refine.updateLast_append, Refine.updateLast_append, ← hy.1]
    refine ⟨rfl, fun r e => ?_⟩
    injection e with e
    subst e
    intro x hx'
    rcases List.mem_append.mp hx' with hx' | hx'
    · exact hx x (by simp [hx'])
    · rw [List.mem_singleton.mp hx']
      exact hy.2

omit h in
theorem mkJoin_same (ty : JoinType) {arg : Obj} (ha : arg.isSql = false) :
    mkJoin S ty arg = mkJoin S' ty arg := by
  unfold mkJoin
  split <;> first | rfl | simp only [ha, Bool.false_eq_true, if_false]

omit h in
theorem mkJoin_clear {ty : JoinType} {arg : Obj} (ha : Untexted arg) {j : Join}
    (e : mkJoin S ty arg = .ok j) : ∀ x ∈ joinParts j, Untexted x := by
  have hp := part ha
  unfold mkJoin at e
  split at e
  · obtain ⟨t, h1, h2⟩ := bind_ok.mp e
    cases h2
    rw [Calls.mkTable_ok h1]
    simpa [joinParts, parts] using hp
  · obtain ⟨t, h1, h2⟩ := bind_ok.mp e
    cases h2
    rw [Calls.mkTable_ok h1]
    simpa [joinParts, parts] using hp
  · obtain ⟨t, h1, h2⟩ := bind_ok.mp e
    cases h2
    rw [Calls.mkTable_ok h1]
    simpa [joinParts, parts] using hp
  · cases e
    simp [joinParts, untexted_str, untexted_none]
  · split at e
    · obtain ⟨_, _, h2⟩ := bind_ok.mp e
      cases h2
    · cases e

omit h in
theorem join_both {ts : List Table} {ty : JoinType} (ht : ty ≠ .full) {arg : Obj}
    (ha : LateJoin arg) (hp : Clear tableParts ts) :
    Both (Clear tableParts) (tablesJoin cx S ts ty arg) (tablesJoin cx' S' ts ty arg) := by
  have hf : (ty == JoinType.full) = false := by simpa using ht
  have key := updateLast_both (P := fun t => ∀ x ∈ tableParts t, Untexted x) (xs := ts)
    (f := fun t => withR t (mkJoin S ty arg) fun j => ({ t with joins := t.joins ++ [j] }, none))
    (f' := fun t => withR t (mkJoin S' ty arg) fun j => ({ t with joins := t.joins ++ [j] }, none))
    (fun t ht => Both.withR ht (mkJoin_same ty ha.2) fun j hj => .same (by
      have h1 := mkJoin_clear ha.1 hj
      intro x hx
      simp only [tableParts, List.flatMap_append, List.mem_append] at hx ht
      rcases hx with hx | hx | hx
      · exact ht x (.inl hx)
      · exact ht x (.inr hx)
      · exact h1 x (by simpa using hx))) hp
  unfold tablesJoin
  rw [hf]
  simp only [Bool.false_and, Bool.false_eq_true, if_false]
  rw [← key.1]
  split
  · exact .same hp
  · rename_i r e
    exact .same (key.2 r e)

theorem tableOn_both {t : Table} {a : Args} (ha : UntextedArgs a)
    (hp : ∀ x ∈ tableParts t, Untexted x) :
    Both (fun t => ∀ x ∈ tableParts t, Untexted x) (tableOn cx S t a) (tableOn cx' S' t a) := by
  obtain ⟨hn, hj⟩ := List.forall_mem_append.mp hp
  have key := updateLast_both (P := fun j => ∀ x ∈ joinParts j, Untexted x) (xs := t.joins)
    (f := fun j : Join =>
      let r := condsWhere cx S true j.ons a
      ({ j with ons := r.1 }, r.2))
    (f' := fun j : Join =>
      let r := condsWhere cx' S' true j.ons a
      ({ j with ons := r.1 }, r.2))
    (fun j hj => by
      obtain ⟨h1, h2⟩ := List.forall_mem_append.mp hj
      obtain ⟨h3, h4⟩ := conds_both (cx := cx) (cx' := cx') h true ha (clear_iff.mpr h2)
      refine ⟨by simp only [h3], ?_⟩
      exact List.forall_mem_append.mpr ⟨h1, clear_iff.mp h4⟩) (clear_iff.mpr hj)
  unfold tableOn
  rw [← key.1]
  refine ⟨rfl, ?_⟩
  split
  · exact hp
  · rename_i js e he
    exact List.forall_mem_append.mpr ⟨hn, clear_iff.mp (key.2 _ he)⟩

theorem on_both {ts : List Table} {a : Args} (ha : UntextedArgs a) (hp : Clear tableParts ts) :
    Both (Clear tableParts) (tablesOn cx S ts a) (tablesOn cx' S' ts a) := by
  have key := updateLast_both (P := fun t => ∀ x ∈ tableParts t, Untexted x) (xs := ts)
    (fun t ht => tableOn_both (cx := cx) (cx' := cx') h ha ht) hp
  unfold tablesOn
  refine Both.unlessSelf hp ?_
  rw [← key.1]
  split
  · exact .same hp
  · rename_i r e
    exact .same (key.2 r e)

/-! ### The queries -/

omit h in
theorem fromTable_untexted {t al : Obj} (ht : Untexted t ∧ Untexted al) :
    UntextedArgs { pos := [.tuple [t, al]] } :=
  ⟨by simpa using untexted_tuple (by simp [ht.1, ht.2]), fun _ h => (by cases h), List.nodup_nil,
    fun kvs h => (by simp at h)⟩

/-- The invariant of a `Select`. -/
structure ClearSelect (q : Select) : Prop where
  columns : Clear colParts q.columns
  tables : Clear tableParts q.tables
  where_ : Clear condParts q.where_
  groupBy : Clear orderParts q.groupBy
  having : Clear condParts q.having
  orderBy : Clear orderParts q.orderBy

theorem select_both (hx : cx.env = cx'.env) {q : Select} (hq : ClearSelect q) {op : SelectOp}
    (ho : LateSelect op) : Both ClearSelect (selectStep cx S q op) (selectStep cx' S' q op) := by
  cases op with
  | columns a => unfold selectStep; exact Both.map (columns_both h ho hq.columns) (fun _ e => ⟨e, hq.tables, hq.where_, hq.groupBy, hq.having, hq.orderBy⟩)
  | from_ a => unfold selectStep; exact Both.map (tables_both h ho hq.tables) (fun _ e => ⟨hq.columns, e, hq.where_, hq.groupBy, hq.having, hq.orderBy⟩)
  | fromTable t al =>
    unfold selectStep; exact Both.map (tables_both h (fromTable_untexted ho) hq.tables) (fun _ e => ⟨hq.columns, e, hq.where_, hq.groupBy, hq.having, hq.orderBy⟩)
  | join ty arg => unfold selectStep; exact Both.map (join_both ho.1 ho.2 hq.tables) (fun _ e => ⟨hq.columns, e, hq.where_, hq.groupBy, hq.having, hq.orderBy⟩)
  | on a => unfold selectStep; exact Both.map (on_both h ho hq.tables) (fun _ e => ⟨hq.columns, e, hq.where_, hq.groupBy, hq.having, hq.orderBy⟩)
  | where_ a => unfold selectStep; exact Both.map (conds_both h _ ho hq.where_) (fun _ e => ⟨hq.columns, hq.tables, e, hq.groupBy, hq.having, hq.orderBy⟩)
  | having a => unfold selectStep; exact Both.map (conds_both h _ ho hq.having) (fun _ e => ⟨hq.columns, hq.tables, hq.where_, hq.groupBy, e, hq.orderBy⟩)
  | groupBy a => unfold selectStep; exact Both.map (orders_both h hx ho hq.groupBy) (fun _ e => ⟨hq.columns, hq.tables, hq.where_, e, hq.having, hq.orderBy⟩)
  | orderBy a => unfold selectStep; exact Both.map (orders_both h hx ho hq.orderBy) (fun _ e => ⟨hq.columns, hq.tables, hq.where_, hq.groupBy, hq.having, e⟩)
  | str => exact ho.elim
  | _ => unfold selectStep; exact .same ⟨hq.columns, hq.tables, hq.where_, hq.groupBy, hq.having, hq.orderBy⟩

/-- The invariant of an `Insert`. -/
structure ClearInsert (q : Insert) : Prop where
  tables : Clear tableParts q.tables
  rows : Clear (·.flatMap valueParts) q.rows

theorem insert_both {q : Insert} (hq : ClearInsert q) {op : InsertOp}
    (ho : LateInsert op) : Both ClearInsert (insertStep cx S q op) (insertStep cx' S' q op) := by
  cases op with
  | into t => unfold insertStep; exact Both.map (tables_both h ho hq.tables) (fun _ e => ⟨e, hq.rows⟩)
  | values a =>
    unfold insertStep; exact Both.unlessSelf hq (Both.map (rows_both h ho hq.rows) (fun _ e => ⟨hq.tables, e⟩))
  | ignore _ => unfold insertStep; exact .same ⟨hq.tables, hq.rows⟩
  | onDuplicateKeyUpdate _ => exact ho.elim
  | str => exact ho.elim

/-- The invariant of an `Update`. -/
structure ClearUpdate (q : Update) : Prop where
  tables : Clear tableParts q.tables
  values : Clear valueParts q.values
  where_ : Clear condParts q.where_

theorem update_both {q : Update} (hq : ClearUpdate q) {op : UpdateOp}
    (ho : LateUpdate op) : Both ClearUpdate (updateStep cx S q op) (updateStep cx' S' q op) := by
  cases op with
  | table t => unfold updateStep; exact Both.map (tables_both h ho hq.tables) (fun _ e => ⟨e, hq.values, hq.where_⟩)
  | set a => unfold updateStep; exact Both.map (values_both h ho hq.values) (fun _ e => ⟨hq.tables, e, hq.where_⟩)
  | where_ a => unfold updateStep; exact Both.map (conds_both h _ ho hq.where_) (fun _ e => ⟨hq.tables, hq.values, e⟩)
  | join arg | leftJoin arg | rightJoin arg =>
    unfold updateStep; exact Both.map (join_both (by decide) ho hq.tables) (fun _ e => ⟨e, hq.values, hq.where_⟩)
  | on a => unfold updateStep; exact Both.map (on_both h ho hq.tables) (fun _ e => ⟨e, hq.values, hq.where_⟩)
  | str => exact ho.elim
  | _ => unfold updateStep; exact .same ⟨hq.tables, hq.values, hq.where_⟩

/-- The invariant of a `Delete`. -/
structure ClearDelete (q : Delete) : Prop where
  tables : Clear tableParts q.tables
  references : Clear tableParts q.references
  where_ : Clear condParts q.where_

theorem delete_both {q : Delete} (hq : ClearDelete q) {op : DeleteOp}
    (ho : LateDelete op) : Both ClearDelete (deleteStep cx S q op) (deleteStep cx' S' q op) := by
  cases op with
  | delete t => unfold deleteStep; exact Both.map (tables_both h ho hq.tables) (fun _ e => ⟨e, hq.references, hq.where_⟩)
  | from_ a => unfold deleteStep; exact Both.map (tables_both h ho hq.references) (fun _ e => ⟨hq.tables, e, hq.where_⟩)
  | fromTable t al =>
    unfold deleteStep; exact Both.map (tables_both h (fromTable_untexted ho) hq.references) (fun _ e =>
      ⟨hq.tables, e, hq.where_⟩)
  | where_ a => unfold deleteStep; exact Both.map (conds_both h _ ho hq.where_) (fun _ e => ⟨hq.tables, hq.references, e⟩)
  | join arg | leftJoin arg | rightJoin arg =>
    unfold deleteStep; exact Both.map (join_both (by decide) ho hq.references) (fun _ e => ⟨hq.tables, e, hq.where_⟩)
  | on a => unfold deleteStep; exact Both.map (on_both h ho hq.references) (fun _ e => ⟨hq.tables, e, hq.where_⟩)
  | str => exact ho.elim
  | _ => unfold deleteStep; exact .same ⟨hq.tables, hq.references, hq.where_⟩

end

theorem clearSelect {q : Select} (h : Untexted (.select q)) : ClearSelect q := by
  have hp : ∀ x ∈ selectParts q, Untexted x := part h
  simp only [selectParts, List.forall_mem_append] at hp
  obtain ⟨⟨⟨⟨⟨⟨h1, h2⟩, h3⟩, h4⟩, h5⟩, h6⟩, -⟩ := hp
  exact ⟨clear_iff.mpr h1, clear_iff.mpr h2, clear_iff.mpr h3, clear_iff.mpr h4, clear_iff.mpr h5,
    clear_iff.mpr h6⟩

theorem clearInsert {q : Insert} (h : Untexted (.insert q)) : ClearInsert q := by
  have hp : ∀ x ∈ insertParts q, Untexted x := part h
  simp only [insertParts, List.forall_mem_append] at hp
  obtain ⟨⟨⟨h1, h2⟩, -⟩, -⟩ := hp
  exact ⟨clear_iff.mpr h1, clear_iff.mpr h2⟩

theorem clearUpdate {q : Update} (h : Untexted (.update q)) : ClearUpdate q := by
  have hp : ∀ x ∈ updateParts q, Untexted x := part h
  simp only [updateParts, List.forall_mem_append] at hp
  obtain ⟨⟨h1, h2⟩, h3⟩ := hp
  exact ⟨clear_iff.mpr h1, clear_iff.mpr h2, clear_iff.mpr h3⟩

theorem clearDelete {q : Delete} (h : Untexted (.delete q)) : ClearDelete q := by
  have hp : ∀ x ∈ deleteParts q, Untexted x := part h
  simp only [deleteParts, List.forall_mem_append] at hp
  obtain ⟨⟨h1, h2⟩, h3⟩ := hp
  exact ⟨clear_iff.mpr h1, clear_iff.mpr h2, clear_iff.mpr h3⟩

/-! ### Programs -/

section
variable {σ ω : Type} {env : Env} {n : Nat} {step : Ctx → Sem → σ → ω → Upd σ}

theorem program_backend (s : Session σ) (cs : List (Command ω)) :
    (runProgram env n step s cs).backend = runOps (setBackend env) s.backend (configuresOf cs) := by
  induction cs generalizing s with
  | nil => rfl
  | cons c cs ih => cases c <;> exact ih _

/-- The calls alone, under one backend. -/
def callsOnly (env : Env) (n : Nat) (step : Ctx → Sem → σ → ω → Upd σ) (b : Backend)
    (q : σ × List (Option Err)) (ops : List ω) : σ × List (Option Err) :=
  ops.foldl (fun q op =>
    let u := step ⟨b, env⟩ (sem ⟨b, env⟩ n) q.1 op
    (u.1, q.2 ++ [u.2])) q

variable {P : σ → Prop} {L : ω → Prop}

theorem program_calls
    (h : ∀ b b' q op, P q → L op →
      Both P (step ⟨b, env⟩ (sem ⟨b, env⟩ n) q op) (step ⟨b', env⟩ (sem ⟨b', env⟩ n) q op))
    (b : Backend) {s : Session σ} (hq : P s.query) {cs : List (Command ω)} (hl : ∀ op ∈ callsOf cs, L op) :
    ((runProgram env n step s cs).query, (runProgram env n step s cs).raised) =
      callsOnly env n step b (s.query, s.raised) (callsOf cs) := by
  induction cs generalizing s with
  | nil => rfl
  | cons c cs ih =>
    cases c with
    | configure name => exact ih (s := { s with backend := _ }) hq hl
    | call op =>
      have hb := h s.backend b s.query op hq (hl op (by simp [callsOf]))
      have := ih (s := s.run env n step (.call op)) hb.2 fun o ho => hl o (by simp [callsOf, ho])
      refine this.trans ?_
      show callsOnly env n step b _ (callsOf cs) = callsOnly env n step b
        ((step ⟨b, env⟩ (sem ⟨b, env⟩ n) s.query op).1,
          s.raised ++ [(step ⟨b, env⟩ (sem ⟨b, env⟩ n) s.query op).2]) (callsOf cs)
      rw [← hb.1]
      rfl

end

theorem callsOf_first {ω : Type} (cs : List (Command ω)) : callsOf (configureFirst cs) = callsOf cs := by
  have h1 : ∀ (ns : List Str) (cs : List (Command ω)),
      callsOf (ns.map .configure ++ cs) = callsOf cs := by
    intro ns cs
    induction ns with
    | nil => rfl
    | cons n ns ih => exact ih
  have h2 : ∀ ops : List ω, callsOf (ops.map .call) = ops := by
    intro ops
    induction ops with
    | nil => rfl
    | cons o ops ih => exact congrArg (o :: ·) ih
  exact (h1 _ _).trans (h2 _)

theorem configuresOf_first {ω : Type} (cs : List (Command ω)) :
    configuresOf (configureFirst cs) = configuresOf cs := by
  have h2 : ∀ ops : List ω, configuresOf (ops.map .call) = [] := by
    intro ops
    induction ops with
    | nil => rfl
    | cons o ops ih => exact ih
  have h1 : ∀ (ns : List Str) (ops : List ω),
      configuresOf (ns.map Command.configure ++ ops.map .call) = ns := by
    intro ns ops
    induction ns with
    | nil => exact h2 ops
    | cons n ns ih => exact congrArg (n :: ·) ih
  exact h1 _ _

/-- The session is the same when all calls of `configure` are made first. -/
theorem program_first {σ ω : Type} {env : Env} {n : Nat} {step : Ctx → Sem → σ → ω → Upd σ}
    {P : σ → Prop} {L : ω → Prop}
    (h : ∀ b b' q op, P q → L op →
      Both P (step ⟨b, env⟩ (sem ⟨b, env⟩ n) q op) (step ⟨b', env⟩ (sem ⟨b', env⟩ n) q op))
    {s : Session σ} (hq : P s.query) {cs : List (Command ω)} (hl : ∀ op ∈ callsOf cs, L op) :
    runProgram env n step s cs = runProgram env n step s (configureFirst cs) := by
  have h1 := program_calls h s.backend hq hl
  have h2 := program_calls h s.backend hq (cs := configureFirst cs) (by rwa [callsOf_first])
  rw [callsOf_first, ← h1, Prod.mk.injEq] at h2
  have h3 := program_backend (env := env) (n := n) (step := step) s cs
  have h4 := program_backend (env := env) (n := n) (step := step) s (configureFirst cs)
  rw [configuresOf_first, ← h3] at h4
  generalize runProgram env n step s cs = r at *
  generalize runProgram env n step s (configureFirst cs) = r' at *
  cases r
  cases r'
  simp_all

end SqlPuzzle.Late
