import Verif.Model.Touch
import Verif.Spec.Nested
import Verif.Proofs.Rendering

/-!
What rendering leaves behind in nested queries does not change the text of an object in whose joins
there is no query.
-/

namespace SqlPuzzle.Touch
open SqlPuzzle Spec

theorem Throughout.here {P : Obj → Prop} {o : Obj} (h : Throughout P o) : P o := by
  cases h with | mk h _ => exact h

theorem Throughout.inside {P : Obj → Prop} {o : Obj} (h : Throughout P o) :
    ∀ x ∈ parts o, Throughout P x := by
  cases h with | mk _ h => exact h

/-- What `TouchF` never changes about an object. -/
structure SameKind (a b : Obj) : Prop where
  sql : a.isSql = b.isSql
  textual : a.textual = b.textual
  brackets : needsBrackets a = needsBrackets b
  paren : (∃ q, a = .select q) ∨ (∃ x y z, a = .union x y z) ↔
    (∃ q, b = .select q) ∨ (∃ x y z, b = .union x y z)

theorem SameKind.refl (a : Obj) : SameKind a a := ⟨rfl, rfl, rfl, .rfl⟩

theorem touchF_kind {cx : Ctx} {S : Sem} {T : Obj → Obj → Prop} {a b : Obj}
    (h : TouchF cx S T a b) : SameKind a b ∧ a.isSql = true := by
  cases h with
  | conds ps qs h => exact ⟨⟨rfl, rfl, by simp only [needsBrackets, h.length_eq], by simp⟩, rfl⟩
  | _ => exact ⟨⟨rfl, rfl, rfl, by simp⟩, rfl⟩

theorem touched_kind {cx : Ctx} {n : Nat} {a b : Obj} (h : Touched cx n a b) : SameKind a b := by
  cases n with
  | zero => cases h; exact .refl _
  | succ n =>
    rcases h with rfl | h
    · exact .refl _
    · exact (touchF_kind h).1

/-- An object without queries stays as it is. -/
theorem touched_queryFree {cx : Ctx} (n : Nat) : ∀ {a b : Obj}, QueryFree a → Touched cx n a b → a = b := by
  induction n with
  | zero => intro a b _ h; exact h
  | succ n ih =>
    intro a b hq h
    rcases h with rfl | h
    · rfl
    have ref : ∀ {v w}, QueryFree v → touchRef (Touched cx n) v w → v = w := by
      intro v w hv h
      rcases h with h | ⟨_, h⟩
      · exact h
      · exact ih hv h
    have value : ∀ {v}, QueryFree v → QueryFree (.sqlValue v) :=
      fun hv => .mk rfl (by intro x hx; simp only [parts, List.mem_singleton] at hx; subst hx; exact hv)
    have vals : ∀ {xs ys : List Obj}, (∀ x ∈ xs, QueryFree x) →
        List.Forall₂ (fun x y => Touched cx n (.sqlValue x) (.sqlValue y)) xs ys → xs = ys := by
      intro xs ys hx h
      induction h with
      | nil => rfl
      | cons h _ ih' =>
        have := ih (value (hx _ (by simp))) h
        rw [ih' fun x hm => hx x (by simp [hm])]
        cases this; rfl
    have val : ∀ {v w}, QueryFree v → TouchVal (Touched cx n) v w → v = w := by
      intro v w hv h
      cases h with
      | same => rfl
      | sql _ _ _ k => exact ih hv k
      | list xs ys h => rw [vals (xs := xs) (Throughout.inside hv) h]
      | tuple xs ys h => rw [vals (xs := xs) (Throughout.inside hv) h]
      | set xs ys h => rw [vals (xs := xs) (Throughout.inside hv) h]
      | frozenset xs ys h => rw [vals (xs := xs) (Throughout.inside hv) h]
      | gen xs ys h => rw [vals (xs := xs) (Throughout.inside hv) h]
    have refs : ∀ {xs ys : List Obj}, (∀ x ∈ xs, QueryFree x) →
        List.Forall₂ (touchRef (Touched cx n)) xs ys → xs = ys := by
      intro xs ys hx h
      induction h with
      | nil => rfl
      | cons h _ ih' => rw [ref (hx _ (by simp)) h, ih' fun x hm => hx x (by simp [hm])]
    have expr : ∀ {v w}, QueryFree v → TouchExpr (Touched cx n) v w → v = w := by
      intro v w hv h
      cases h with
      | ref _ _ h => exact ref hv h
      | list xs ys h => rw [refs (xs := xs) (Throughout.inside hv) h]
      | tuple xs ys h => rw [refs (xs := xs) (Throughout.inside hv) h]
    have conds : ∀ {xs ys : List Cond}, (∀ x ∈ xs.flatMap condParts, QueryFree x) →
        List.Forall₂ (TouchCond (Touched cx n)) xs ys → xs = ys := by
      intro xs ys hx h
      induction h with
      | nil => rfl
      | cons h _ ih' =>
        rw [ih' fun x hm => hx x (by simp only [List.flatMap_cons, List.mem_append]; exact .inr hm)]
        cases h with
        | cond on c k v d w h1 h2 =>
          rw [ref (hx _ (by simp [condParts])) h1, val (hx _ (by simp [condParts])) h2]
        | item o p h => rw [ref (hx _ (by simp [condParts])) h]
    have cols : ∀ {xs ys : List Column}, (∀ x ∈ xs.flatMap colParts, QueryFree x) →
        List.Forall₂ (touchColumn (Touched cx n)) xs ys → xs = ys := by
      intro xs ys hx h
      induction h with
      | nil => rfl
      | @cons a b _ _ h _ ih' =>
        rw [ih' fun x hm => hx x (by simp only [List.flatMap_cons, List.mem_append]; exact .inr hm)]
        obtain ⟨a1, a2⟩ := a
        obtain ⟨b1, b2⟩ := b
        have h1 := ref (hx a1 (by simp [colParts])) h.1
        have h2 := ref (hx a2 (by simp [colParts])) h.2
        simp only at h1 h2
        rw [h1, h2]
    have ords : ∀ {xs ys : List Order}, (∀ x ∈ xs.flatMap orderParts, QueryFree x) →
        List.Forall₂ (touchOrder (Touched cx n)) xs ys → xs = ys := by
      intro xs ys hx h
      induction h with
      | nil => rfl
      | @cons a b _ _ h _ ih' =>
        rw [ih' fun x hm => hx x (by simp only [List.flatMap_cons, List.mem_append]; exact .inr hm)]
        obtain ⟨a1, a2⟩ := a
        obtain ⟨b1, b2⟩ := b
        have h1 := ref (hx a1 (by simp [orderParts])) h.1
        have h2 := h.2
        simp only at h1 h2
        rw [h1, h2]
    have hi := Throughout.inside hq
    cases h with
    | sqlValue v w h => rw [val (hi _ (by simp [parts])) h]
    | sqlRef v w h => rw [ref (hi _ (by simp [parts])) h]
    | rel k v w h => rw [ref (hi _ (by simp [parts])) h]
    | conds ps qs h => rw [conds (xs := ps) hi h]
    | cofc l r l' r' op h k =>
      rw [ref (hi _ (by simp [parts])) h, ref (hi _ (by simp [parts])) k]
    | not_ ps qs h =>
      have := ih (a := .conds ps) (.mk rfl hi) h
      cases this; rfl
    | func f d v w h => rw [expr (hi _ (by simp [parts])) h]
    | concat cs ds h => rw [cols (xs := cs) hi h]
    | groupConcat cs ds os ps v w h1 h2 h3 =>
      have hi' : ∀ x ∈ cs.flatMap colParts ++ os.flatMap orderParts ++ [v], QueryFree x := hi
      rw [cols (fun x hx => hi' x (by simp only [List.mem_append]; exact .inl (.inl hx))) h1,
        ords (fun x hx => hi' x (by simp only [List.mem_append]; exact .inl (.inr hx))) h2,
        val (hi' v (by simp)) h3]
    | convert v w ty h => rw [expr (hi _ (by simp [parts])) h]
    | exists_ v w h => rw [ref (hi _ (by simp [parts])) h]
    | union a b c d all h k =>
      rw [ref (hi _ (by simp [parts])) h, ref (hi _ (by simp [parts])) k]
    | select p q h => exact absurd (Throughout.here hq) (by simp [isAnyQuery])
    | insert p q h => exact absurd (Throughout.here hq) (by simp [isAnyQuery])
    | update p q h => exact absurd (Throughout.here hq) (by simp [isAnyQuery])
    | delete p q h => exact absurd (Throughout.here hq) (by simp [isAnyQuery])

/-! ### Texts -/

theorem NoQueryInJoins.value {v : Obj} (h : NoQueryInJoins v) : NoQueryInJoins (.sqlValue v) :=
  .mk (by simp [joinsOf]) (by
    intro x hx
    simp only [parts, List.mem_singleton] at hx
    subst hx
    exact h)

theorem NoQueryInJoins.list {xs : List Obj} (h : ∀ x ∈ xs, NoQueryInJoins x) :
    NoQueryInJoins (.list xs) :=
  .mk (by simp [joinsOf]) h

theorem NoQueryInJoins.none : NoQueryInJoins .none :=
  .mk (by simp [joinsOf]) (by simp [parts])

/-- The texts are the same one level down. -/
def Below (cx : Ctx) (n : Nat) : Prop :=
  ∀ {a b : Obj}, NoQueryInJoins a → Touched cx n a b → (sem cx n).str a = (sem cx n).str b

section
variable {cx : Ctx} {n : Nat} (ih : Below cx n)
include ih

theorem parenText_touched {v w : Obj} (hv : NoQueryInJoins v) (h : Touched cx n v w) :
    parenText (sem cx n) v = parenText (sem cx n) w := by
  unfold parenText
  rw [ih hv h]

theorem sqlRefText_sql {v w : Obj} (hv : NoQueryInJoins v) (hs : v.isSql = true)
    (h : Touched cx n v w) :
    sqlRefText cx (sem cx n) v = sqlRefText cx (sem cx n) w ∧
    sqlValueText cx (sem cx n) v = sqlValueText cx (sem cx n) w ∧
    forceText cx (sem cx n) v = forceText cx (sem cx n) w := by
  have h1 := ih hv h
  have hp := parenText_touched ih hv h
  have hk := touched_kind h
  have hw : w.isSql = true := by rw [← hk.sql]; exact hs
  refine ⟨?_, ?_, ?_⟩
  · cases v <;> cases hs <;> cases w <;> cases hw <;>
      first
      | exact h1
      | exact hp
      | (have := hk.paren; simp at this)
  · cases v <;> cases hs <;> cases w <;> cases hw <;>
      first
      | exact h1
      | exact hp
      | (have := hk.paren; simp at this)
  · unfold forceText
    rw [hs, hw]
    exact h1

theorem sqlRefText_touched {v w : Obj} (hv : NoQueryInJoins v) (h : touchRef (Touched cx n) v w) :
    sqlRefText cx (sem cx n) v = sqlRefText cx (sem cx n) w := by
  rcases h with rfl | ⟨hs, h⟩
  · rfl
  · exact (sqlRefText_sql ih hv hs h).1

theorem forceText_touched {v w : Obj} (hv : NoQueryInJoins v) (h : touchRef (Touched cx n) v w) :
    forceText cx (sem cx n) v = forceText cx (sem cx n) w := by
  rcases h with rfl | ⟨hs, h⟩
  · rfl
  · exact (sqlRefText_sql ih hv hs h).2.2

theorem str_touched {v w : Obj} (hv : NoQueryInJoins v) (h : touchRef (Touched cx n) v w) :
    (sem cx n).str v = (sem cx n).str w := by
  rcases h with rfl | ⟨_, h⟩
  · rfl
  · exact ih hv h

theorem listText_touched {xs ys : List Obj} (hx : ∀ x ∈ xs, NoQueryInJoins x)
    (h : List.Forall₂ (fun x y => Touched cx n (.sqlValue x) (.sqlValue y)) xs ys) :
    listText (sem cx n) xs = listText (sem cx n) ys ∧ xs.isEmpty = ys.isEmpty := by
  refine ⟨?_, by cases h <;> rfl⟩
  unfold listText
  suffices hs : mapR (fun x => (sem cx n).str (.sqlValue x)) xs =
      mapR (fun x => (sem cx n).str (.sqlValue x)) ys by rw [hs]
  induction h with
  | nil => rfl
  | cons h _ ih' =>
    rw [mapR_cons, mapR_cons, ih (NoQueryInJoins.value (hx _ (by simp))) h,
      ih' fun x hm => hx x (by simp [hm])]

theorem sqlValueText_touched {v w : Obj} (hv : NoQueryInJoins v) (h : TouchVal (Touched cx n) v w) :
    sqlValueText cx (sem cx n) v = sqlValueText cx (sem cx n) w := by
  cases h with
  | same => rfl
  | sql _ _ hs h => exact (sqlRefText_sql ih hv hs h).2.1
  | list xs ys h =>
    obtain ⟨h1, h2⟩ := listText_touched ih (xs := xs) (Throughout.inside hv) h
    unfold sqlValueText; simp only [h1, h2]
  | tuple xs ys h =>
    obtain ⟨h1, h2⟩ := listText_touched ih (xs := xs) (Throughout.inside hv) h
    unfold sqlValueText; simp only [h1, h2]
  | set xs ys h =>
    obtain ⟨h1, h2⟩ := listText_touched ih (xs := xs) (Throughout.inside hv) h
    unfold sqlValueText; simp only [h1, h2]
  | frozenset xs ys h =>
    obtain ⟨h1, h2⟩ := listText_touched ih (xs := xs) (Throughout.inside hv) h
    unfold sqlValueText; simp only [h1, h2]
  | gen xs ys h =>
    obtain ⟨h1, h2⟩ := listText_touched ih (xs := xs) (Throughout.inside hv) h
    unfold sqlValueText; simp only [h1]

omit ih in
theorem touchRef_truthy {v w : Obj} (h : touchRef (Touched cx n) v w) : v.truthy = w.truthy := by
  rcases h with rfl | ⟨hs, h⟩
  · rfl
  · have hk := touched_kind h
    have hw : w.isSql = true := by rw [← hk.sql]; exact hs
    have sql : ∀ o : Obj, o.isSql = true → o.truthy = true := by
      intro o ho
      cases o <;> cases ho <;> rfl
    rw [sql v hs, sql w hw]

theorem aliasedText_touched {v w a b : Obj} (hv : NoQueryInJoins v) (ha : NoQueryInJoins a)
    (h : touchRef (Touched cx n) v w) (k : touchRef (Touched cx n) a b) :
    aliasedText cx (sem cx n) v a = aliasedText cx (sem cx n) w b := by
  unfold aliasedText
  rw [touchRef_truthy k, sqlRefText_touched ih hv h, sqlRefText_touched ih ha k]

omit ih in
theorem mapR_touched {α β : Type} {R : α → α → Prop} {f : α → SqlPuzzle.R β} {xs ys : List α}
    (h : List.Forall₂ R xs ys) (hf : ∀ x ∈ xs, ∀ y, R x y → f x = f y) :
    xs.isEmpty = ys.isEmpty ∧ mapR f xs = mapR f ys := by
  refine ⟨by cases h <;> rfl, ?_⟩
  induction h with
  | nil => rfl
  | cons h _ ih' =>
    rw [mapR_cons, mapR_cons, hf _ (by simp) _ h, ih' fun x hx => hf x (by simp [hx])]

omit ih in
theorem partsText_touched {α : Type} {R : α → α → Prop} {f : α → SqlPuzzle.R Str}
    {xs ys : List α} (keyword sep dflt : Str) (h : List.Forall₂ R xs ys)
    (hf : ∀ x ∈ xs, ∀ y, R x y → f x = f y) :
    partsText keyword sep dflt f xs = partsText keyword sep dflt f ys ∧
    xs.isEmpty = ys.isEmpty ∧ mapR f xs = mapR f ys := by
  obtain ⟨he, hm⟩ := mapR_touched h hf
  refine ⟨?_, he, hm⟩
  unfold partsText
  rw [he, hm]

theorem columnsText_touched {cs ds : List Column} (hx : ∀ x ∈ cs.flatMap colParts, NoQueryInJoins x)
    (h : List.Forall₂ (touchColumn (Touched cx n)) cs ds) :
    columnsText cx (sem cx n) cs = columnsText cx (sem cx n) ds := by
  refine (partsText_touched _ _ _ h fun c hc d hcd => ?_).1
  exact aliasedText_touched ih
    (hx _ (List.mem_flatMap.mpr ⟨c, hc, by simp [colParts]⟩))
    (hx _ (List.mem_flatMap.mpr ⟨c, hc, by simp [colParts]⟩)) hcd.1 hcd.2

theorem ordersText_touched (keyword : Str) {cs ds : List Order}
    (hx : ∀ x ∈ cs.flatMap orderParts, NoQueryInJoins x)
    (h : List.Forall₂ (touchOrder (Touched cx n)) cs ds) :
    ordersText cx (sem cx n) keyword cs = ordersText cx (sem cx n) keyword ds ∧
    cs.isEmpty = ds.isEmpty := by
  have := partsText_touched (f := orderText cx (sem cx n)) keyword L!", " [] h fun c hc d hcd => by
    unfold orderText
    rw [sqlRefText_touched ih (hx _ (List.mem_flatMap.mpr ⟨c, hc, by simp [orderParts]⟩)) hcd.1,
      hcd.2]
  exact ⟨this.1, this.2.1⟩

omit ih in
theorem touchVal_kind {v w : Obj} (h : TouchVal (Touched cx n) v w) :
    v.isStr = w.isStr ∧ v.isNone = w.isNone ∧ v.truthy = w.truthy := by
  cases h with
  | same => exact ⟨rfl, rfl, rfl⟩
  | sql _ _ hs h =>
    have hw : w.isSql = true := by rw [← (touched_kind h).sql]; exact hs
    have sql : ∀ o : Obj, o.isSql = true → o.isStr = false ∧ o.isNone = false ∧ o.truthy = true := by
      intro o ho
      cases o <;> cases ho <;> exact ⟨rfl, rfl, rfl⟩
    obtain ⟨a1, a2, a3⟩ := sql v hs
    obtain ⟨b1, b2, b3⟩ := sql w hw
    rw [a1, a2, a3, b1, b2, b3]
    exact ⟨rfl, rfl, rfl⟩
  | list xs ys h => cases h <;> exact ⟨rfl, rfl, rfl⟩
  | tuple xs ys h => cases h <;> exact ⟨rfl, rfl, rfl⟩
  | set xs ys h => cases h <;> exact ⟨rfl, rfl, rfl⟩
  | frozenset xs ys h => cases h <;> exact ⟨rfl, rfl, rfl⟩
  | gen xs ys h => cases h <;> exact ⟨rfl, rfl, rfl⟩

omit ih in
theorem sqlValue_kind {x y : Obj} (h : Touched cx n (.sqlValue x) (.sqlValue y)) :
    x.isNone = y.isNone := by
  cases n with
  | zero => cases h; rfl
  | succ n =>
    rcases h with h | h
    · cases h; rfl
    · cases h with | sqlValue _ _ h => exact (touchVal_kind h).2.1

omit ih in
theorem iterate_sql {v : Obj} (h : v.isSql = true) : v.iterate = none := by
  cases v <;> cases h <;> rfl

theorem inCondText_touched (k : Rel) (glue nullTest : Str) {c d v w : Obj} (hc : NoQueryInJoins c)
    (hv : NoQueryInJoins v) (h1 : touchRef (Touched cx n) c d) (h2 : TouchVal (Touched cx n) v w) :
    inCondText cx (sem cx n) c k glue nullTest (sqlValueText cx (sem cx n)) v =
      inCondText cx (sem cx n) d k glue nullTest (sqlValueText cx (sem cx n)) w := by
  have hcd := sqlRefText_touched ih hc h1
  have plain : ∀ a b, NoQueryInJoins a → TouchVal (Touched cx n) a b →
      plainCondText cx (sem cx n) c k (sqlValueText cx (sem cx n)) a =
        plainCondText cx (sem cx n) d k (sqlValueText cx (sem cx n)) b := by
    intro a b ha hab
    unfold plainCondText
    rw [hcd, sqlValueText_touched ih ha hab]
  have lists : ∀ xs ys : List Obj, v.iterate = some xs → w.iterate = some ys →
      (∀ x ∈ xs, NoQueryInJoins x) →
      List.Forall₂ (fun x y => Touched cx n (.sqlValue x) (.sqlValue y)) xs ys →
      inCondText cx (sem cx n) c k glue nullTest (sqlValueText cx (sem cx n)) v =
        inCondText cx (sem cx n) d k glue nullTest (sqlValueText cx (sem cx n)) w := by
    intro xs ys hxs hys hx h
    have hf : List.Forall₂ (fun x y => Touched cx n (.sqlValue x) (.sqlValue y))
        (xs.filter fun x => !x.isNone) (ys.filter fun x => !x.isNone) := by
      clear hxs hys hx
      induction h with
      | nil => exact .nil
      | cons h _ ih' =>
        have := sqlValue_kind h
        simp only [List.filter_cons, this]
        split
        · exact .cons h ih'
        · exact ih'
    have ha : xs.any Obj.isNone = ys.any Obj.isNone := by
      clear hxs hys hx hf
      induction h with
      | nil => rfl
      | cons h _ ih' => rw [List.any_cons, List.any_cons, ih', sqlValue_kind h]
    have he : (xs.filter fun x => !x.isNone).isEmpty = (ys.filter fun x => !x.isNone).isEmpty := by
      generalize (xs.filter fun x => !x.isNone) = l at hf ⊢
      generalize (ys.filter fun x => !x.isNone) = m at hf ⊢
      cases hf <;> rfl
    have hp := plain (.list (xs.filter fun x => !x.isNone)) (.list (ys.filter fun x => !x.isNone))
      (NoQueryInJoins.list fun x hm => hx x (List.mem_filter.mp hm).1) (.list _ _ hf)
    unfold inCondText
    rw [hxs, hys]
    simp only [ha, he, hp, hcd]
  cases h2 with
  | same =>
    unfold inCondText
    cases hi : v.iterate with
    | none => exact plain v v hv (.same _)
    | some xs =>
      have hx : ∀ x ∈ xs, NoQueryInJoins x := by
        intro x hx
        have hi' := Throughout.inside hv
        cases v <;> simp only [Obj.iterate, Option.some.injEq, reduceCtorEq] at hi
        case str s =>
          subst hi
          obtain ⟨c, _, rfl⟩ := List.mem_map.mp hx
          exact .mk (by simp [joinsOf]) (by simp [parts])
        case bytes s =>
          subst hi
          obtain ⟨c, _, rfl⟩ := List.mem_map.mp hx
          exact .mk (by simp [joinsOf]) (by simp [parts])
        case range s =>
          subst hi
          obtain ⟨c, _, rfl⟩ := List.mem_map.mp hx
          exact .mk (by simp [joinsOf]) (by simp [parts])
        case dict kvs =>
          subst hi
          obtain ⟨p, hp, rfl⟩ := List.mem_map.mp hx
          exact hi' _ (List.mem_flatMap.mpr ⟨p, hp, by simp⟩)
        all_goals (subst hi; exact hi' x hx)
      have hp := plain (.list (xs.filter fun x => !x.isNone)) (.list (xs.filter fun x => !x.isNone))
        (NoQueryInJoins.list fun x hm => hx x (List.mem_filter.mp hm).1) (.same _)
      simp only [hp, hcd]
  | sql _ _ hs h =>
    have hw : w.isSql = true := by rw [← (touched_kind h).sql]; exact hs
    unfold inCondText
    rw [iterate_sql hs, iterate_sql hw]
    exact plain v w hv (.sql _ _ hs h)
  | list xs ys h => exact lists xs ys rfl rfl (Throughout.inside hv) h
  | tuple xs ys h => exact lists xs ys rfl rfl (Throughout.inside hv) h
  | set xs ys h => exact lists xs ys rfl rfl (Throughout.inside hv) h
  | frozenset xs ys h => exact lists xs ys rfl rfl (Throughout.inside hv) h
  | gen xs ys h => exact lists xs ys rfl rfl (Throughout.inside hv) h

theorem condText_touched {p q : Cond} (hx : ∀ x ∈ condParts p, NoQueryInJoins x)
    (h : TouchCond (Touched cx n) p q) : condText cx (sem cx n) p = condText cx (sem cx n) q := by
  cases h with
  | item o p h => exact str_touched ih (hx o (by simp [condParts])) h
  | cond on c k v d w h1 h2 =>
    have hc := hx c (by simp [condParts])
    have hv := hx v (by simp [condParts])
    by_cases ht : (on && v.isStr) = true
    · have hvw : v = w := by
        rw [Bool.and_eq_true] at ht
        cases h2 with
        | same => rfl
        | sql _ _ hs' _ =>
          have h2 := ht.2
          cases v <;> first | (cases h2; done) | cases hs'
        | list _ _ _ => cases ht.2
        | tuple _ _ _ => cases ht.2
        | set _ _ _ => cases ht.2
        | frozenset _ _ _ => cases ht.2
        | gen _ _ _ => cases ht.2
      subst hvw
      have hcd := sqlRefText_touched ih hc h1
      simp only [condText, formatCond, inCondText, plainCondText, hcd]
    · have hk := (touchVal_kind h2).1
      have ht' : (on && w.isStr) = false := by rw [← hk]; simpa using ht
      have ht : (on && v.isStr) = false := by simpa using ht
      simp only [condText, ht, ht', Bool.false_eq_true, if_false]
      have plain : ∀ k, plainCondText cx (sem cx n) c k (sqlValueText cx (sem cx n)) v =
          plainCondText cx (sem cx n) d k (sqlValueText cx (sem cx n)) w := by
        intro k
        unfold plainCondText
        rw [sqlRefText_touched ih hc h1, sqlValueText_touched ih hv h2]
      unfold formatCond
      split
      · exact inCondText_touched ih _ _ _ hc hv h1 h2
      · exact inCondText_touched ih _ _ _ hc hv h1 h2
      · exact plain _

theorem condsText_touched (keyword : Str) {ps qs : List Cond}
    (hx : ∀ x ∈ ps.flatMap condParts, NoQueryInJoins x)
    (h : List.Forall₂ (TouchCond (Touched cx n)) ps qs) :
    condsText cx (sem cx n) keyword ps = condsText cx (sem cx n) keyword qs ∧
    ps.isEmpty = qs.isEmpty := by
  have := partsText_touched (f := condText cx (sem cx n)) keyword L!" AND " [] h fun c hc d hcd =>
    condText_touched ih (fun x hm => hx x (List.mem_flatMap.mpr ⟨c, hc, hm⟩)) hcd
  exact ⟨this.1, this.2.1⟩

theorem valuesText_touched (keyword : Str) {ps qs : List Value}
    (hx : ∀ x ∈ ps.flatMap valueParts, NoQueryInJoins x)
    (h : List.Forall₂ (TouchValue (Touched cx n)) ps qs) :
    valuesText cx (sem cx n) keyword ps = valuesText cx (sem cx n) keyword qs ∧
    ps.isEmpty = qs.isEmpty := by
  have := partsText_touched (f := valueText cx (sem cx n)) keyword L!", " [] h fun c hc d hcd => by
    have hx' : ∀ x ∈ valueParts c, NoQueryInJoins x :=
      fun x hm => hx x (List.mem_flatMap.mpr ⟨c, hc, hm⟩)
    cases hcd with
    | value c v d w h1 h2 =>
      unfold valueText
      simp only [sqlRefText_touched ih (hx' c (by simp [valueParts])) h1,
        sqlValueText_touched ih (hx' v (by simp [valueParts])) h2]
    | item o p h => exact str_touched ih (hx' o (by simp [valueParts])) h
  exact ⟨this.1, this.2.1⟩

omit ih in
/-- Joins without queries stay as they are. -/
theorem joins_touched {js ks : List Join} (hx : ∀ j ∈ js, ∀ y ∈ joinParts j, QueryFree y)
    (h : List.Forall₂ (touchJoin (Touched cx n)) js ks) : js = ks := by
  have ref : ∀ {v w}, QueryFree v → touchRef (Touched cx n) v w → v = w := by
    intro v w hv h
    rcases h with h | ⟨_, h⟩
    · exact h
    · exact touched_queryFree n hv h
  induction h with
  | nil => rfl
  | @cons j k _ _ h _ ih' =>
    rw [ih' fun x hm => hx x (by simp [hm])]
    obtain ⟨t, a, b, ons⟩ := j
    obtain ⟨t', a', b', ons'⟩ := k
    obtain ⟨h1, h2, h3, h4⟩ := h
    have hj := hx ⟨t, a, b, ons⟩ (by simp)
    simp only at h1 h2 h3 h4
    rw [h1, ref (hj a (by simp [joinParts])) h2, ref (hj b (by simp [joinParts])) h3]
    have hq : QueryFree (.conds ons) :=
      .mk rfl fun x hx => hj x (by simp only [joinParts, List.mem_append]; exact .inr hx)
    have h5 := touched_queryFree (cx := cx) (n + 1) hq (b := .conds ons') (.inr (.conds _ _ h4))
    cases h5
    rfl

theorem tableText_touched {t u : Table} (hx : ∀ x ∈ tableParts t, NoQueryInJoins x)
    (hj : ∀ j ∈ t.joins, ∀ y ∈ joinParts j, QueryFree y)
    (h : touchTable cx (sem cx n) (Touched cx n) t u) :
    tableText cx (sem cx n) t = tableText cx (sem cx n) u := by
  obtain ⟨h1, h2, h3⟩ := h
  have ha := aliasedText_touched ih (hx t.name (by simp [tableParts]))
    (hx t.alias (by simp [tableParts])) h1 h2
  unfold tableText
  rw [ha]
  rcases h3 with h3 | ⟨js, h3, h4⟩
  · rw [joins_touched hj h3]
  · have hq : ∀ j ∈ js, ∀ y ∈ joinParts j, QueryFree y := by
      intro j hm y hy
      obtain ⟨j0, hm0, e1, e2, e3⟩ := minimizeJoins_mem cx (sem cx n) h3 hm
      refine hj j0 hm0 y ?_
      simpa only [joinParts, e1, e2, e3] using hy
    have he := joins_touched hq h4
    rw [← he]
    have hi := minimizeJoins_idem cx (sem cx n) h3
    have hn : t.joins.isEmpty = js.isEmpty := by
      cases ht : t.joins with
      | nil => rw [ht] at h3; cases h3; rfl
      | cons a l =>
        have := minimizeJoins_ne_nil cx (sem cx n) h3 (by rw [ht]; simp)
        cases js with
        | nil => exact absurd rfl this
        | cons _ _ => rfl
    rw [h3, hi, hn]

theorem tablesText_touched (keyword : Str) {ts us : List Table}
    (hx : ∀ x ∈ ts.flatMap tableParts, NoQueryInJoins x)
    (hj : ∀ j ∈ ts.flatMap (·.joins), ∀ y ∈ joinParts j, QueryFree y)
    (h : List.Forall₂ (touchTable cx (sem cx n) (Touched cx n)) ts us) :
    tablesText cx (sem cx n) keyword ts = tablesText cx (sem cx n) keyword us ∧
    ts.isEmpty = us.isEmpty := by
  have := partsText_touched (f := tableText cx (sem cx n)) keyword L!", " [] h fun t ht u htu =>
    tableText_touched ih (fun x hm => hx x (List.mem_flatMap.mpr ⟨t, ht, hm⟩))
      (fun j hm => hj j (List.mem_flatMap.mpr ⟨t, ht, hm⟩)) htu
  exact ⟨this.1, this.2.1⟩

theorem outfileText_touched {o p : Outfile} (hx : ∀ x ∈ outfileParts o, NoQueryInJoins x)
    (h : touchOutfile (Touched cx n) o p) :
    outfileText cx (sem cx n) o = outfileText cx (sem cx n) p ∧ o.file.isSome = p.file.isSome := by
  obtain ⟨h1, h2, h3, h4⟩ := h
  have opt : ∀ keyword {a b : Option Obj}, (∀ x ∈ a.toList, NoQueryInJoins x) →
      TouchOpt (Touched cx n) a b →
      outfilePhrase cx (sem cx n) keyword a = outfilePhrase cx (sem cx n) keyword b := by
    intro keyword a b ha h
    cases h with
    | none => rfl
    | some v w h =>
      unfold outfilePhrase
      simp only [sqlValueText_touched ih (ha v (by simp)) h]
  have hf : sqlValueText cx (sem cx n) (o.file.getD .none) =
      sqlValueText cx (sem cx n) (p.file.getD .none) ∧ o.file.isSome = p.file.isSome := by
    have hx1 : ∀ x ∈ o.file.toList, NoQueryInJoins x := fun x hm => hx x (by
      simp only [outfileParts, List.mem_append]; exact .inl (.inl (.inl hm)))
    generalize o.file = a at h1 hx1
    generalize p.file = b at h1
    cases h1 with
    | none => exact ⟨rfl, rfl⟩
    | some v w h => exact ⟨sqlValueText_touched ih (hx1 v (by simp)) h, rfl⟩
  refine ⟨?_, hf.2⟩
  unfold outfileText
  rw [hf.1, opt _ (fun x hm => hx x (by
      simp only [outfileParts, List.mem_append]; exact .inl (.inl (.inr hm)))) h2,
    opt _ (fun x hm => hx x (by
      simp only [outfileParts, List.mem_append]; exact .inl (.inr hm))) h3,
    opt _ (fun x hm => hx x (by
      simp only [outfileParts, List.mem_append]; exact .inr hm)) h4]

theorem selectText_touched {p q : Select} (hp : NoQueryInJoins (.select p))
    (h : TouchSelect cx (sem cx n) (Touched cx n) p q) :
    selectText cx (sem cx n) p = selectText cx (sem cx n) q := by
  have hx : ∀ x ∈ p.columns.flatMap colParts ++ p.tables.flatMap tableParts ++
      p.where_.flatMap condParts ++ p.groupBy.flatMap orderParts ++ p.having.flatMap condParts ++
      p.orderBy.flatMap orderParts ++ outfileParts p.outfile, NoQueryInJoins x :=
    Throughout.inside hp
  simp only [List.mem_append] at hx
  have h1 := columnsText_touched ih (fun x hm => hx x (by tauto)) h.columns
  obtain ⟨h2, e2⟩ := tablesText_touched ih L!"FROM" (fun x hm => hx x (by tauto))
    (Throughout.here hp) h.tables
  obtain ⟨h3, e3⟩ := condsText_touched ih L!"WHERE" (fun x hm => hx x (by tauto)) h.where_
  obtain ⟨h4, e4⟩ := ordersText_touched ih L!"GROUP BY" (fun x hm => hx x (by tauto)) h.groupBy
  obtain ⟨h5, e5⟩ := condsText_touched ih L!"HAVING" (fun x hm => hx x (by tauto)) h.having
  obtain ⟨h6, e6⟩ := ordersText_touched ih L!"ORDER BY" (fun x hm => hx x (by tauto)) h.orderBy
  obtain ⟨h7, e7⟩ := outfileText_touched ih (fun x hm => hx x (by tauto)) h.outfile
  unfold selectText
  rw [h1, h2, h3, h4, h5, h6, h7, e2, e3, e4, e5, e6, e7, h.opts, h.limit, h.forUpdate]

omit ih in
theorem touchRef_str {s : Str} {w : Obj} (h : touchRef (Touched cx n) (.str s) w) :
    w = .str s := by
  rcases h with h | ⟨h, _⟩
  · exact h.symm
  · cases h

omit ih in
theorem touchRef_str' {s : Str} {v : Obj} (h : touchRef (Touched cx n) v (.str s)) :
    v = .str s := by
  rcases h with h | ⟨hs, h⟩
  · exact h
  · rw [(touched_kind h).sql] at hs
    cases hs

omit ih in
theorem rowColumns_touched {ps qs : List Value} (h : List.Forall₂ (TouchValue (Touched cx n)) ps qs) :
    rowColumns ps = rowColumns qs := by
  induction h with
  | nil => rfl
  | cons h _ ih' =>
    cases h with
    | item o p h => rfl
    | value c v d w h1 h2 =>
      by_cases hc : ∃ s, c = .str s
      · obtain ⟨s, rfl⟩ := hc
        rw [touchRef_str h1]
        simp only [rowColumns, ih']
      · have hd : ∀ s, d ≠ .str s := by
          rintro s rfl
          exact hc ⟨s, touchRef_str' h1⟩
        rw [rowColumns, rowColumns]
        · exact fun s hs => hd s hs
        · exact fun s hs => hc ⟨s, hs⟩

omit ih in
theorem lookupValue_touched (c : Str) {ps qs : List Value}
    (hx : ∀ x ∈ ps.flatMap valueParts, NoQueryInJoins x)
    (h : List.Forall₂ (TouchValue (Touched cx n)) ps qs) :
    TouchVal (Touched cx n) (lookupValue c ps) (lookupValue c qs) ∧
    NoQueryInJoins (lookupValue c ps) := by
  have any : ∀ {ps qs : List Value} {f : Value → Bool},
      List.Forall₂ (TouchValue (Touched cx n)) ps qs →
      (∀ p q, TouchValue (Touched cx n) p q → f p = f q) → ps.any f = qs.any f := by
    intro ps qs f h hf
    induction h with
    | nil => rfl
    | cons h _ ih' => rw [List.any_cons, List.any_cons, ih', hf _ _ h]
  induction h with
  | nil => exact ⟨.same _, NoQueryInJoins.none⟩
  | @cons p q ps qs h hl ih' =>
    have ih' := ih' fun x hm => hx x (by simp only [List.flatMap_cons, List.mem_append]; exact .inr hm)
    cases h with
    | item o p h => exact ih'
    | value a v b w h1 h2 =>
      by_cases hc : ∃ s, a = .str s
      · obtain ⟨s, rfl⟩ := hc
        rw [touchRef_str h1]
        simp only [lookupValue]
        rw [any hl ?_]
        rotate_left
        · intro p q h
          cases h with
          | item o p h => rfl
          | value a v b w h1 h2 =>
            by_cases hc : ∃ s, a = .str s
            · obtain ⟨s, rfl⟩ := hc
              rw [touchRef_str h1]
            · have hd : ∀ s, b ≠ .str s := by
                rintro s rfl
                exact hc ⟨s, touchRef_str' h1⟩
              cases a <;> cases b <;>
                first | rfl | exact absurd ⟨_, rfl⟩ hc | exact absurd rfl (hd _)
        split
        · exact ih'
        · split
          · exact ⟨h2, hx v (by simp [valueParts])⟩
          · exact ih'
      · have hd : ∀ s, b ≠ .str s := by
          rintro s rfl
          exact hc ⟨s, touchRef_str' h1⟩
        rw [lookupValue, lookupValue]
        · exact ih'
        · exact fun s v e => hd s (by cases e; rfl)
        · exact fun s v e => hc ⟨s, by cases e; rfl⟩

theorem rowText_touched (cols : List Str) {ps qs : List Value}
    (hx : ∀ x ∈ ps.flatMap valueParts, NoQueryInJoins x)
    (h : List.Forall₂ (TouchValue (Touched cx n)) ps qs) :
    rowText cx (sem cx n) cols ps = rowText cx (sem cx n) cols qs := by
  unfold rowText
  split
  · have : mapR (sqlValueText cx (sem cx n)) (ps.map partValue) =
        mapR (sqlValueText cx (sem cx n)) (qs.map partValue) := by
      induction h with
      | nil => rfl
      | @cons p q ps qs h hl ih' =>
        have ih' := ih' fun x hm => hx x (by
          simp only [List.flatMap_cons, List.mem_append]; exact .inr hm)
        rw [List.map_cons, List.map_cons, mapR_cons, mapR_cons, ih']
        cases h with
        | value c v d w h1 h2 =>
          simp only [partValue, sqlValueText_touched ih (hx v (by simp [valueParts])) h2]
        | item o p h =>
          have ho := hx o (by simp [valueParts])
          rcases h with rfl | ⟨hs, h⟩
          · rfl
          · simp only [partValue, sqlValueText_touched ih ho (.sql _ _ hs h)]
    simp only [this]
  · have : mapR (sqlValueText cx (sem cx n)) (cols.map fun c => lookupValue c ps) =
        mapR (sqlValueText cx (sem cx n)) (cols.map fun c => lookupValue c qs) := by
      induction cols with
      | nil => rfl
      | cons c cols ih' =>
        obtain ⟨h1, h2⟩ := lookupValue_touched c hx h
        rw [List.map_cons, List.map_cons, mapR_cons, mapR_cons, sqlValueText_touched ih h2 h1]
        by_cases hc : cols.isEmpty = true
        · cases cols with
          | nil => rfl
          | cons _ _ => cases hc
        · rw [ih' hc]
    simp only [this]

theorem rowsText_touched {ps qs : List (List Value)}
    (hx : ∀ x ∈ ps.flatMap (·.flatMap valueParts), NoQueryInJoins x)
    (h : List.Forall₂ (List.Forall₂ (TouchValue (Touched cx n))) ps qs) :
    rowsText cx (sem cx n) ps = rowsText cx (sem cx n) qs ∧ ps.isEmpty = qs.isEmpty := by
  have h1 := mapR_touched (f := rowColumns) h fun r _ s hrs => rowColumns_touched hrs
  refine ⟨?_, h1.1⟩
  have h2 : ∀ cols, mapR (rowText cx (sem cx n) cols) ps = mapR (rowText cx (sem cx n) cols) qs :=
    fun cols => (mapR_touched (f := rowText cx (sem cx n) cols) h fun r hr s hrs =>
      rowText_touched ih cols (fun x hm => hx x (List.mem_flatMap.mpr ⟨r, hr, hm⟩)) hrs).2
  unfold rowsText allColumns
  simp only [h1.2, h2]

theorem insertText_touched {p q : Insert} (hp : NoQueryInJoins (.insert p))
    (h : TouchInsert cx (sem cx n) (Touched cx n) p q) :
    insertText cx (sem cx n) p = insertText cx (sem cx n) q := by
  have hx : ∀ x ∈ p.tables.flatMap tableParts ++ p.rows.flatMap (·.flatMap valueParts) ++
      p.onDup.flatMap valueParts ++ p.onConflict.flatMap valueParts, NoQueryInJoins x :=
    Throughout.inside hp
  simp only [List.mem_append] at hx
  obtain ⟨h2, e2⟩ := tablesText_touched ih [] (fun x hm => hx x (by tauto))
    (Throughout.here hp) h.tables
  obtain ⟨h3, e3⟩ := rowsText_touched ih (fun x hm => hx x (by tauto)) h.rows
  obtain ⟨h4, e4⟩ := valuesText_touched ih L!"ON DUPLICATE KEY UPDATE" (fun x hm => hx x (by tauto))
    h.onDup
  obtain ⟨h5, e5⟩ := valuesText_touched ih (conflictKeyword cx q.conflict)
    (fun x hm => hx x (by tauto)) h.onConflict
  unfold insertText
  rw [h.conflict, h2, h3, h4, h5, e2, e3, e4, e5, h.isReplace, h.ignore]

theorem updateText_touched {p q : Update} (hp : NoQueryInJoins (.update p))
    (h : TouchUpdate cx (sem cx n) (Touched cx n) p q) :
    updateText cx (sem cx n) p = updateText cx (sem cx n) q := by
  have hx : ∀ x ∈ p.tables.flatMap tableParts ++ p.values.flatMap valueParts ++
      p.where_.flatMap condParts, NoQueryInJoins x := Throughout.inside hp
  simp only [List.mem_append] at hx
  obtain ⟨h2, e2⟩ := tablesText_touched ih [] (fun x hm => hx x (by tauto))
    (Throughout.here hp) h.tables
  obtain ⟨h3, e3⟩ := valuesText_touched ih [] (fun x hm => hx x (by tauto)) h.values
  obtain ⟨h4, e4⟩ := condsText_touched ih L!"WHERE" (fun x hm => hx x (by tauto)) h.where_
  unfold updateText
  rw [h2, h3, h4, e2, e3, e4, h.ignore, h.allowAll]

theorem deleteText_touched {p q : Delete} (hp : NoQueryInJoins (.delete p))
    (h : TouchDelete cx (sem cx n) (Touched cx n) p q) :
    deleteText cx (sem cx n) p = deleteText cx (sem cx n) q := by
  have hx : ∀ x ∈ p.tables.flatMap tableParts ++ p.references.flatMap tableParts ++
      p.where_.flatMap condParts, NoQueryInJoins x := Throughout.inside hp
  have hj : ∀ j ∈ (p.tables ++ p.references).flatMap (·.joins), ∀ y ∈ joinParts j, QueryFree y :=
    Throughout.here hp
  rw [List.flatMap_append] at hj
  simp only [List.mem_append] at hx hj
  obtain ⟨h2, e2⟩ := tablesText_touched ih [] (fun x hm => hx x (by tauto))
    (fun j hm => hj j (.inl hm)) h.tables
  obtain ⟨h3, e3⟩ := tablesText_touched ih [] (fun x hm => hx x (by tauto))
    (fun j hm => hj j (.inr hm)) h.references
  obtain ⟨h4, e4⟩ := condsText_touched ih L!"WHERE" (fun x hm => hx x (by tauto)) h.where_
  unfold deleteText
  rw [h2, h3, h4, e2, e3, e4, h.ignore, h.allowAll]

theorem exprText_touched {v w : Obj} (hv : NoQueryInJoins v) (h : TouchExpr (Touched cx n) v w) :
    exprText cx (sem cx n) v = exprText cx (sem cx n) w := by
  cases h with
  | ref _ _ h =>
    rcases h with rfl | ⟨hs, h⟩
    · rfl
    · have hw : w.isSql = true := by rw [← (touched_kind h).sql]; exact hs
      have := (sqlRefText_sql ih hv hs h).1
      have key : ∀ o : Obj, o.isSql = true → exprText cx (sem cx n) o = sqlRefText cx (sem cx n) o := by
        intro o ho
        cases o <;> first | rfl | exact nomatch ho
      rw [key v hs, key w hw, this]
  | list xs ys h =>
    have := (partsText_touched (f := sqlRefText cx (sem cx n)) [] [] [] h fun x hx y hxy =>
      sqlRefText_touched ih (Throughout.inside hv x hx) hxy).2.2
    simp only [exprText, this]
  | tuple xs ys h =>
    have := (partsText_touched (f := sqlRefText cx (sem cx n)) [] [] [] h fun x hx y hxy =>
      sqlRefText_touched ih (Throughout.inside hv x hx) hxy).2.2
    simp only [exprText, this]

theorem star_touched {v w : Obj} (hv : NoQueryInJoins v) (h : TouchExpr (Touched cx n) v w)
    (s : Str) : (sem cx n).eq v (.str s) = (sem cx n).eq w (.str s) := by
  cases n with
  | zero => rfl
  | succ n =>
    show eqF cx (sem cx n) v (.str s) = eqF cx (sem cx n) w (.str s)
    cases h with
    | ref _ _ h =>
      rcases h with rfl | ⟨hs, h⟩
      · rfl
      · have h1 : renderF cx (sem cx n) v = renderF cx (sem cx n) w := ih hv h
        have hk := touched_kind h
        have hw : w.isSql = true := by rw [← hk.sql]; exact hs
        by_cases ht : v.textual = true
        · have ht' : w.textual = true := by rw [← hk.textual]; exact ht
          have key : ∀ o : Obj, o.textual = true → eqF cx (sem cx n) o (.str s) =
              (renderF cx (sem cx n) o >>= fun t => .ok (t == s)) := by
            intro o ho
            unfold eqF
            rw [if_pos ho]
          rw [key v ht, key w ht', h1]
        · have ht' : ¬w.textual = true := by rw [← hk.textual]; exact ht
          have key : ∀ o : Obj, o.isSql = true → ¬o.textual = true →
              eqF cx (sem cx n) o (.str s) = .ok false := by
            intro o ho hn
            cases o <;> first | rfl | exact absurd rfl hn | exact nomatch ho
          rw [key v hs ht, key w hw ht']
    | list xs ys h => rfl
    | tuple xs ys h => rfl

theorem operandText_touched {v w : Obj} (hv : NoQueryInJoins v) (h : touchRef (Touched cx n) v w) :
    operandText (sem cx n) v = operandText (sem cx n) w := by
  rcases h with rfl | ⟨_, h⟩
  · rfl
  · unfold operandText
    rw [ih hv h, (touched_kind h).brackets]

theorem renderF_touched {a b : Obj} (ha : NoQueryInJoins a)
    (h : TouchF cx (sem cx n) (Touched cx n) a b) :
    renderF cx (sem cx n) a = renderF cx (sem cx n) b := by
  have hi := Throughout.inside ha
  cases h with
  | sqlValue v w h => exact sqlValueText_touched ih (hi v (by simp [parts])) h
  | sqlRef v w h => exact sqlRefText_touched ih (hi v (by simp [parts])) h
  | rel k v w h => simp only [renderF, forceText_touched ih (hi v (by simp [parts])) h]
  | conds ps qs h => exact (condsText_touched ih [] hi h).1
  | cofc l r l' r' op h k =>
    simp only [renderF, operandText_touched ih (hi l (by simp [parts])) h,
      operandText_touched ih (hi r (by simp [parts])) k]
  | not_ ps qs h =>
    have hc : NoQueryInJoins (.conds ps) := .mk (by simp [joinsOf]) hi
    simp only [renderF, ih hc h]
  | func f d v w h =>
    have hv := hi v (by simp [parts])
    simp only [renderF, funcText]
    cases f with
    | count =>
      simp only [star_touched ih hv h]
      cases hst : (sem cx n).eq w (.str ['*']) with
      | error e => rfl
      | ok b =>
        cases b with
        | false => simp only [bind, Except.bind, Bool.false_eq_true, if_false, exprText_touched ih hv h]
        | true =>
          have : forceText cx (sem cx n) v = forceText cx (sem cx n) w := by
            cases h with
            | ref _ _ h => exact forceText_touched ih hv h
            | list xs ys h =>
              exfalso
              cases n <;> cases hst
            | tuple xs ys h =>
              exfalso
              cases n <;> cases hst
          simp only [this, exprText_touched ih hv h]
    | _ => simp only [bind, Except.bind, Bool.false_eq_true, if_false, exprText_touched ih hv h]
  | concat cs ds h => simp only [renderF, columnsText_touched ih hi h]
  | groupConcat cs ds os ps v w h1 h2 h3 =>
    have hi' : ∀ x ∈ cs.flatMap colParts ++ os.flatMap orderParts ++ [v], NoQueryInJoins x := hi
    simp only [List.mem_append] at hi'
    obtain ⟨e1, e2⟩ := ordersText_touched ih L!"ORDER BY" (fun x hm => hi' x (by tauto)) h2
    simp only [renderF, groupConcatText, columnsText_touched ih (fun x hm => hi' x (by tauto)) h1,
      e1, e2, (touchVal_kind h3).2.2, sqlValueText_touched ih (hi' v (by simp)) h3]
  | convert v w ty h => simp only [renderF, exprText_touched ih (hi v (by simp [parts])) h]
  | exists_ v w h => simp only [renderF, forceText_touched ih (hi v (by simp [parts])) h]
  | union a b c d all h k =>
    simp only [renderF, str_touched ih (hi a (by simp [parts])) h,
      str_touched ih (hi b (by simp [parts])) k]
  | select p q h => exact selectText_touched ih ha h
  | insert p q h => exact insertText_touched ih ha h
  | update p q h => exact updateText_touched ih ha h
  | delete p q h => exact deleteText_touched ih ha h

end

theorem touched_text (cx : Ctx) (n : Nat) : Below cx n := by
  induction n with
  | zero => intro a b _ h; cases h; rfl
  | succ n ih =>
    intro a b ha h
    rcases h with rfl | h
    · rfl
    · exact renderF_touched ih ha h

/-! ### Joins without queries stay without queries -/

/-- One level down, joins without queries stay without queries. -/
def Keeps (cx : Ctx) (n : Nat) : Prop :=
  ∀ {a b : Obj}, NoQueryInJoins a → Touched cx n a b → NoQueryInJoins b

section
variable {cx : Ctx} {n : Nat} (ih : Keeps cx n)
include ih

theorem ref_keeps {v w : Obj} (hv : NoQueryInJoins v) (h : touchRef (Touched cx n) v w) :
    NoQueryInJoins w := by
  rcases h with rfl | ⟨_, h⟩
  · exact hv
  · exact ih hv h

omit ih in
theorem mem_forall₂ {α : Type} {R : α → α → Prop} {xs ys : List α} (h : List.Forall₂ R xs ys) :
    ∀ y ∈ ys, ∃ x ∈ xs, R x y := by
  induction h with
  | nil => intro y hy; cases hy
  | cons h _ ih' =>
    intro y hy
    rcases List.mem_cons.mp hy with rfl | hy
    · exact ⟨_, by simp, h⟩
    · obtain ⟨x, hx, hr⟩ := ih' y hy
      exact ⟨x, by simp [hx], hr⟩

omit ih in
/-- If related elements have good components on the left, the components on the right are good. -/
theorem parts_keep {α : Type} {R : α → α → Prop} {P : Obj → Prop} {g : α → List Obj}
    {xs ys : List α} (h : List.Forall₂ R xs ys) (hx : ∀ x ∈ xs.flatMap g, P x)
    (hf : ∀ x y, R x y → (∀ o ∈ g x, P o) → ∀ o ∈ g y, P o) : ∀ y ∈ ys.flatMap g, P y := by
  intro o ho
  obtain ⟨y, hy, ho⟩ := List.mem_flatMap.mp ho
  obtain ⟨x, hm, hr⟩ := mem_forall₂ h y hy
  exact hf x y hr (fun o ho => hx o (List.mem_flatMap.mpr ⟨x, hm, ho⟩)) o ho

theorem vals_keep {xs ys : List Obj} (hx : ∀ x ∈ xs, NoQueryInJoins x)
    (h : List.Forall₂ (fun x y => Touched cx n (.sqlValue x) (.sqlValue y)) xs ys) :
    ∀ y ∈ ys, NoQueryInJoins y := by
  intro y hy
  obtain ⟨x, hm, hr⟩ := mem_forall₂ h y hy
  exact Throughout.inside (ih (NoQueryInJoins.value (hx x hm)) hr) y (by simp [parts])

theorem val_keeps {v w : Obj} (hv : NoQueryInJoins v) (h : TouchVal (Touched cx n) v w) :
    NoQueryInJoins w := by
  cases h with
  | same => exact hv
  | sql _ _ _ h => exact ih hv h
  | list xs ys h => exact .mk (by simp [joinsOf]) (vals_keep ih (xs := xs) (Throughout.inside hv) h)
  | tuple xs ys h => exact .mk (by simp [joinsOf]) (vals_keep ih (xs := xs) (Throughout.inside hv) h)
  | set xs ys h => exact .mk (by simp [joinsOf]) (vals_keep ih (xs := xs) (Throughout.inside hv) h)
  | frozenset xs ys h =>
    exact .mk (by simp [joinsOf]) (vals_keep ih (xs := xs) (Throughout.inside hv) h)
  | gen xs ys h => exact .mk (by simp [joinsOf]) (vals_keep ih (xs := xs) (Throughout.inside hv) h)

theorem expr_keeps {v w : Obj} (hv : NoQueryInJoins v) (h : TouchExpr (Touched cx n) v w) :
    NoQueryInJoins w := by
  have refs : ∀ {xs ys : List Obj}, (∀ x ∈ xs, NoQueryInJoins x) →
      List.Forall₂ (touchRef (Touched cx n)) xs ys → ∀ y ∈ ys, NoQueryInJoins y := by
    intro xs ys hx h y hy
    obtain ⟨x, hm, hr⟩ := mem_forall₂ h y hy
    exact ref_keeps ih (hx x hm) hr
  cases h with
  | ref _ _ h => exact ref_keeps ih hv h
  | list xs ys h => exact .mk (by simp [joinsOf]) (refs (xs := xs) (Throughout.inside hv) h)
  | tuple xs ys h => exact .mk (by simp [joinsOf]) (refs (xs := xs) (Throughout.inside hv) h)

theorem cols_keep {xs ys : List Column} (h : List.Forall₂ (touchColumn (Touched cx n)) xs ys)
    (hx : ∀ x ∈ xs.flatMap colParts, NoQueryInJoins x) :
    ∀ y ∈ ys.flatMap colParts, NoQueryInJoins y :=
  parts_keep h hx fun x y hr hg o ho => by
    simp only [colParts, List.mem_cons, List.not_mem_nil, or_false] at hg ho
    rcases ho with rfl | rfl
    · exact ref_keeps ih (hg x.name (by simp)) hr.1
    · exact ref_keeps ih (hg x.alias (by simp)) hr.2

theorem ords_keep {xs ys : List Order} (h : List.Forall₂ (touchOrder (Touched cx n)) xs ys)
    (hx : ∀ x ∈ xs.flatMap orderParts, NoQueryInJoins x) :
    ∀ y ∈ ys.flatMap orderParts, NoQueryInJoins y :=
  parts_keep h hx fun x y hr hg o ho => by
    simp only [orderParts, List.mem_cons, List.not_mem_nil, or_false] at hg ho
    subst ho
    exact ref_keeps ih (hg x.col rfl) hr.1

theorem conds_keep {xs ys : List Cond} (h : List.Forall₂ (TouchCond (Touched cx n)) xs ys)
    (hx : ∀ x ∈ xs.flatMap condParts, NoQueryInJoins x) :
    ∀ y ∈ ys.flatMap condParts, NoQueryInJoins y :=
  parts_keep h hx fun x y hr hg o ho => by
    cases hr with
    | cond on c k v d w h1 h2 =>
      simp only [condParts, List.mem_cons, List.not_mem_nil, or_false] at hg ho
      rcases ho with rfl | rfl
      · exact ref_keeps ih (hg c (by simp)) h1
      · exact val_keeps ih (hg v (by simp)) h2
    | item a b h =>
      simp only [condParts, List.mem_cons, List.not_mem_nil, or_false] at hg ho
      subst ho
      exact ref_keeps ih (hg a rfl) h

theorem values_keep {xs ys : List Value} (h : List.Forall₂ (TouchValue (Touched cx n)) xs ys)
    (hx : ∀ x ∈ xs.flatMap valueParts, NoQueryInJoins x) :
    ∀ y ∈ ys.flatMap valueParts, NoQueryInJoins y :=
  parts_keep h hx fun x y hr hg o ho => by
    cases hr with
    | value c v d w h1 h2 =>
      simp only [valueParts, List.mem_cons, List.not_mem_nil, or_false] at hg ho
      rcases ho with rfl | rfl
      · exact ref_keeps ih (hg c (by simp)) h1
      · exact val_keeps ih (hg v (by simp)) h2
    | item a b h =>
      simp only [valueParts, List.mem_cons, List.not_mem_nil, or_false] at hg ho
      subst ho
      exact ref_keeps ih (hg a rfl) h

theorem tables_keep {xs ys : List Table}
    (h : List.Forall₂ (touchTable cx (sem cx n) (Touched cx n)) xs ys)
    (hx : ∀ x ∈ xs.flatMap tableParts, NoQueryInJoins x)
    (hj : ∀ j ∈ xs.flatMap (·.joins), ∀ y ∈ joinParts j, QueryFree y) :
    (∀ y ∈ ys.flatMap tableParts, NoQueryInJoins y) ∧
    ∀ j ∈ ys.flatMap (·.joins), ∀ y ∈ joinParts j, QueryFree y := by
  have joins : ∀ t u, touchTable cx (sem cx n) (Touched cx n) t u →
      (∀ j ∈ t.joins, ∀ y ∈ joinParts j, QueryFree y) →
      ∀ k ∈ u.joins, ∃ j ∈ t.joins, joinParts k = joinParts j := by
    intro t u htu hj k hk
    rcases htu.2.2 with h3 | ⟨js, h3, h4⟩
    · rw [← joins_touched hj h3] at hk
      exact ⟨k, hk, rfl⟩
    · have hg : ∀ k ∈ js, ∃ j ∈ t.joins, joinParts k = joinParts j := by
        intro k hk
        obtain ⟨j0, hm0, e1, e2, e3⟩ := minimizeJoins_mem cx (sem cx n) h3 hk
        exact ⟨j0, hm0, by simp only [joinParts, e1, e2, e3]⟩
      have hq : ∀ j ∈ js, ∀ y ∈ joinParts j, QueryFree y := by
        intro k hk y hy
        obtain ⟨j, hm, e⟩ := hg k hk
        exact hj j hm y (e ▸ hy)
      rw [← joins_touched hq h4] at hk
      exact hg k hk
  constructor
  · intro o ho
    obtain ⟨u, hu, ho⟩ := List.mem_flatMap.mp ho
    obtain ⟨t, ht, htu⟩ := mem_forall₂ h u hu
    have hx' : ∀ x ∈ tableParts t, NoQueryInJoins x :=
      fun x hm => hx x (List.mem_flatMap.mpr ⟨t, ht, hm⟩)
    simp only [tableParts, List.mem_append, List.mem_cons, List.not_mem_nil, or_false,
      List.mem_flatMap] at ho
    rcases ho with (rfl | rfl) | ⟨k, hk, ho⟩
    · exact ref_keeps ih (hx' t.name (by simp [tableParts])) htu.1
    · exact ref_keeps ih (hx' t.alias (by simp [tableParts])) htu.2.1
    · obtain ⟨j, hm, e⟩ := joins t u htu
        (fun j hm => hj j (List.mem_flatMap.mpr ⟨t, ht, hm⟩)) k hk
      refine hx' o ?_
      simp only [tableParts, List.mem_append, List.mem_flatMap]
      exact .inr ⟨j, hm, e ▸ ho⟩
  · intro k hk y hy
    obtain ⟨u, hu, hk⟩ := List.mem_flatMap.mp hk
    obtain ⟨t, ht, htu⟩ := mem_forall₂ h u hu
    have hj' : ∀ j ∈ t.joins, ∀ y ∈ joinParts j, QueryFree y :=
      fun j hm => hj j (List.mem_flatMap.mpr ⟨t, ht, hm⟩)
    obtain ⟨j, hm, e⟩ := joins t u htu hj' k hk
    exact hj' j hm y (e ▸ hy)

theorem outfile_keeps {o p : Outfile} (h : touchOutfile (Touched cx n) o p)
    (hx : ∀ x ∈ outfileParts o, NoQueryInJoins x) : ∀ x ∈ outfileParts p, NoQueryInJoins x := by
  have opt : ∀ {a b : Option Obj}, TouchOpt (Touched cx n) a b →
      (∀ x ∈ a.toList, NoQueryInJoins x) → ∀ x ∈ b.toList, NoQueryInJoins x := by
    intro a b h ha x hx
    cases h with
    | none => cases hx
    | some v w h =>
      simp only [Option.toList_some, List.mem_singleton] at hx
      subst hx
      exact val_keeps ih (ha v (by simp)) h
  intro x hm
  simp only [outfileParts, List.mem_append] at hx hm
  rcases hm with ((hm | hm) | hm) | hm
  · exact opt h.1 (fun x hm => hx x (by tauto)) x hm
  · exact opt h.2.1 (fun x hm => hx x (by tauto)) x hm
  · exact opt h.2.2.1 (fun x hm => hx x (by tauto)) x hm
  · exact opt h.2.2.2 (fun x hm => hx x (by tauto)) x hm

theorem touchF_keeps {a b : Obj} (ha : NoQueryInJoins a)
    (h : TouchF cx (sem cx n) (Touched cx n) a b) : NoQueryInJoins b := by
  have hi := Throughout.inside ha
  have one : ∀ {v w : Obj}, NoQueryInJoins v → touchRef (Touched cx n) v w →
      ∀ x ∈ [w], NoQueryInJoins x := by
    intro v w hv h x hx
    rw [List.mem_singleton] at hx
    subst hx
    exact ref_keeps ih hv h
  have two : ∀ {v w v' w' : Obj}, NoQueryInJoins v → NoQueryInJoins v' →
      touchRef (Touched cx n) v w → touchRef (Touched cx n) v' w' →
      ∀ x ∈ [w, w'], NoQueryInJoins x := by
    intro v w v' w' hv hv' h h' x hx
    simp only [List.mem_cons, List.not_mem_nil, or_false] at hx
    rcases hx with rfl | rfl
    · exact ref_keeps ih hv h
    · exact ref_keeps ih hv' h'
  cases h with
  | sqlValue v w h => exact NoQueryInJoins.value (val_keeps ih (hi v (by simp [parts])) h)
  | sqlRef v w h => exact .mk (by simp [joinsOf]) (one (hi v (by simp [parts])) h)
  | rel k v w h => exact .mk (by simp [joinsOf]) (one (hi v (by simp [parts])) h)
  | conds ps qs h => exact .mk (by simp [joinsOf]) (conds_keep ih h hi)
  | cofc l r l' r' op h k =>
    exact .mk (by simp [joinsOf]) (two (hi l (by simp [parts])) (hi r (by simp [parts])) h k)
  | not_ ps qs h =>
    have := ih (a := .conds ps) (.mk (by simp [joinsOf]) hi) h
    exact .mk (by simp [joinsOf]) fun x hx => Throughout.inside this x hx
  | func f d v w h =>
    refine .mk (by simp [joinsOf]) fun x hx => ?_
    have hx : x = w := by simpa [parts] using hx
    subst hx
    exact expr_keeps ih (hi v (by simp [parts])) h
  | concat cs ds h => exact .mk (by simp [joinsOf]) (cols_keep ih h hi)
  | groupConcat cs ds os ps v w h1 h2 h3 =>
    have hi' : ∀ x ∈ cs.flatMap colParts ++ os.flatMap orderParts ++ [v], NoQueryInJoins x := hi
    simp only [List.mem_append] at hi'
    refine .mk (by simp [joinsOf]) fun x hx => ?_
    have hx : x ∈ ds.flatMap colParts ++ ps.flatMap orderParts ++ [w] := hx
    simp only [List.mem_append, List.mem_singleton] at hx
    rcases hx with (hx | hx) | rfl
    · exact cols_keep ih h1 (fun x hm => hi' x (by tauto)) x hx
    · exact ords_keep ih h2 (fun x hm => hi' x (by tauto)) x hx
    · exact val_keeps ih (hi' v (by simp)) h3
  | convert v w ty h =>
    refine .mk (by simp [joinsOf]) fun x hx => ?_
    have hx : x = w := by simpa [parts] using hx
    subst hx
    exact expr_keeps ih (hi v (by simp [parts])) h
  | exists_ v w h => exact .mk (by simp [joinsOf]) (one (hi v (by simp [parts])) h)
  | union a b c d all h k =>
    exact .mk (by simp [joinsOf]) (two (hi a (by simp [parts])) (hi b (by simp [parts])) h k)
  | select p q h =>
    have hx : ∀ x ∈ p.columns.flatMap colParts ++ p.tables.flatMap tableParts ++
        p.where_.flatMap condParts ++ p.groupBy.flatMap orderParts ++ p.having.flatMap condParts ++
        p.orderBy.flatMap orderParts ++ outfileParts p.outfile, NoQueryInJoins x := hi
    simp only [List.mem_append] at hx
    obtain ⟨h1, h2⟩ := tables_keep ih h.tables (fun x hm => hx x (by tauto)) (Throughout.here ha)
    refine .mk h2 fun x hm => ?_
    have hm : x ∈ q.columns.flatMap colParts ++ q.tables.flatMap tableParts ++
        q.where_.flatMap condParts ++ q.groupBy.flatMap orderParts ++ q.having.flatMap condParts ++
        q.orderBy.flatMap orderParts ++ outfileParts q.outfile := hm
    simp only [List.mem_append] at hm
    rcases hm with (((((hm | hm) | hm) | hm) | hm) | hm) | hm
    · exact cols_keep ih h.columns (fun x hm => hx x (by tauto)) x hm
    · exact h1 x hm
    · exact conds_keep ih h.where_ (fun x hm => hx x (by tauto)) x hm
    · exact ords_keep ih h.groupBy (fun x hm => hx x (by tauto)) x hm
    · exact conds_keep ih h.having (fun x hm => hx x (by tauto)) x hm
    · exact ords_keep ih h.orderBy (fun x hm => hx x (by tauto)) x hm
    · exact outfile_keeps ih h.outfile (fun x hm => hx x (by tauto)) x hm
  | insert p q h =>
    have hx : ∀ x ∈ p.tables.flatMap tableParts ++ p.rows.flatMap (·.flatMap valueParts) ++
        p.onDup.flatMap valueParts ++ p.onConflict.flatMap valueParts, NoQueryInJoins x := hi
    simp only [List.mem_append] at hx
    obtain ⟨h1, h2⟩ := tables_keep ih h.tables (fun x hm => hx x (by tauto)) (Throughout.here ha)
    refine .mk h2 fun x hm => ?_
    have hm : x ∈ q.tables.flatMap tableParts ++ q.rows.flatMap (·.flatMap valueParts) ++
        q.onDup.flatMap valueParts ++ q.onConflict.flatMap valueParts := hm
    simp only [List.mem_append] at hm
    rcases hm with ((hm | hm) | hm) | hm
    · exact h1 x hm
    · exact parts_keep h.rows (fun x hm => hx x (by tauto))
        (fun r s hr hg => values_keep ih hr hg) x hm
    · exact values_keep ih h.onDup (fun x hm => hx x (by tauto)) x hm
    · exact values_keep ih h.onConflict (fun x hm => hx x (by tauto)) x hm
  | update p q h =>
    have hx : ∀ x ∈ p.tables.flatMap tableParts ++ p.values.flatMap valueParts ++
        p.where_.flatMap condParts, NoQueryInJoins x := hi
    simp only [List.mem_append] at hx
    obtain ⟨h1, h2⟩ := tables_keep ih h.tables (fun x hm => hx x (by tauto)) (Throughout.here ha)
    refine .mk h2 fun x hm => ?_
    have hm : x ∈ q.tables.flatMap tableParts ++ q.values.flatMap valueParts ++
        q.where_.flatMap condParts := hm
    simp only [List.mem_append] at hm
    rcases hm with (hm | hm) | hm
    · exact h1 x hm
    · exact values_keep ih h.values (fun x hm => hx x (by tauto)) x hm
    · exact conds_keep ih h.where_ (fun x hm => hx x (by tauto)) x hm
  | delete p q h =>
    have hx : ∀ x ∈ p.tables.flatMap tableParts ++ p.references.flatMap tableParts ++
        p.where_.flatMap condParts, NoQueryInJoins x := hi
    have hj : ∀ j ∈ (p.tables ++ p.references).flatMap (·.joins), ∀ y ∈ joinParts j, QueryFree y :=
      Throughout.here ha
    rw [List.flatMap_append] at hj
    simp only [List.mem_append] at hx hj
    obtain ⟨h1, h2⟩ := tables_keep ih h.tables (fun x hm => hx x (by tauto))
      (fun j hm => hj j (.inl hm))
    obtain ⟨h3, h4⟩ := tables_keep ih h.references (fun x hm => hx x (by tauto))
      (fun j hm => hj j (.inr hm))
    refine .mk (fun j hm => ?_) fun x hm => ?_
    · have hm : j ∈ (q.tables ++ q.references).flatMap (·.joins) := hm
      rw [List.flatMap_append, List.mem_append] at hm
      exact hm.elim (h2 j) (h4 j)
    · have hm : x ∈ q.tables.flatMap tableParts ++ q.references.flatMap tableParts ++
          q.where_.flatMap condParts := hm
      simp only [List.mem_append] at hm
      rcases hm with (hm | hm) | hm
      · exact h1 x hm
      · exact h3 x hm
      · exact conds_keep ih h.where_ (fun x hm => hx x (by tauto)) x hm

end

theorem touched_keeps (cx : Ctx) (n : Nat) : Keeps cx n := by
  induction n with
  | zero => intro a b ha h; cases h; exact ha
  | succ n ih =>
    intro a b ha h
    rcases h with rfl | h
    · exact ha
    · exact touchF_keeps ih ha h

/-! ### The operation `str` -/

section
variable (cx : Ctx) (n : Nat)

theorem forall₂_self {α : Type} {R : α → α → Prop} (h : ∀ a, R a a) (xs : List α) :
    List.Forall₂ R xs xs := List.forall₂_same.mpr fun a _ => h a

theorem touchRef_self (v : Obj) : touchRef (Touched cx n) v v := .inl rfl

theorem touchCond_self (p : Cond) : TouchCond (Touched cx n) p p := by
  cases p with
  | cond on c k v => exact .cond _ _ _ _ _ _ (.inl rfl) (.same _)
  | item o => exact .item _ _ (.inl rfl)

theorem touchValue_self (p : Value) : TouchValue (Touched cx n) p p := by
  cases p with
  | value c v => exact .value _ _ _ _ (.inl rfl) (.same _)
  | item o => exact .item _ _ (.inl rfl)

theorem touchJoin_self (j : Join) : touchJoin (Touched cx n) j j :=
  ⟨rfl, .inl rfl, .inl rfl, forall₂_self (touchCond_self cx n) _⟩

theorem touchOpt_self (v : Option Obj) : TouchOpt (Touched cx n) v v := by
  cases v with
  | none => exact .none
  | some v => exact .some _ _ (.same _)

theorem touchTable_self (S : Sem) (t : Table) : touchTable cx S (Touched cx n) t t :=
  ⟨.inl rfl, .inl rfl, .inl (forall₂_self (touchJoin_self cx n) _)⟩

theorem touchSelect_self (S : Sem) {p : Select} {ts : List Table}
    (h : List.Forall₂ (touchTable cx S (Touched cx n)) p.tables ts) :
    TouchSelect cx S (Touched cx n) p { p with tables := ts } where
  opts := rfl
  columns := forall₂_self (fun _ => ⟨.inl rfl, .inl rfl⟩) _
  tables := h
  where_ := forall₂_self (touchCond_self cx n) _
  groupBy := forall₂_self (fun _ => ⟨.inl rfl, rfl⟩) _
  having := forall₂_self (touchCond_self cx n) _
  orderBy := forall₂_self (fun _ => ⟨.inl rfl, rfl⟩) _
  limit := rfl
  outfile := ⟨touchOpt_self cx n _, touchOpt_self cx n _, touchOpt_self cx n _, touchOpt_self cx n _⟩
  forUpdate := rfl

/-- What rendering the tables leaves behind. -/
theorem touchTables_str (S : Sem) (ts : List Table) :
    List.Forall₂ (touchTable cx S (Touched cx n)) ts (strTables cx S ts).1 := by
  have one : ∀ t : Table, touchTable cx S (Touched cx n) t (strTable cx S t).1 := by
    intro t
    unfold strTable
    split
    · exact touchTable_self cx n S t
    · split
      · exact touchTable_self cx n S t
      · split
        · exact touchTable_self cx n S t
        · rename_i js hm
          exact ⟨.inl rfl, .inl rfl, .inr ⟨js, hm, forall₂_self (touchJoin_self cx n) _⟩⟩
  induction ts with
  | nil => exact .nil
  | cons t ts ih =>
    have h1 := one t
    unfold strTables
    split
    · rename_i t' e hs
      rw [hs] at h1
      exact .cons h1 (forall₂_self (touchTable_self cx n S) _)
    · rename_i t' hs
      rw [hs] at h1
      exact .cons h1 ih

end

end SqlPuzzle.Touch
