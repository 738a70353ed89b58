import Verif.Model.Functions
import Verif.Proofs.Accumulate
import Verif.Proofs.Statement

/-!
C46: SQL functions.
-/

namespace SqlPuzzle
open Spec

/-- Names of the aggregate functions in SQL. -/
def Spec.aggName : Agg → Str
  | .avg => L!"AVG"
  | .count => L!"COUNT"
  | .max => L!"MAX"
  | .min => L!"MIN"
  | .sum => L!"SUM"

/-- Is it a single expression, not a list or a tuple of expressions? -/
def Spec.Single : Obj → Prop
  | .list _ | .tuple _ => False
  | _ => True

/-- `name(body)` with `DISTINCT` on demand. -/
def Spec.call (name : Str) (distinct : Bool) (body : Str) : Str :=
  name ++ L!"(" ++ (if distinct then L!"DISTINCT " else []) ++ body ++ L!")"

private theorem call_eq (f : Agg) (d : Bool) (t : Str) :
    f.text ++ '(' :: (if d then L!"DISTINCT " else []) ++ t ++ [')'] = call (aggName f) d t := by
  unfold call
  have e1 : f.text = aggName f := by cases f <;> rfl
  have e2 : L!"(" = ['('] := rfl
  have e3 : L!")" = [')'] := rfl
  rw [e1, e2, e3]
  simp only [List.append_assoc, List.cons_append, List.nil_append]

/-- What stands between the parentheses. -/
private def funcBody (cx : Ctx) (S : Sem) (f : Agg) (e : Obj) : R Str :=
  match f with
  | .count =>
    match S.eq e (.str ['*']) with
    | .error x => .error x
    | .ok true => forceText cx S e
    | .ok false => exprText cx S e
  | _ => exprText cx S e

private theorem funcText_eq (cx : Ctx) (S : Sem) (f : Agg) (d : Bool) (e : Obj) :
    funcText cx S f d e = (funcBody cx S f e).map (call (aggName f) d) := by
  have done : ∀ x : R Str, (do
      let t ← x
      Except.ok (f.text ++ '(' :: (if d then L!"DISTINCT " else []) ++ t ++ [')']) : R Str) =
      x.map (call (aggName f) d) := by
    intro x
    cases x with
    | error x => rfl
    | ok t => exact congrArg Except.ok (call_eq f d t)
  cases f with
  | count =>
    unfold funcBody
    rw [← done]
    unfold funcText
    dsimp only
    cases S.eq e (.str ['*']) with
    | error x => rfl
    | ok b => cases b <;> rfl
  | avg => exact done _
  | max => exact done _
  | min => exact done _
  | sum => exact done _

private theorem expr_single (cx : Ctx) (S : Sem) {e : Obj} (h : Single e) :
    exprText cx S e = sqlRefText cx S e := by
  cases e <;> first | rfl | exact absurd h id

private theorem star_ref (q : Char) (hq : q = '"' ∨ q = '`') : reference q ['*'] = ['*'] := by
  rcases hq with rfl | rfl <;> decide +kernel

private theorem quote_cases (b : Backend) : b.quote = '"' ∨ b.quote = '`' := by
  cases b <;> simp [Backend.quote]

private theorem num_star (cx : Ctx) (n : Nat) :
    (∀ i, (sem cx (n + 1)).eq (.int i) (.str ['*']) = .ok false) ∧
    (∀ f, (sem cx (n + 1)).eq (.float f) (.str ['*']) = .ok false) ∧
    (∀ d, (sem cx (n + 1)).eq (.decimal d) (.str ['*']) = .ok false) :=
  ⟨fun i => by cases i <;> rfl, fun f => by cases f <;> rfl, fun d => by cases d <;> rfl⟩

/-- What `COUNT` compares with `'*'` has the text `*` when it is equal. -/
private theorem star_text (cx : Ctx) (n : Nat) {e : Obj}
    (h : (sem cx (n + 1)).eq e (.str ['*']) = .ok true) :
    Single e ∧ forceText cx (sem cx (n + 1)) e = sqlRefText cx (sem cx (n + 1)) e := by
  by_cases ht : e.textual = true
  · have hs : e.isSql = true := by cases e <;> first | rfl | cases ht
    constructor
    · cases e <;> trivial
    · unfold forceText sqlRefText
      rw [if_pos hs]
      cases e <;> first | rfl | cases ht
  · have he : ∃ s, e = .str s := by
      cases e <;> first
        | exact ⟨_, rfl⟩
        | exact absurd rfl ht
        | (have h' : (Except.ok false : R Bool) = .ok true := h; cases h')
        | (rw [(num_star cx n).1] at h; cases h)
        | (rw [(num_star cx n).2.1] at h; cases h)
        | (rw [(num_star cx n).2.2] at h; cases h)
    obtain ⟨s, rfl⟩ := he
    have h' : (Except.ok (s == ['*']) : R Bool) = .ok true := h
    have : s = ['*'] := by
      have := Except.ok.inj h'
      simpa using this
    subst this
    refine ⟨trivial, ?_⟩
    show Except.ok ['*'] = Except.ok (reference cx.backend.quote ['*'])
    rw [star_ref _ (quote_cases _)]

private theorem star_total (cx : Ctx) (n : Nat) (e : Obj) :
    (∃ b, (sem cx (n + 1)).eq e (.str ['*']) = .ok b) ∨
      (∃ x, (sem cx (n + 1)).eq e (.str ['*']) = .error x ∧ Single e ∧
        sqlRefText cx (sem cx (n + 1)) e = .error x) := by
  by_cases ht : e.textual = true
  · cases hr : renderF cx (sem cx n) e with
    | ok t =>
      left
      refine ⟨t == ['*'], ?_⟩
      show eqF cx (sem cx n) e (.str ['*']) = _
      unfold eqF
      rw [if_pos ht]
      show (do let t ← renderF cx (sem cx n) e; Except.ok (t == ['*'])) = _
      rw [hr]; rfl
    | error x =>
      right
      refine ⟨x, ?_, ?_, ?_⟩
      · show eqF cx (sem cx n) e (.str ['*']) = _
        unfold eqF
        rw [if_pos ht]
        show (do let t ← renderF cx (sem cx n) e; Except.ok (t == ['*'])) = _
        rw [hr]; rfl
      · cases e <;> trivial
      · rw [← hr]
        show _ = (sem cx (n + 1)).str e
        unfold sqlRefText
        cases e <;> first | rfl | cases ht
  · left
    cases e <;> first
      | exact ⟨false, rfl⟩
      | exact ⟨_, rfl⟩
      | exact ⟨_, (num_star cx n).1 _⟩
      | exact ⟨_, (num_star cx n).2.1 _⟩
      | exact ⟨_, (num_star cx n).2.2 _⟩
      | exact absurd rfl ht

/-- C46. `avg(e)`, `count(e)`, `max(e)`, `min(e)`, `sum(e)` and their `_distinct` forms: the name,
and in parentheses, after `DISTINCT` if asked for, the text of `e` as a reference.  Where that text
cannot be made, the function has none either. -/
theorem C46_aggregate (cx : Ctx) (n : Nat) (f : Agg) (d : Bool) {e : Obj} (he : Single e)
    (hc : f = .count → e.truthy = true) :
    (sem cx (n + 2)).str (mkFunc f d e) =
      ((sem cx (n + 2)).str (.sqlRef e)).map (call (aggName f) d) := by
  have e1 : (sem cx (n + 2)).str (.sqlRef e) = sqlRefText cx (sem cx (n + 1)) e := rfl
  have e2 : (sem cx (n + 2)).str (mkFunc f d e) = funcText cx (sem cx (n + 1)) f d e := by
    cases f with
    | count =>
      show renderF cx _ (.func .count d (if e.truthy then e else .str ['*'])) = _
      rw [if_pos (hc rfl)]; rfl
    | _ => rfl
  rw [e1, e2, funcText_eq]
  congr 1
  unfold funcBody
  cases f with
  | count =>
    rcases star_total cx n e with ⟨b, hb⟩ | ⟨x, hx, hs, hr⟩
    · dsimp only
      rw [hb]
      cases b with
      | true => exact (star_text cx n hb).2
      | false => exact expr_single cx _ he
    · dsimp only
      rw [hx, hr]
  | avg => exact expr_single cx _ he
  | max => exact expr_single cx _ he
  | min => exact expr_single cx _ he
  | sum => exact expr_single cx _ he

/-- C46. A list or tuple of expressions: the references separated by commas. -/
theorem C46_aggregate_list (cx : Ctx) (n : Nat) (f : Agg) (d : Bool) {e : Obj} {es : List Obj}
    (he : e = .list es ∨ e = .tuple es) (hc : f = .count → es ≠ []) :
    (sem cx (n + 2)).str (mkFunc f d e) =
      (mapR (fun x => (sem cx (n + 2)).str (.sqlRef x)) es).map
        fun ts => call (aggName f) d (joinS L!", " ts) := by
  have ht : f = .count → e.truthy = true := by
    intro h
    have := hc h
    rcases he with rfl | rfl <;> cases es <;> first | exact absurd rfl this | rfl
  have e2 : (sem cx (n + 2)).str (mkFunc f d e) = funcText cx (sem cx (n + 1)) f d e := by
    cases f with
    | count =>
      show renderF cx _ (.func .count d (if e.truthy then e else .str ['*'])) = _
      rw [if_pos (ht rfl)]; rfl
    | _ => rfl
  rw [e2, funcText_eq]
  have e3 : funcBody cx (sem cx (n + 1)) f e = exprText cx (sem cx (n + 1)) e := by
    rcases he with rfl | rfl <;> cases f <;> rfl
  have e4 : exprText cx (sem cx (n + 1)) e =
      (do let ts ← mapR (fun x => (sem cx (n + 2)).str (.sqlRef x)) es; Except.ok (joinS L!", " ts)) := by
    rcases he with rfl | rfl <;> rfl
  rw [e3, e4]
  cases mapR (fun x => (sem cx (n + 2)).str (.sqlRef x)) es <;> rfl

/-- C46. `count()` is `COUNT(*)`, and `count_distinct()` is `COUNT(DISTINCT *)`. -/
theorem C46_count (cx : Ctx) (n : Nat) (d : Bool) :
    (sem cx (n + 2)).str (mkFunc .count d .none) = .ok (call L!"COUNT" d L!"*") := by
  cases d <;> rfl

/-- C46. `.distinct()` adds `DISTINCT ` after the parenthesis and changes nothing else;
`.distinct(False)` takes it away. -/
theorem C46_distinct (cx : Ctx) (n : Nat) (f : Agg) (d : Bool) (e allow : Obj) {t : Str}
    (h : (sem cx n).str (.func f d e) = .ok t) :
    ∃ body, t = call (aggName f) d body ∧
      (sem cx n).str (funcDistinct (.func f d e) allow) =
        .ok (call (aggName f) allow.truthy body) := by
  cases n with
  | zero => cases h
  | succ n =>
    have h' : funcText cx (sem cx n) f d e = .ok t := h
    have hd : ∀ d, (sem cx (n + 1)).str (.func f d e) = funcText cx (sem cx n) f d e := fun _ => rfl
    rw [funcText_eq] at h'
    cases hb : funcBody cx (sem cx n) f e with
    | error x => rw [hb] at h'; cases h'
    | ok body =>
      rw [hb] at h'
      refine ⟨body, (Except.ok.inj h').symm, ?_⟩
      show (sem cx (n + 1)).str (.func f allow.truthy e) = _
      rw [hd, funcText_eq, hb]; rfl

/-! ### CONCAT, GROUP_CONCAT -/

/-- A value `concat` takes as an expression: a name, a number, or an SQL object. -/
def Spec.Usable (e : Obj) : Prop := (∃ s, e = .str s) ∨ (∃ i, e = .int i) ∨ e.isSql = true

private theorem usable_facts {e : Obj} (h : Usable e) :
    e.isListTuple = false ∧ e.allowed [.str, .int] = true ∧ asDict [e] = none ∧ asList [e] = none := by
  rcases h with ⟨s, rfl⟩ | ⟨i, rfl⟩ | h
  · exact ⟨rfl, rfl, rfl, rfl⟩
  · exact ⟨rfl, rfl, rfl, rfl⟩
  · refine ⟨?_, by simp [Obj.allowed, h], ?_, ?_⟩ <;> cases e <;> first | rfl | cases h

private theorem parse_names (S : Sem) {es : List Obj} (h : ∀ e ∈ es, Usable e) :
    parseArgs S nameOpts { pos := es } = .ok (es.map fun e => [e, .none]) := by
  have hl : parseList nameOpts es = .ok (es.map fun e => [e, .none]) := by
    unfold parseList
    induction es with
    | nil => rfl
    | cons e es ih =>
      have he := (usable_facts (h e (List.mem_cons_self ..))).1
      have e1 : parseListItem nameOpts e = .ok [e, .none] := by
        unfold parseListItem
        cases e <;> first | rfl | cases he
      rw [mapR_cons, e1, ih fun x hx => h x (List.mem_cons_of_mem _ hx)]
      rfl
  have hd : asDict es = none := by
    cases es with
    | nil => rfl
    | cons e es =>
      cases es with
      | nil => exact (usable_facts (h e (List.mem_cons_self ..))).2.2.1
      | cons x xs =>
        unfold asDict
        split
        · rename_i h; cases h
        · rfl
  have e1 : parsePositional nameOpts es = .ok (es.map fun e => [e, .none]) := by
    unfold parsePositional
    rw [if_neg (by simp [nameOpts])]
    show (match false, asList es with
      | true, some xs => parseList nameOpts xs
      | _, _ => if (asDict es).isNone && !es.isEmpty then parseList nameOpts es else .ok []) = _
    rw [hd]
    cases es with
    | nil => rfl
    | cons e es => exact hl
  have e2 : parseKeyed S nameOpts { pos := es } = .ok [] := by
    unfold parseKeyed
    rw [show asDict ({ pos := es } : Args).pos = none from hd]
    rfl
  unfold parseArgs
  rw [if_neg (by simp), if_neg (by simp [nameOpts]), e1, e2]
  show Except.ok (_ ++ []) = _
  rw [List.append_nil]

private theorem forUpd_step {σ α : Type} {f : σ → α → Upd σ} {s s' : σ} {x : α} {xs : List α}
    (h : f s x = (s', none)) : forUpd f s (x :: xs) = forUpd f s' xs := by
  show (match f s x with
    | (s', none) => forUpd f s' xs
    | (s', some e) => (s', some e)) = _
  rw [h]

/-- What `concat` and `group_concat` keep of arguments that are all different. -/
private theorem columns_different {S : Sem} {es : List Obj} (hu : ∀ e ∈ es, Usable e)
    (hd : es.Pairwise fun a b => S.eq a b = .ok false) :
    columnsAdd S [] { pos := es } = (es.map fun e => ⟨e, .none⟩, none) := by
  unfold columnsAdd
  rw [if_neg (by simp [kwSelf]), parse_names S hu]
  show forUpd _ [] (es.map _) = _
  have key : ∀ (done todo : List Obj), es = done ++ todo →
      forUpd (fun cs b => withR cs (mkColumn (pairOf b).1 (pairOf b).2) fun c =>
        appendUnique (columnEq S) cs c) (done.map fun e => (⟨e, .none⟩ : Column))
        (todo.map fun e => [e, Obj.none]) = (es.map fun e => ⟨e, .none⟩, none) := by
    intro done todo
    induction todo generalizing done with
    | nil => intro h; rw [h, List.append_nil]; rfl
    | cons x todo ih =>
      intro h
      have hx : mkColumn x .none = .ok ⟨x, .none⟩ := by
        have := (usable_facts (hu x (by rw [h]; simp))).2.1
        unfold mkColumn checkType
        rw [if_pos this]; rfl
      have hn : appendUnique (columnEq S) (done.map fun e => (⟨e, .none⟩ : Column)) ⟨x, .none⟩ =
          ((done ++ [x]).map fun e => ⟨e, .none⟩, none) := by
        unfold appendUnique
        have : anyR (fun q => columnEq S q ⟨x, .none⟩) (done.map fun e => (⟨e, .none⟩ : Column)) =
            .ok false := by
          refine (anyR_false ..).mpr ?_
          intro c hc
          obtain ⟨y, hy, rfl⟩ := List.mem_map.mp hc
          unfold columnEq
          have h2 : S.eq y x = .ok false := by
            rw [h, List.pairwise_append] at hd
            exact hd.2.2 y hy x (List.mem_cons_self ..)
          show andR (S.eq y x) _ = _
          rw [h2]; rfl
        rw [this, List.map_append]; rfl
      rw [List.map_cons, forUpd_step (s' := (done ++ [x]).map fun e => ⟨e, .none⟩)]
      · exact ih (done ++ [x]) (by rw [h]; simp)
      · show withR _ (mkColumn x .none) _ = _
        rw [hx]
        exact hn
  exact key [] es rfl

private theorem columns_text (cx : Ctx) (n : Nat) {es : List Obj} (hn : es ≠ []) :
    columnsText cx (sem cx n) (es.map fun e => ⟨e, .none⟩) =
      (mapR (fun e => (sem cx (n + 1)).str (.sqlRef e)) es).map (joinS L!", ") := by
  unfold columnsText partsText
  have : (es.map fun e => (⟨e, .none⟩ : Column)).isEmpty = false := by
    cases es with
    | nil => exact absurd rfl hn
    | cons e es => rfl
  rw [this, mapR_map]
  have e1 : mapR (columnText cx (sem cx n) ∘ fun e => (⟨e, .none⟩ : Column)) es =
      mapR (fun e => (sem cx (n + 1)).str (.sqlRef e)) es := rfl
  show (do let ts ← mapR (columnText cx (sem cx n) ∘ fun e => (⟨e, .none⟩ : Column)) es; _) = _
  rw [e1]
  cases mapR (fun e => (sem cx (n + 1)).str (.sqlRef e)) es <;> rfl

/-- C46. `concat(e, …)` of arguments no two of which are equal: `CONCAT`, and in parentheses all
arguments, in order, as references. -/
theorem C46_concat_partial (cx : Ctx) (n : Nat) {es : List Obj} (hn : es ≠ [])
    (hu : ∀ e ∈ es, Usable e) (hd : es.Pairwise fun a b => (sem cx n).eq a b = .ok false) :
    ∃ o, mkConcat (sem cx n) es = .ok o ∧ ∀ m,
      (sem cx (m + 1)).str o = (mapR (fun e => (sem cx (m + 1)).str (.sqlRef e)) es).map
        fun ts => call L!"CONCAT" false (joinS L!", " ts) := by
  refine ⟨.concat (es.map fun e => ⟨e, .none⟩), ?_, fun m => ?_⟩
  · unfold mkConcat
    rw [columns_different hu hd]
  · show (do
      let c ← columnsText cx (sem cx m) (es.map fun e => ⟨e, .none⟩)
      Except.ok (L!"CONCAT(" ++ c ++ [')'])) = _
    rw [columns_text cx m hn]
    cases mapR (fun e => (sem cx (m + 1)).str (.sqlRef e)) es with
    | error x => rfl
    | ok ts => rfl

/-- The text of `group_concat(e, …).order_by(…).separator(sep)`. -/
def Spec.GroupConcatText (cx : Ctx) (m : Nat) (es : List Obj) (os : List Order) (sep t : Str) :
    Prop :=
  ∃ ts ws s, List.Forall₂ (fun e t => (sem cx (m + 1)).str (.sqlRef e) = .ok t) es ts ∧
    List.Forall₂ (OrderText cx m) os ws ∧ (sem cx (m + 1)).str (.sqlValue (.str sep)) = .ok s ∧
    t = call L!"GROUP_CONCAT" false (joinS L!", " ts ++
      (if os = [] then [] else L!" ORDER BY " ++ joinS L!", " ws) ++
      (if sep = [] then [] else L!" SEPARATOR " ++ s))

private theorem glue (g p ts ob us sp : Str) :
    g ++ p ++ ts ++ (' ' :: (ob ++ ' ' :: us)) ++ sp ++ [')'] =
      g ++ p ++ [] ++ (ts ++ (' ' :: (ob ++ [' ']) ++ us) ++ sp) ++ [')'] := by simp

theorem groupConcat_text (cx : Ctx) (m : Nat) {es : List Obj} (hn : es ≠ []) (os : List Order)
    (sep : Str) :
    (sem cx (m + 1)).str (.groupConcat (es.map fun e => ⟨e, .none⟩) os (.str sep)) = (do
      let ts ← mapR (fun e => (sem cx (m + 1)).str (.sqlRef e)) es
      let us ← mapR (orderText cx (sem cx m)) os
      let s ← (sem cx (m + 1)).str (.sqlValue (.str sep))
      .ok (call L!"GROUP_CONCAT" false (joinS L!", " ts ++
        (if os = [] then [] else L!" ORDER BY " ++ joinS L!", " us) ++
        (if sep = [] then [] else L!" SEPARATOR " ++ s)))) := by
  show groupConcatText cx (sem cx m) (es.map fun e => ⟨e, .none⟩) os (.str sep) = _
  unfold groupConcatText
  rw [columns_text cx m hn]
  cases mapR (fun e => (sem cx (m + 1)).str (.sqlRef e)) es with
  | error x => rfl
  | ok ts =>
    have hs : (sem cx (m + 1)).str (.sqlValue (.str sep)) =
        .ok (strValueText cx sep) := rfl
    have hq : sqlValueText cx (sem cx m) (.str sep) = .ok (strValueText cx sep) := rfl
    rw [hs, hq]
    have e3 : L!")" = [')'] := rfl
    cases os with
    | nil =>
      cases sep with
      | nil =>
        show Except.ok _ = Except.ok _
        unfold call
        rw [e3]; simp
      | cons c sep =>
        show Except.ok _ = Except.ok _
        unfold call
        rw [e3]; simp
    | cons o os =>
      show (do
        let o' ← (do
          let s ← (do
            let us ← mapR (orderText cx (sem cx m)) (o :: os)
            Except.ok (L!"ORDER BY" ++ ' ' :: joinS L!", " us) : R Str)
          Except.ok (' ' :: s) : R Str)
        _) = _
      cases mapR (orderText cx (sem cx m)) (o :: os) with
      | error x => rfl
      | ok us =>
        have e4 : L!" ORDER BY " = ' ' :: (L!"ORDER BY" ++ [' ']) := rfl
        have e5 : L!"GROUP_CONCAT(" = L!"GROUP_CONCAT" ++ L!"(" := rfl
        unfold call
        rw [e3, e4, e5]
        cases sep with
        | nil => exact congrArg Except.ok (glue _ _ _ _ _ _)
        | cons c sep => exact congrArg Except.ok (glue _ _ _ _ _ _)

/-- The text in terms of the texts of the arguments and the orders. -/
theorem groupConcat_ok (cx : Ctx) (m : Nat) {es : List Obj} (hn : es ≠ []) (os : List Order)
    (sep t : Str) :
    (sem cx (m + 1)).str (.groupConcat (es.map fun e => ⟨e, .none⟩) os (.str sep)) = .ok t ↔
      GroupConcatText cx m es os sep t := by
  rw [groupConcat_text cx m hn]
  simp only [bind_ok, GroupConcatText]
  constructor
  · rintro ⟨ts, h1, us, h2, s, h3, h4⟩
    cases h4
    exact ⟨ts, us, s, (mapR_iff fun _ _ => Iff.rfl).mp h1,
      (mapR_iff fun _ _ => orderText_iff cx m).mp h2, h3, rfl⟩
  · rintro ⟨ts, us, s, h1, h2, h3, rfl⟩
    exact ⟨ts, (mapR_iff fun _ _ => Iff.rfl).mpr h1, us,
      (mapR_iff fun _ _ => orderText_iff cx m).mpr h2, s, h3, rfl⟩

/-- C46. `group_concat(e, …)` of arguments no two of which are equal: `GROUP_CONCAT`, all arguments
in order as references, then the ORDER BY, then the separator. The ORDER BY has the columns given to
`order_by`, each once, with the direction given last. -/
theorem C46_group_concat_partial (cx : Ctx) (n : Nat) {es : List Obj} (hn : es ≠ [])
    (hu : ∀ e ∈ es, Usable e) (hd : es.Pairwise fun a b => (sem cx (n + 1)).eq a b = .ok false) :
    ∃ o, mkGroupConcat (sem cx (n + 1)) es = .ok o ∧
      (∀ m, (sem cx (m + 1)).str o =
        (mapR (fun e => (sem cx (m + 1)).str (.sqlRef e)) es).map
          fun ts => call L!"GROUP_CONCAT" false (joinS L!", " ts)) ∧
      (∀ sep, ∃ o', groupConcatSeparator o (.str sep) = (o', none) ∧
        ∀ m t, (sem cx (m + 1)).str o' = .ok t ↔ GroupConcatText cx m es [] sep t) ∧
      ∀ args ps us, GivesNames { pos := args } ps → Uses cx ps us →
        ∃ o' os, groupConcatOrderBy cx (sem cx (n + 1)) o args = (o', none) ∧
          FirstUses (us.map Prod.fst) (os.map OrderS.col) ∧
          (∀ x ∈ os, LastValue us x.col x.desc) ∧
          ∀ sep, ∃ o'', groupConcatSeparator o' (.str sep) = (o'', none) ∧
            ∀ m t, (sem cx (m + 1)).str o'' = .ok t ↔ GroupConcatText cx m es os sep t := by
  refine ⟨.groupConcat (es.map fun e => ⟨e, .none⟩) [] .none, ?_, fun m => ?_, ?_, ?_⟩
  · unfold mkGroupConcat
    rw [columns_different hu hd]
  · show groupConcatText cx (sem cx m) (es.map fun e => ⟨e, .none⟩) [] .none = _
    unfold groupConcatText
    rw [columns_text cx m hn]
    cases mapR (fun e => (sem cx (m + 1)).str (.sqlRef e)) es with
    | error x => rfl
    | ok ts =>
      show Except.ok (L!"GROUP_CONCAT(" ++ joinS L!", " ts ++ [] ++ [] ++ [')']) = _
      rw [List.append_nil, List.append_nil]; rfl
  · exact fun sep => ⟨_, rfl, fun m t => groupConcat_ok cx m hn [] sep t⟩
  · intro args ps us hg hs
    obtain ⟨os, h1, h2⟩ := orders_call cx n hg hs (uses := []) (os := []) ⟨.nil, by simp, by simp⟩
    refine ⟨.groupConcat (es.map fun e => ⟨e, .none⟩) os .none, os, ?_, h2.first, h2.last, ?_⟩
    · show (Obj.groupConcat _ (ordersAdd cx (sem cx (n + 1)) [] { pos := args }).1 _, _) = _
      rw [h1]
    · exact fun sep => ⟨_, rfl, fun m t => groupConcat_ok cx m hn os sep t⟩

/-! ### CONVERT -/

/-- C46. `convert(e, type)` and `convert(e).to(type)`: the reference, then the type in upper case. -/
theorem C46_convert (cx : Ctx) (n : Nat) {e : Obj} (he : Single e) {ty : Str} (ht : ty ≠ []) :
    ∃ o, mkConvert cx (sem cx n) e (.str ty) = .ok o ∧
      (∀ e', mkConvert cx (sem cx n) e .none = .ok e' →
        convertTo cx (sem cx n) e' (.str ty) = (o, none)) ∧
      ∀ m, (sem cx (m + 1)).str o = ((sem cx (m + 1)).str (.sqlRef e)).map
        fun t => call L!"CONVERT" false (t ++ L!", " ++ cx.env.upper ty) := by
  refine ⟨.convert e (some (cx.env.upper ty)), ?_, ?_, fun m => ?_⟩
  · unfold mkConvert
    rw [if_pos (by cases ty <;> first | exact absurd rfl ht | rfl)]; rfl
  · intro e' h
    cases h
    rfl
  · show (do
      let t ← exprText cx (sem cx m) e
      Except.ok (L!"CONVERT(" ++ t ++ L!", " ++ cx.env.upper ty ++ [')'])) = _
    rw [expr_single cx _ he]
    show _ = (sqlRefText cx (sem cx m) e).map _
    cases sqlRefText cx (sem cx m) e with
    | error x => rfl
    | ok t =>
      show Except.ok _ = Except.ok _
      have e3 : L!")" = [')'] := rfl
      have e5 : L!"CONVERT(" = L!"CONVERT" ++ L!"(" := rfl
      unfold call
      rw [e3, e5]
      simp only [List.append_assoc, List.nil_append, Bool.false_eq_true, if_false]

/-! ### Where the claim fails -/

/-- `concat` as the property has it: every argument is rendered. -/
def C46_claim : Prop :=
  ∀ (cx : Ctx) (n : Nat) (names ts : List Str) (o : Obj) (t : Str),
    mkConcat (sem cx n) (names.map .str) = .ok o → (sem cx n).str o = .ok t → names ≠ [] →
    List.Forall₂ (fun c a => (sem cx n).str (.sqlRef (.str c)) = .ok a) names ts →
    t = call L!"CONCAT" false (joinS L!", " ts)

private def cx0 : Ctx := ⟨.sql, ⟨id, id, fun _ => true, fun _ => [], fun _ => []⟩⟩

/-- C46 fails: `concat('a', 'b', 'a')` is `CONCAT("a", "b")`. -/
theorem C46_refuted : ¬ C46_claim := by
  intro h
  have := h cx0 3 [L!"a", L!"b", L!"a"] [L!"\"a\"", L!"\"b\"", L!"\"a\""]
    (.concat [⟨.str L!"a", .none⟩, ⟨.str L!"b", .none⟩]) L!"CONCAT(\"a\", \"b\")" rfl
    (by decide +kernel) (by simp)
    (.cons (by decide +kernel) (.cons (by decide +kernel) (.cons (by decide +kernel) .nil)))
  exact absurd this (by decide +kernel)

/-- C46 fails: `concat()` does not raise, it is `CONCAT(*)`. -/
theorem C46_refuted_empty (cx : Ctx) (n : Nat) :
    ∃ o, mkConcat (sem cx n) [] = .ok o ∧
      ∀ m, (sem cx (m + 1)).str o = .ok L!"CONCAT(*)" := ⟨.concat [], rfl, fun _ => rfl⟩

/-- C46 fails: `convert('col')` without a type is `CONVERT("col", None)`. -/
theorem C46_refuted_convert (n : Nat) :
    ∃ o, mkConvert cx0 (sem cx0 n) (.str L!"col") .none = .ok o ∧
      ∀ m, (sem cx0 (m + 1)).str o = .ok L!"CONVERT(\"col\", None)" :=
  ⟨.convert (.str L!"col") none, rfl, fun _ => by
    show Except.ok _ = Except.ok _
    congr 1⟩

/-! ### Examples -/

example : Single (.str L!"t.a") ∧ (Obj.str L!"t.a").truthy = true := ⟨trivial, rfl⟩

example : (sem cx0 2).str (mkFunc .count true (.str L!"t.a")) = .ok L!"COUNT(DISTINCT \"t\".\"a\")" := by
  decide +kernel

example : (sem cx0 2).str (mkFunc .avg false (.list [.str L!"a", .str L!"b"])) =
    .ok L!"AVG(\"a\", \"b\")" := by decide +kernel

example : (∀ e ∈ [Obj.str L!"a", .custom L!"x", .int 1], Usable e) ∧
    [Obj.str L!"a", .custom L!"x", .int 1].Pairwise (fun a b => (sem cx0 2).eq a b = .ok false) := by
  constructor
  · simp [Usable, Obj.isSql]
  · decide +kernel

example : ∃ o, groupConcatOrderBy cx0 (sem cx0 2) (.groupConcat [⟨.str L!"a", .none⟩] [] .none)
    [.str L!"b"] = (o, none) ∧ (sem cx0 2).str (groupConcatSeparator o (.str L!"-")).1 =
      .ok L!"GROUP_CONCAT(\"a\" ORDER BY \"b\" SEPARATOR '-')" := ⟨_, rfl, by decide +kernel⟩

end SqlPuzzle
