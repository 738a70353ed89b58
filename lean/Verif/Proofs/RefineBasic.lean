import Verif.Spec.Shows
import Verif.Proofs.Basic

/-! What can be seen of a value in memory, and lists of such values. -/

namespace SqlPuzzle.Refine
open SqlPuzzle SqlPuzzle.Spec

/-- Everything in the memory `m` is in the memory `m'`. -/
def Sub (m m' : Mem) : Prop := ∀ p c, m p c → m' p c

theorem Sub.rfl {m : Mem} : Sub m m := fun _ _ h => h
theorem Sub.trans {a b c : Mem} (h : Sub a b) (h' : Sub b c) : Sub a c := fun p x y => h' p x (h p x y)

theorem shows_mono {m m' : Mem} (hm : Sub m m') {vs t} (s : Shows m vs t) : Shows m' vs t := by
  induction s with
  | nil => exact .nil
  | cons _ _ a b => exact .cons a b
  | atom a => exact .atom a
  | list hp _ a => exact .list (hm _ _ hp) a
  | tuple hp _ a => exact .tuple (hm _ _ hp) a
  | set hp _ a => exact .set (hm _ _ hp) a
  | frozenset hp _ a => exact .frozenset (hm _ _ hp) a
  | dict hp _ a => exact .dict (hm _ _ hp) a
  | custom hp => exact .custom (hm _ _ hp)
  | sqlValue hp _ a => exact .sqlValue (hm _ _ hp) a
  | sqlRef hp _ a => exact .sqlRef (hm _ _ hp) a
  | rel hp _ a => exact .rel (hm _ _ hp) a
  | conds hp hl _ a => exact .conds (hm _ _ hp) (hm _ _ hl) a
  | cofc hp _ _ a b => exact .cofc (hm _ _ hp) a b
  | not_ hp hc hl _ a => exact .not_ (hm _ _ hp) (hm _ _ hc) (hm _ _ hl) a
  | func hp _ a => exact .func (hm _ _ hp) a
  | concat hp hc hl _ a => exact .concat (hm _ _ hp) (hm _ _ hc) (hm _ _ hl) a
  | groupConcat hp hc hl _ hb hl' _ _ a b c =>
    exact .groupConcat (hm _ _ hp) (hm _ _ hc) (hm _ _ hl) a (hm _ _ hb) (hm _ _ hl') b c
  | convert hp _ a => exact .convert (hm _ _ hp) a
  | exists_ hp _ a => exact .exists_ (hm _ _ hp) a
  | union hp _ _ a b => exact .union (hm _ _ hp) a b
  | query ho hp hd _ a => exact .query ho (hm _ _ hp) (hm _ _ hd) a
  | none => exact .none
  | some _ ho a => exact .some a ho
  | noConflict => exact .noConflict
  | conflict hp => exact .conflict (hm _ _ hp)
  | column hp _ _ a b => exact .column (hm _ _ hp) a b
  | order hp _ a => exact .order (hm _ _ hp) a
  | cond hp hr _ _ a b => exact .cond (hm _ _ hp) (hm _ _ hr) a b
  | condItem _ a => exact .condItem a
  | value hp _ _ a b => exact .value (hm _ _ hp) a b
  | valueItem _ a => exact .valueItem a
  | row hp hl _ a => exact .row (hm _ _ hp) (hm _ _ hl) a
  | join hp ht hj _ _ ho hl _ a b c =>
    exact .join (hm _ _ hp) (hm _ _ ht) (hm _ _ hj) a b (hm _ _ ho) (hm _ _ hl) c
  | table hp hj _ _ _ a b c => exact .table (hm _ _ hp) (hm _ _ hj) a b c
  | columnsPart hp hl _ a => exact .columnsPart (hm _ _ hp) (hm _ _ hl) a
  | condsPart hp hl _ a => exact .condsPart (hm _ _ hp) (hm _ _ hl) a
  | ordersPart hp hl _ a => exact .ordersPart (hm _ _ hp) (hm _ _ hl) a
  | tablesPart hp hl _ a => exact .tablesPart (hm _ _ hp) (hm _ _ hl) a
  | valuesPart hp hl _ a => exact .valuesPart (hm _ _ hp) (hm _ _ hl) a
  | rowsPart hp hl _ a => exact .rowsPart (hm _ _ hp) (hm _ _ hl) a
  | conflictPart hp hl _ _ a b => exact .conflictPart (hm _ _ hp) (hm _ _ hl) a b
  | limitPart hp => exact .limitPart (hm _ _ hp)
  | outfilePart hp _ _ _ _ a b c d => exact .outfilePart (hm _ _ hp) a b c d
  | optionsPart hp hd => exact .optionsPart (hm _ _ hp) (hm _ _ hd)
  | flagPart hp => exact .flagPart (hm _ _ hp)

/-! ### Lists -/

theorem are_iff {m : Mem} {vs : List Val} {xs : List Thing} :
    Are m vs xs ↔ List.Forall₂ (Is m) vs xs := by
  constructor
  · intro h
    induction vs generalizing xs with
    | nil => cases h; exact .nil
    | cons v vs ih => cases h with | cons a b => exact .cons a (ih b)
  · intro h
    induction h with
    | nil => exact .nil
    | cons a _ ih => exact .cons a ih

theorem are_map {m : Mem} {α : Type} {f : α → Thing} {vs : List Val} {xs : List α} :
    Are m vs (xs.map f) ↔ List.Forall₂ (fun v x => Is m v (f x)) vs xs := by
  rw [are_iff, List.forall₂_map_right_iff]

theorem are_append {m : Mem} {vs ws : List Val} {xs ys : List Thing} (h : Are m vs xs)
    (h' : Are m ws ys) : Are m (vs ++ ws) (xs ++ ys) := by
  rw [are_iff] at *
  exact List.rel_append h h'

/-! ### What tests on a value see -/

/-- Tests of types and of truth do not tell the two values apart. -/
structure Like (a x : Obj) : Prop where
  inst : ∀ t, a.isInst t = x.isInst t
  bool : a.isBool = x.isBool
  sql : a.isSql = x.isSql
  truthy : a.truthy = x.truthy
  none : a.isNone = x.isNone
  listTuple : a.isListTuple = x.isListTuple
  conds : a.isConds = x.isConds
  rel : defaultRel a = defaultRel x
  int : toInt a = toInt x
  sort : ∀ cx, orderSort cx a = orderSort cx x

theorem Like.rfl (x : Obj) : Like x x :=
  ⟨fun _ => Eq.refl _, Eq.refl _, Eq.refl _, Eq.refl _, Eq.refl _, Eq.refl _, Eq.refl _, Eq.refl _,
    Eq.refl _, fun _ => Eq.refl _⟩

theorem Like.allowed {a x : Obj} (h : Like a x) (ts : List PyType) : a.allowed ts = x.allowed ts := by
  unfold Obj.allowed
  rw [show a.isInst = x.isInst from funext h.inst, h.bool, h.sql]

theorem Like.check {a x : Obj} (h : Like a x) (ts : List PyType) : checkType ts a = checkType ts x := by
  unfold checkType
  rw [h.allowed]

/-- All objects of the library are alike but for conditions. -/
theorem like_custom {s : Str} {x : Obj} (h : x.isSql = true) (hc : x.isConds = false) :
    Like (.custom s) x := by
  cases x <;> first
    | (cases h; done)
    | (cases hc; done)
    | exact ⟨fun t => by cases t <;> rfl, Eq.refl _, Eq.refl _, Eq.refl _, Eq.refl _, Eq.refl _, Eq.refl _,
        Eq.refl _, Eq.refl _, fun _ => Eq.refl _⟩

theorem query_sql {o : Obj} {r} (h : queryParts o = some r) : o.isSql = true ∧ o.isConds = false := by
  cases o <;> first | (cases h; done) | exact ⟨rfl, rfl⟩

theorem query_lib {o : Obj} {k ps more} (h : queryParts o = some (k, ps, more)) :
    k = .select ∨ k = .insert ∨ k = .update ∨ k = .delete := by
  cases o <;> simp [queryParts] at h <;> simp [h]

theorem flat_empty {kvs : List (Obj × Obj)} : (flatPairs kvs).isEmpty = kvs.isEmpty := by
  cases kvs <;> rfl

theorem are_empty {m : Mem} {vs xs} (h : Are m vs xs) : vs.isEmpty = xs.isEmpty := by
  cases h <;> rfl

theorem like_list {m : Mem} {xs : List Val} {os : List Obj} (h : Are m xs (os.map .obj)) :
    (xs.map fun _ => Obj.none).isEmpty = os.isEmpty := by
  have := are_empty h
  cases xs <;> cases os <;> simp_all

/-- An object of the library that is neither a relation nor a wrapped value nor conditions. -/
def Obj.plain : Obj → Bool
  | .rel .. | .sqlValue _ | .sqlRef _ | .conds _ | .cofc .. => false
  | o => o.isSql

/-- Its class. -/
def Lib.plain : Lib → Bool
  | .relation _ | .sqlValue | .sqlReference | .conditions | .condsOfConds | .join | .insertKeyword => false
  | _ => true

/-- The kinds of values. -/
inductive View (m : Mem) : Val → Obj → Prop where
  | atom (a) : View m (.atom a) a.obj
  | list {p xs os} (hp : m p ⟨.list, xs⟩) (hx : Are m xs (os.map .obj)) : View m (.ref p) (.list os)
  | tuple {p xs os} (hp : m p ⟨.tuple, xs⟩) (hx : Are m xs (os.map .obj)) : View m (.ref p) (.tuple os)
  | set {p xs os} (hp : m p ⟨.set, xs⟩) (hx : Are m xs (os.map .obj)) : View m (.ref p) (.set os)
  | frozenset {p xs os} (hp : m p ⟨.frozenset, xs⟩) (hx : Are m xs (os.map .obj)) :
      View m (.ref p) (.frozenset os)
  | dict {p xs kvs} (hp : m p ⟨.dict, xs⟩) (hx : Are m xs (flatPairs kvs)) : View m (.ref p) (.dict kvs)
  | rel {p k v o} (hp : m p ⟨.lib (.relation k), [v]⟩) (hv : Is m v (.obj o)) : View m (.ref p) (.rel k o)
  | sqlValue {p d v o} (hp : m p ⟨.lib .sqlValue, [d, v]⟩) (hv : Is m v (.obj o)) :
      View m (.ref p) (.sqlValue o)
  | sqlRef {p d v o} (hp : m p ⟨.lib .sqlReference, [d, v]⟩) (hv : Is m v (.obj o)) :
      View m (.ref p) (.sqlRef o)
  | conds {p xs cs} (hp : m p ⟨.lib .conditions, xs⟩) : View m (.ref p) (.conds cs)
  | cofc {p xs a b op} (hp : m p ⟨.lib .condsOfConds, xs⟩) : View m (.ref p) (.cofc a b op)
  | plain {p k xs o} (hp : m p ⟨.lib k, xs⟩) (hk : Lib.plain k = true) (ho : Obj.plain o = true) :
      View m (.ref p) o

theorem view {m : Mem} {v : Val} {x : Obj} (s : Is m v (.obj x)) : View m v x := by
  cases s with
  | atom a => exact .atom a
  | list hp hx => exact .list hp hx
  | tuple hp hx => exact .tuple hp hx
  | set hp hx => exact .set hp hx
  | frozenset hp hx => exact .frozenset hp hx
  | dict hp hx => exact .dict hp hx
  | custom hp => exact .plain hp rfl rfl
  | sqlValue hp hv => exact .sqlValue hp hv
  | sqlRef hp hv => exact .sqlRef hp hv
  | rel hp hv => exact .rel hp hv
  | conds hp => exact .conds hp
  | cofc hp => exact .cofc hp
  | not_ hp => exact .plain hp rfl rfl
  | func hp => exact .plain hp rfl rfl
  | concat hp => exact .plain hp rfl rfl
  | groupConcat hp => exact .plain hp rfl rfl
  | convert hp => exact .plain hp rfl rfl
  | exists_ hp => exact .plain hp rfl rfl
  | union hp => exact .plain hp rfl rfl
  | query ho hp =>
    refine .plain hp ?_ ?_
    · rcases query_lib ho with rfl | rfl | rfl | rfl <;> rfl
    · cases x <;> first | (cases ho; done) | rfl

theorem like_plain {s : Str} {x : Obj} (h : Obj.plain x = true) : Like (.custom s) x := by
  cases x <;> first | (cases h; done) | exact like_custom rfl rfl

theorem like_shallow {m : Mem} {h : Heap} (hm : Sub m (cells h)) {v : Val} {x : Obj}
    (s : Is m v (.obj x)) : Like (shallow h v) x := by
  cases view s with
  | atom a => cases a <;> exact .rfl _
  | list hp hx =>
    simp only [shallow, show h[_]? = _ from hm _ _ hp]
    exact ⟨fun t => by cases t <;> rfl, rfl, rfl, by simp only [Obj.truthy, like_list hx], rfl, rfl, rfl, rfl,
      rfl, fun _ => rfl⟩
  | tuple hp hx =>
    simp only [shallow, show h[_]? = _ from hm _ _ hp]
    exact ⟨fun t => by cases t <;> rfl, rfl, rfl, by simp only [Obj.truthy, like_list hx], rfl, rfl, rfl, rfl,
      rfl, fun _ => rfl⟩
  | set hp hx =>
    simp only [shallow, show h[_]? = _ from hm _ _ hp]
    exact ⟨fun t => by cases t <;> rfl, rfl, rfl, by simp only [Obj.truthy, like_list hx], rfl, rfl, rfl, rfl,
      rfl, fun _ => rfl⟩
  | frozenset hp hx =>
    simp only [shallow, show h[_]? = _ from hm _ _ hp]
    exact ⟨fun t => by cases t <;> rfl, rfl, rfl, by simp only [Obj.truthy, like_list hx], rfl, rfl, rfl, rfl,
      rfl, fun _ => rfl⟩
  | dict hp hx =>
    simp only [shallow, show h[_]? = _ from hm _ _ hp]
    refine ⟨fun t => by cases t <;> rfl, rfl, rfl, ?_, rfl, rfl, rfl, rfl, rfl, fun _ => rfl⟩
    have := (are_empty hx).trans flat_empty
    simp only [Obj.truthy, ← this]
    cases ‹List Val› <;> rfl
  | rel hp =>
    simp only [shallow, show h[_]? = _ from hm _ _ hp]
    exact like_custom rfl rfl
  | sqlValue hp =>
    simp only [shallow, show h[_]? = _ from hm _ _ hp]
    exact like_custom rfl rfl
  | sqlRef hp =>
    simp only [shallow, show h[_]? = _ from hm _ _ hp]
    exact like_custom rfl rfl
  | conds hp =>
    simp only [shallow, show h[_]? = _ from hm _ _ hp]
    exact ⟨fun t => by cases t <;> rfl, rfl, rfl, rfl, rfl, rfl, rfl, rfl, rfl, fun _ => rfl⟩
  | cofc hp =>
    simp only [shallow, show h[_]? = _ from hm _ _ hp]
    exact ⟨fun t => by cases t <;> rfl, rfl, rfl, rfl, rfl, rfl, rfl, rfl, rfl, fun _ => rfl⟩
  | @plain p k xs o hp hk ho =>
    have : shallow h (.ref p) = .custom [] := by
      simp only [shallow, show h[_]? = _ from hm _ _ hp]
      cases k <;> first | (cases hk; done) | rfl
    rw [this]
    exact like_plain ho

/-! ### Pairs of a dictionary -/

theorem pairs_of_flat {m : Mem} {xs : List Val} {kvs : List (Obj × Obj)} (h : Are m xs (flatPairs kvs)) :
    PairsAre m (pairUp xs) kvs := by
  induction kvs generalizing xs with
  | nil => cases h; exact .nil
  | cons kv kvs ih =>
    obtain ⟨k, v⟩ := kv
    cases h with | cons h1 h2 => cases h2 with | cons h2 h3 => exact .cons ⟨h1, h2⟩ (ih h3)

theorem firsts_of_flat {m : Mem} {xs : List Val} {kvs : List (Obj × Obj)} (h : Are m xs (flatPairs kvs)) :
    Are m ((pairUp xs).map Prod.fst) ((kvs.map Prod.fst).map .obj) := by
  have := pairs_of_flat h
  rw [are_map, List.forall₂_map_left_iff, List.forall₂_map_right_iff]
  exact this.imp fun _ _ h => h.1

/-- What `asList` and `asDict` see of an argument. -/
inductive Seen (m : Mem) (h : Heap) (v : Val) (x : Obj) : Prop where
  | list {ys os} (e : hAsList h [v] = some ys) (e' : asList [x] = some os) (d : hAsDict h [v] = none)
      (d' : asDict [x] = none) (hx : Are m ys (os.map .obj))
  | dict {ys kvs} (e : hAsList h [v] = none) (e' : asList [x] = none) (d : hAsDict h [v] = some ys)
      (d' : asDict [x] = some kvs) (hx : PairsAre m ys kvs)
  | other (e : hAsList h [v] = none) (e' : asList [x] = none) (d : hAsDict h [v] = none)
      (d' : asDict [x] = none)

theorem seen {m : Mem} {h : Heap} (hm : Sub m (cells h)) {v : Val} {x : Obj}
    (s : Is m v (.obj x)) : Seen m h v x := by
  cases view s with
  | atom a => cases a <;> exact .other rfl rfl rfl rfl
  | list hp hx =>
    exact .list (by simp only [hAsList, show h[_]? = _ from hm _ _ hp]) rfl
      (by simp only [hAsDict, show h[_]? = _ from hm _ _ hp]) rfl hx
  | tuple hp hx =>
    exact .list (by simp only [hAsList, show h[_]? = _ from hm _ _ hp]) rfl
      (by simp only [hAsDict, show h[_]? = _ from hm _ _ hp]) rfl hx
  | dict hp hx =>
    exact .dict (by simp only [hAsList, show h[_]? = _ from hm _ _ hp]) rfl
      (by simp only [hAsDict, show h[_]? = _ from hm _ _ hp]) rfl (pairs_of_flat hx)
  | plain hp hk ho =>
    refine .other (by simp only [hAsList, show h[_]? = _ from hm _ _ hp]) ?_
      (by simp only [hAsDict, show h[_]? = _ from hm _ _ hp]) ?_ <;>
      (cases x <;> first | (cases ho; done) | rfl)
  | set hp | frozenset hp | rel hp | sqlValue hp | sqlRef hp | conds hp | cofc hp =>
    exact .other (by simp only [hAsList, show h[_]? = _ from hm _ _ hp]) rfl
      (by simp only [hAsDict, show h[_]? = _ from hm _ _ hp]) rfl

end SqlPuzzle.Refine
