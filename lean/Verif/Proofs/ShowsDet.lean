import Verif.Proofs.RefineBasic

/-! A value in memory is one thing only. -/

namespace SqlPuzzle.Refine
open SqlPuzzle SqlPuzzle.Spec

def SamePart : Part → Part → Prop
  | .columns _, .columns _ => True
  | .conds .., .conds .. => True
  | .orders .., .orders .. => True
  | .tables .., .tables .. => True
  | .values .., .values .. => True
  | .rows _, .rows _ => True
  | .conflict .., .conflict .. => True
  | .limit _, .limit _ => True
  | .outfile _, .outfile _ => True
  | .options _, .options _ => True
  | .flag .., .flag .. => True
  | _, _ => False

def SameKind : Thing → Thing → Prop
  | .obj _, .obj _ => True
  | .opt _, .opt _ => True
  | .conflict _, .conflict _ => True
  | .column _, .column _ => True
  | .order _, .order _ => True
  | .cond _, .cond _ => True
  | .value _, .value _ => True
  | .row _, .row _ => True
  | .join _, .join _ => True
  | .table _, .table _ => True
  | .part p, .part q => SamePart p q
  | _, _ => False

def SameList : List Thing → List Thing → Prop
  | x :: xs, y :: ys => SameKind x y ∧ SameList xs ys
  | _, _ => True

def Same : Things → Things → Prop
  | .one x, .one y => SameKind x y
  | .many xs, .many ys => SameList xs ys
  | _, _ => False

theorem same_map {α : Type} {f : α → Thing} (hf : ∀ a b, SameKind (f a) (f b)) (as bs : List α) :
    SameList (as.map f) (bs.map f) := by
  induction as generalizing bs with
  | nil => trivial
  | cons a as ih =>
    cases bs with
    | nil => trivial
    | cons b bs => exact ⟨hf a b, ih bs⟩

theorem same_flat (as bs : List (Obj × Obj)) : SameList (flatPairs as) (flatPairs bs) := by
  induction as generalizing bs with
  | nil => trivial
  | cons a as ih =>
    cases bs with
    | nil => trivial
    | cons b bs => exact ⟨trivial, trivial, ih bs⟩

theorem map_inj {α : Type} {f : α → Thing} (hf : ∀ a b, f a = f b → a = b) {as bs : List α}
    (h : Things.many (as.map f) = .many (bs.map f)) : as = bs := by
  have h' : as.map f = bs.map f := by injection h
  exact List.map_injective_iff.mpr (fun a b => hf a b) h'

theorem flat_inj {as bs : List (Obj × Obj)} (h : flatPairs as = flatPairs bs) : as = bs := by
  induction as generalizing bs with
  | nil =>
    cases bs with
    | nil => rfl
    | cons b bs => cases h
  | cons a as ih =>
    cases bs with
    | nil => cases h
    | cons b bs =>
      have h1 : Thing.obj a.1 :: .obj a.2 :: flatPairs as = .obj b.1 :: .obj b.2 :: flatPairs bs := h
      injection h1 with h1 h2
      injection h2 with h2 h3
      injection h1 with h1
      injection h2 with h2
      rw [ih h3, Prod.ext h1 h2]

theorem str_inj {as bs : List (Str × Str)} (h : strPairs as = strPairs bs) : as = bs := by
  induction as generalizing bs with
  | nil =>
    cases bs with
    | nil => rfl
    | cons b bs => cases h
  | cons a as ih =>
    cases bs with
    | nil => cases h
    | cons b bs =>
      have h1 : Val.atom (.str a.1) :: .atom (.str a.2) :: strPairs as =
        .atom (.str b.1) :: .atom (.str b.2) :: strPairs bs := h
      injection h1 with h1 h2
      injection h2 with h2 h3
      injection h1 with h1
      injection h2 with h2
      injection h1 with h1
      injection h2 with h2
      rw [ih h3, Prod.ext h1 h2]

theorem intAtom_inj {a b : Option Int} (h : intAtom a = intAtom b) : a = b := by
  cases a <;> cases b <;> simp_all [intAtom]

theorem sortAtom_inj {a b : Bool} (h : sortAtom a = sortAtom b) : a = b := by
  cases a <;> cases b <;> first | rfl | (exact absurd h (by decide))

theorem onOff_inj {a b : Bool} (h : onOffStr a = onOffStr b) : a = b := by
  cases a <;> cases b <;> first | rfl | (exact absurd h (by decide))

theorem options_inj {a b : SelectOptions} (h : optionPairs a = optionPairs b) : a = b := by
  obtain ⟨a1, a2, a3, a4, a5, a6, a7, a8⟩ := a
  obtain ⟨b1, b2, b3, b4, b5, b6, b7, b8⟩ := b
  simp only [optionPairs, List.cons.injEq, Prod.mk.injEq, true_and, and_true] at h
  obtain ⟨h1, h2, h3, h4, h5, h6, h7, h8⟩ := h
  have e1 : a1 = b1 := by cases a1 <;> cases b1 <;> first | rfl | (exact absurd h1 (by decide))
  have e2 : a2 = b2 := by cases a2 <;> cases b2 <;> first | rfl | (exact absurd h2 (by decide))
  rw [e1, e2, onOff_inj h3, onOff_inj h4, onOff_inj h5, onOff_inj h6, onOff_inj h7, onOff_inj h8]

theorem atom_inj {a b : Atom} (h : a.obj = b.obj) : a = b := by
  cases a <;> cases b <;> simp_all [Atom.obj]

theorem join_inj {a b : JoinType} (h : a.number = b.number) : a = b := by
  cases a <;> cases b <;> first | rfl | (exact absurd h (by decide))

/-- Queries of the same class have parts of the same kinds, and are determined by them. -/
theorem query_same {o o' : Obj} {k ps more ps' more'} (h : queryParts o = some (k, ps, more))
    (h' : queryParts o' = some (k, ps', more')) :
    ps.map Prod.fst = ps'.map Prod.fst ∧ more.length = more'.length ∧
      SameList (ps.map fun q => .part q.2) (ps'.map fun q => .part q.2) := by
  cases o <;> simp only [queryParts, Option.some.injEq, Prod.mk.injEq, reduceCtorEq] at h <;>
    (obtain ⟨rfl, rfl, rfl⟩ := h
     cases o' <;> simp only [queryParts, Option.some.injEq, Prod.mk.injEq, reduceCtorEq, false_and] at h'
     obtain ⟨_, rfl, rfl⟩ := h'
     refine ⟨rfl, rfl, ?_⟩
     simp [selectPartsOf, insertPartsOf, updatePartsOf, deletePartsOf, SameList, SameKind, SamePart])

theorem query_inj {o o' : Obj} {k ps more ps'} (h : queryParts o = some (k, ps, more))
    (h' : queryParts o' = some (k, ps', more))
    (e : ps.map (fun q => Thing.part q.2) = ps'.map fun q => .part q.2) : o = o' := by
  cases o with
  | select s =>
    cases h
    cases o' <;> simp only [queryParts, Option.some.injEq, Prod.mk.injEq, reduceCtorEq, false_and] at h'
    obtain ⟨_, rfl, _⟩ := h'
    rename_i s'
    obtain ⟨a1, a2, a3, a4, a5, a6, a7, a8, a9, a10⟩ := s
    obtain ⟨b1, b2, b3, b4, b5, b6, b7, b8, b9, b10⟩ := s'
    simp only [selectPartsOf, List.map_cons, List.map_nil, List.cons.injEq, Thing.part.injEq, Part.columns.injEq,
      Part.orders.injEq, Part.conds.injEq, Part.outfile.injEq, Part.limit.injEq, Part.flag.injEq,
      Part.options.injEq, Part.tables.injEq, true_and, and_true] at e
    obtain ⟨rfl, rfl, rfl, rfl, rfl, rfl, rfl, e8, rfl, rfl⟩ := e
    rw [options_inj e8]
  | insert s =>
    cases h
    cases o' <;> simp only [queryParts, Option.some.injEq, Prod.mk.injEq, reduceCtorEq, false_and] at h'
    obtain ⟨_, rfl, _⟩ := h'
    rename_i s'
    obtain ⟨a1, a2, a3, a4, a5, a6, a7⟩ := s
    obtain ⟨b1, b2, b3, b4, b5, b6, b7⟩ := s'
    simp only [insertPartsOf, List.map_cons, List.map_nil, List.cons.injEq, Thing.part.injEq, Part.conflict.injEq,
      Part.values.injEq, Part.rows.injEq, Part.flag.injEq, Prod.mk.injEq,
      Part.options.injEq, Part.tables.injEq, true_and, and_true] at e
    obtain ⟨e1, rfl, ⟨rfl, rfl⟩, rfl, rfl, rfl⟩ := e
    rw [onOff_inj e1]
  | update s =>
    cases h
    cases o' <;> simp only [queryParts, Option.some.injEq, Prod.mk.injEq, reduceCtorEq, false_and] at h'
    obtain ⟨_, rfl, hm⟩ := h'
    rename_i s'
    obtain ⟨a1, a2, a3, a4, a5⟩ := s
    obtain ⟨b1, b2, b3, b4, b5⟩ := s'
    simp only [List.cons.injEq, Val.atom.injEq, Atom.bool.injEq, and_true] at hm
    simp only [updatePartsOf, List.map_cons, List.map_nil, List.cons.injEq, Thing.part.injEq, Part.conds.injEq,
      Part.values.injEq, Prod.mk.injEq,
      Part.options.injEq, Part.tables.injEq, true_and, and_true] at e
    obtain ⟨rfl, e1, rfl, rfl⟩ := e
    rw [onOff_inj e1, ← hm]
  | delete s =>
    cases h
    cases o' <;> simp only [queryParts, Option.some.injEq, Prod.mk.injEq, reduceCtorEq, false_and] at h'
    obtain ⟨_, rfl, hm⟩ := h'
    rename_i s'
    obtain ⟨a1, a2, a3, a4, a5⟩ := s
    obtain ⟨b1, b2, b3, b4, b5⟩ := s'
    simp only [List.cons.injEq, Val.atom.injEq, Atom.bool.injEq, and_true] at hm
    simp only [deletePartsOf, List.map_cons, List.map_nil, List.cons.injEq, Thing.part.injEq, Part.conds.injEq,
      Prod.mk.injEq, Part.options.injEq, Part.tables.injEq, true_and, and_true] at e
    obtain ⟨e1, rfl, rfl, rfl⟩ := e
    rw [onOff_inj e1, ← hm]
  | _ => cases h

/-! ### Determinism -/

theorem same_obj {x Y} (h : Same (.one (.obj x)) Y) : ∃ y, Y = .one (.obj y) := by
  cases Y with
  | one y => cases y <;> first | exact ⟨_, rfl⟩ | cases h
  | many => cases h

theorem same_opt {x Y} (h : Same (.one (.opt x)) Y) : ∃ y, Y = .one (.opt y) := by
  cases Y with
  | one y => cases y <;> first | exact ⟨_, rfl⟩ | cases h
  | many => cases h

theorem same_conflict {x Y} (h : Same (.one (.conflict x)) Y) : ∃ y, Y = .one (.conflict y) := by
  cases Y with
  | one y => cases y <;> first | exact ⟨_, rfl⟩ | cases h
  | many => cases h

theorem same_column {x Y} (h : Same (.one (.column x)) Y) : ∃ y, Y = .one (.column y) := by
  cases Y with
  | one y => cases y <;> first | exact ⟨_, rfl⟩ | cases h
  | many => cases h

theorem same_order {x Y} (h : Same (.one (.order x)) Y) : ∃ y, Y = .one (.order y) := by
  cases Y with
  | one y => cases y <;> first | exact ⟨_, rfl⟩ | cases h
  | many => cases h

theorem same_cond {x Y} (h : Same (.one (.cond x)) Y) : ∃ y, Y = .one (.cond y) := by
  cases Y with
  | one y => cases y <;> first | exact ⟨_, rfl⟩ | cases h
  | many => cases h

theorem same_value {x Y} (h : Same (.one (.value x)) Y) : ∃ y, Y = .one (.value y) := by
  cases Y with
  | one y => cases y <;> first | exact ⟨_, rfl⟩ | cases h
  | many => cases h

theorem same_row {x Y} (h : Same (.one (.row x)) Y) : ∃ y, Y = .one (.row y) := by
  cases Y with
  | one y => cases y <;> first | exact ⟨_, rfl⟩ | cases h
  | many => cases h

theorem same_join {x Y} (h : Same (.one (.join x)) Y) : ∃ y, Y = .one (.join y) := by
  cases Y with
  | one y => cases y <;> first | exact ⟨_, rfl⟩ | cases h
  | many => cases h

theorem same_table {x Y} (h : Same (.one (.table x)) Y) : ∃ y, Y = .one (.table y) := by
  cases Y with
  | one y => cases y <;> first | exact ⟨_, rfl⟩ | cases h
  | many => cases h

theorem same_part {x Y} (h : Same (.one (.part x)) Y) : ∃ y, Y = .one (.part y) := by
  cases Y with
  | one y => cases y <;> first | exact ⟨_, rfl⟩ | cases h
  | many => cases h

/-- Objects of the library that are values and not items of lists. -/
theorem obj_lib {m : Mem} {p : Nat} {o : Obj} (h : Is m (.ref p) (.obj o)) :
    ∃ k xs, True ∧ m p ⟨k, xs⟩ ∧ (match k with
      | .lib .condition | .lib .onCondition | .lib .value | .lib .column | .lib .table => False
      | _ => True) := by
  cases h with
  | query ho hp =>
    rcases query_lib ho with rfl | rfl | rfl | rfl <;> exact ⟨_, _, trivial, hp, trivial⟩
  | _ => exact ⟨_, _, trivial, ‹m p _›, trivial⟩

section
variable {m : Mem} (hf : ∀ p c d, m p c → m p d → c = d)
include hf

set_option maxHeartbeats 2000000 in
theorem shows_det {vs : List Val} {X : Things} (h1 : Shows m vs X) : ∀ Y, Shows m vs Y → Same X Y → X = Y := by
  induction h1 with
  | nil => intro Y h _; cases h; rfl
  | cons a b ih1 ih2 =>
    intro Y h hs
    cases Y with
    | one y => cases hs
    | many ys =>
      cases h with
      | cons a' b' =>
        have e1 := ih1 _ a' hs.1
        have e2 := ih2 _ b' hs.2
        injection e1 with e1
        injection e2 with e2
        rw [e1, e2]
  | atom a =>
    intro Y h hs
    obtain ⟨o', rfl⟩ := same_obj hs
    cases h
    rfl
  | @list p xs os hp hx ih =>
    intro Y h hs
    obtain ⟨o', rfl⟩ := same_obj hs
    cases h with
    | list hp' hx' =>
      cases hf _ _ _ hp hp'
      cases map_inj (f := .obj) (by intro a b e; injection e) (ih _ hx' (same_map (f := .obj) (fun _ _ => trivial) _ _))
      rfl
    | query ho hp' => exact absurd (hf _ _ _ hp hp') (by rcases query_lib ho with rfl | rfl | rfl | rfl <;> (intro e; cases e))
    | _ => cases hf _ _ _ hp ‹m p _›
  | @tuple p xs os hp hx ih =>
    intro Y h hs
    obtain ⟨o', rfl⟩ := same_obj hs
    cases h with
    | tuple hp' hx' =>
      cases hf _ _ _ hp hp'
      cases map_inj (f := .obj) (by intro a b e; injection e) (ih _ hx' (same_map (f := .obj) (fun _ _ => trivial) _ _))
      rfl
    | query ho hp' => exact absurd (hf _ _ _ hp hp') (by rcases query_lib ho with rfl | rfl | rfl | rfl <;> (intro e; cases e))
    | _ => cases hf _ _ _ hp ‹m p _›
  | @set p xs os hp hx ih =>
    intro Y h hs
    obtain ⟨o', rfl⟩ := same_obj hs
    cases h with
    | set hp' hx' =>
      cases hf _ _ _ hp hp'
      cases map_inj (f := .obj) (by intro a b e; injection e) (ih _ hx' (same_map (f := .obj) (fun _ _ => trivial) _ _))
      rfl
    | query ho hp' => exact absurd (hf _ _ _ hp hp') (by rcases query_lib ho with rfl | rfl | rfl | rfl <;> (intro e; cases e))
    | _ => cases hf _ _ _ hp ‹m p _›
  | @frozenset p xs os hp hx ih =>
    intro Y h hs
    obtain ⟨o', rfl⟩ := same_obj hs
    cases h with
    | frozenset hp' hx' =>
      cases hf _ _ _ hp hp'
      cases map_inj (f := .obj) (by intro a b e; injection e) (ih _ hx' (same_map (f := .obj) (fun _ _ => trivial) _ _))
      rfl
    | query ho hp' => exact absurd (hf _ _ _ hp hp') (by rcases query_lib ho with rfl | rfl | rfl | rfl <;> (intro e; cases e))
    | _ => cases hf _ _ _ hp ‹m p _›
  | @dict p xs kvs hp hx ih =>
    intro Y h hs
    obtain ⟨o', rfl⟩ := same_obj hs
    cases h with
    | dict hp' hx' =>
      cases hf _ _ _ hp hp'
      have e := ih _ hx' (same_flat _ _)
      injection e with e
      rw [flat_inj e]
    | query ho hp' => exact absurd (hf _ _ _ hp hp') (by rcases query_lib ho with rfl | rfl | rfl | rfl <;> (intro e; cases e))
    | _ => cases hf _ _ _ hp ‹m p _›
  | @custom p s hp =>
    intro Y h hs
    obtain ⟨o', rfl⟩ := same_obj hs
    cases h with
    | custom hp' =>
      cases hf _ _ _ hp hp'
      rfl
    | query ho hp' => exact absurd (hf _ _ _ hp hp') (by rcases query_lib ho with rfl | rfl | rfl | rfl <;> (intro e; cases e))
    | _ => cases hf _ _ _ hp ‹m p _›
  | @sqlValue p d v o hp hv ih =>
    intro Y h hs
    obtain ⟨o', rfl⟩ := same_obj hs
    cases h with
    | sqlValue hp' hv' =>
      cases hf _ _ _ hp hp'
      cases ih _ hv' trivial
      rfl
    | query ho hp' => exact absurd (hf _ _ _ hp hp') (by rcases query_lib ho with rfl | rfl | rfl | rfl <;> (intro e; cases e))
    | _ => cases hf _ _ _ hp ‹m p _›
  | @sqlRef p d v o hp hv ih =>
    intro Y h hs
    obtain ⟨o', rfl⟩ := same_obj hs
    cases h with
    | sqlRef hp' hv' =>
      cases hf _ _ _ hp hp'
      cases ih _ hv' trivial
      rfl
    | query ho hp' => exact absurd (hf _ _ _ hp hp') (by rcases query_lib ho with rfl | rfl | rfl | rfl <;> (intro e; cases e))
    | _ => cases hf _ _ _ hp ‹m p _›
  | @rel p k v o hp hv ih =>
    intro Y h hs
    obtain ⟨o', rfl⟩ := same_obj hs
    cases h with
    | rel hp' hv' =>
      cases hf _ _ _ hp hp'
      cases ih _ hv' trivial
      rfl
    | query ho hp' => exact absurd (hf _ _ _ hp hp') (by rcases query_lib ho with rfl | rfl | rfl | rfl <;> (intro e; cases e))
    | _ => cases hf _ _ _ hp ‹m p _›
  | @conds p l sep xs cs hp hl hx ih =>
    intro Y h hs
    obtain ⟨o', rfl⟩ := same_obj hs
    cases h with
    | conds hp' hl' hx' =>
      cases hf _ _ _ hp hp'
      cases hf _ _ _ hl hl'
      cases map_inj (f := .cond) (by intro a b e; injection e) (ih _ hx' (same_map (f := .cond) (fun _ _ => trivial) _ _))
      rfl
    | query ho hp' => exact absurd (hf _ _ _ hp hp') (by rcases query_lib ho with rfl | rfl | rfl | rfl <;> (intro e; cases e))
    | _ => cases hf _ _ _ hp ‹m p _›
  | @cofc p a b x y op hp ha hb iha ihb =>
    intro Y h hs
    obtain ⟨o', rfl⟩ := same_obj hs
    cases h with
    | cofc hp' ha' hb' =>
      rename_i op'
      have e := hf _ _ _ hp hp'
      simp only [Cell.mk.injEq, List.cons.injEq, Val.atom.injEq, Atom.str.injEq, true_and, and_true] at e
      obtain ⟨rfl, rfl, e⟩ := e
      have e' : op = op' := by cases op <;> cases op' <;> first | rfl | (exact absurd e (by decide))
      cases iha _ ha' trivial
      cases ihb _ hb' trivial
      rw [e']
    | query ho hp' => exact absurd (hf _ _ _ hp hp') (by rcases query_lib ho with rfl | rfl | rfl | rfl <;> (intro e; cases e))
    | _ => cases hf _ _ _ hp ‹m p _›
  | @not_ p c l sep xs cs hp hc hl hx ih =>
    intro Y h hs
    obtain ⟨o', rfl⟩ := same_obj hs
    cases h with
    | not_ hp' hc' hl' hx' =>
      cases hf _ _ _ hp hp'
      cases hf _ _ _ hc hc'
      cases hf _ _ _ hl hl'
      cases map_inj (f := .cond) (by intro a b e; injection e) (ih _ hx' (same_map (f := .cond) (fun _ _ => trivial) _ _))
      rfl
    | query ho hp' => exact absurd (hf _ _ _ hp hp') (by rcases query_lib ho with rfl | rfl | rfl | rfl <;> (intro e; cases e))
    | _ => cases hf _ _ _ hp ‹m p _›
  | @func p f d v o hp hv ih =>
    intro Y h hs
    obtain ⟨o', rfl⟩ := same_obj hs
    cases h with
    | func hp' hv' =>
      cases hf _ _ _ hp hp'
      cases ih _ hv' trivial
      rfl
    | query ho hp' => exact absurd (hf _ _ _ hp hp') (by rcases query_lib ho with rfl | rfl | rfl | rfl <;> (intro e; cases e))
    | _ => cases hf _ _ _ hp ‹m p _›
  | @concat p c l sep xs cs hp hc hl hx ih =>
    intro Y h hs
    obtain ⟨o', rfl⟩ := same_obj hs
    cases h with
    | concat hp' hc' hl' hx' =>
      cases hf _ _ _ hp hp'
      cases hf _ _ _ hc hc'
      cases hf _ _ _ hl hl'
      cases map_inj (f := .column) (by intro a b e; injection e) (ih _ hx' (same_map (f := .column) (fun _ _ => trivial) _ _))
      rfl
    | query ho hp' => exact absurd (hf _ _ _ hp hp') (by rcases query_lib ho with rfl | rfl | rfl | rfl <;> (intro e; cases e))
    | _ => cases hf _ _ _ hp ‹m p _›
  | @groupConcat p c l sep xs cs b l' sep' ys os v o hp hc hl hx hb hl' hy hv ih1 ih2 ih3 =>
    intro Y h hs
    obtain ⟨o', rfl⟩ := same_obj hs
    cases h with
    | groupConcat hp' hc' hl2 hx' hb' hl3 hy' hv' =>
      cases hf _ _ _ hp hp'
      cases hf _ _ _ hc hc'
      cases hf _ _ _ hl hl2
      cases hf _ _ _ hb hb'
      cases hf _ _ _ hl' hl3
      cases map_inj (f := .column) (by intro a b e; injection e) (ih1 _ hx' (same_map (f := .column) (fun _ _ => trivial) _ _))
      cases map_inj (f := .order) (by intro a b e; injection e) (ih2 _ hy' (same_map (f := .order) (fun _ _ => trivial) _ _))
      cases ih3 _ hv' trivial
      rfl
    | query ho hp' => exact absurd (hf _ _ _ hp hp') (by rcases query_lib ho with rfl | rfl | rfl | rfl <;> (intro e; cases e))
    | _ => cases hf _ _ _ hp ‹m p _›
  | @convert p v o ty hp hv ih =>
    intro Y h hs
    obtain ⟨o', rfl⟩ := same_obj hs
    cases h with
    | convert hp' hv' =>
      rename_i ty'
      have e := hf _ _ _ hp hp'
      simp only [Cell.mk.injEq, List.cons.injEq, Val.atom.injEq, true_and, and_true] at e
      obtain ⟨rfl, e⟩ := e
      have e' : ty = ty' := by cases ty <;> cases ty' <;> simp_all
      cases ih _ hv' trivial
      rw [e']
    | query ho hp' => exact absurd (hf _ _ _ hp hp') (by rcases query_lib ho with rfl | rfl | rfl | rfl <;> (intro e; cases e))
    | _ => cases hf _ _ _ hp ‹m p _›
  | @exists_ p v o hp hv ih =>
    intro Y h hs
    obtain ⟨o', rfl⟩ := same_obj hs
    cases h with
    | exists_ hp' hv' =>
      cases hf _ _ _ hp hp'
      cases ih _ hv' trivial
      rfl
    | query ho hp' => exact absurd (hf _ _ _ hp hp') (by rcases query_lib ho with rfl | rfl | rfl | rfl <;> (intro e; cases e))
    | _ => cases hf _ _ _ hp ‹m p _›
  | @union p a b x y all hp ha hb iha ihb =>
    intro Y h hs
    obtain ⟨o', rfl⟩ := same_obj hs
    cases h with
    | union hp' ha' hb' =>
      rename_i all'
      have e := hf _ _ _ hp hp'
      simp only [Cell.mk.injEq, List.cons.injEq, Val.atom.injEq, Atom.str.injEq, true_and, and_true] at e
      obtain ⟨rfl, rfl, e⟩ := e
      have e' : all = all' := by cases all <;> cases all' <;> first | rfl | (exact absurd e (by decide))
      cases iha _ ha' trivial
      cases ihb _ hb' trivial
      rw [e']
    | query ho hp' => exact absurd (hf _ _ _ hp hp') (by rcases query_lib ho with rfl | rfl | rfl | rfl <;> (intro e; cases e))
    | _ => cases hf _ _ _ hp ‹m p _›
  | @query p d o k ps more refs ho hp hd hx ih =>
    intro Y h hs
    obtain ⟨o', rfl⟩ := same_obj hs
    cases h with
    | @query _ d' _ k' ps' more' refs' ho' hp' hd' hx' =>
      have e := hf _ _ _ hp hp'
      simp only [Cell.mk.injEq, Cls.lib.injEq, List.cons.injEq, Val.ref.injEq] at e
      obtain ⟨rfl, rfl, e⟩ := e
      obtain ⟨_, h2, h3⟩ := query_same ho ho'
      obtain ⟨rfl, rfl⟩ := List.append_inj' e h2
      have e := ih _ hx' h3
      injection e with e
      rw [query_inj ho ho' e]
    | _ => exact absurd (hf _ _ _ hp ‹m p _›) (by rcases query_lib ho with rfl | rfl | rfl | rfl <;> (intro e; cases e))
  | none =>
    intro Y h hs
    obtain ⟨o', rfl⟩ := same_opt hs
    cases h with
    | none => rfl
    | some hv ho =>
      cases hv with
      | atom => exact absurd rfl ho
  | some hv ho ih =>
    intro Y h hs
    obtain ⟨o', rfl⟩ := same_opt hs
    cases h with
    | none =>
      cases hv with
      | atom => exact absurd rfl ho
    | some hv' ho' =>
      cases ih _ hv' trivial
      rfl
  | noConflict =>
    intro Y h hs
    obtain ⟨o', rfl⟩ := same_conflict hs
    cases h
    rfl
  | conflict hp =>
    intro Y h hs
    obtain ⟨o', rfl⟩ := same_conflict hs
    cases h with
    | conflict hp' => cases hf _ _ _ hp hp'; rfl
  | @column p a b x y hp ha hb iha ihb =>
    intro Y h hs
    obtain ⟨o', rfl⟩ := same_column hs
    cases h with
    | column hp' ha' hb' =>
      cases hf _ _ _ hp hp'
      cases iha _ ha' trivial
      cases ihb _ hb' trivial
      rfl
  | @order p a x d hp ha iha =>
    intro Y h hs
    obtain ⟨o', rfl⟩ := same_order hs
    cases h with
    | order hp' ha' =>
      have e := hf _ _ _ hp hp'
      simp only [Cell.mk.injEq, List.cons.injEq, Val.atom.injEq, true_and, and_true] at e
      obtain ⟨rfl, e⟩ := e
      cases iha _ ha' trivial
      rw [sortAtom_inj e]
  | @cond p on a r b k x y hp hr ha hb iha ihb =>
    intro Y h hs
    obtain ⟨o', rfl⟩ := same_cond hs
    cases h with
    | @cond _ on' _ _ _ _ _ _ hp' hr' ha' hb' =>
      have e := hf _ _ _ hp hp'
      simp only [Cell.mk.injEq, Cls.lib.injEq, List.cons.injEq, Val.ref.injEq, and_true] at e
      obtain ⟨e, rfl, rfl⟩ := e
      have e' : on = on' := by cases on <;> cases on' <;> simp_all
      cases hf _ _ _ hr hr'
      cases iha _ ha' trivial
      cases ihb _ hb' trivial
      rw [e']
    | condItem hv =>
      obtain ⟨k, xs, hk, h1, h2⟩ := obj_lib hv
      cases on <;> cases (hf _ _ _ hp h1) <;> cases h2
  | condItem hv ih =>
    intro Y h hs
    obtain ⟨o', rfl⟩ := same_cond hs
    cases h with
    | @cond _ on _ _ _ _ _ _ hp' _ _ _ =>
      obtain ⟨k, xs, hk, h1, h2⟩ := obj_lib hv
      cases on <;> cases (hf _ _ _ h1 hp') <;> cases h2
    | condItem hv' => cases ih _ hv' trivial; rfl
  | @value p a b x y hp ha hb iha ihb =>
    intro Y h hs
    obtain ⟨o', rfl⟩ := same_value hs
    cases h with
    | value hp' ha' hb' =>
      cases hf _ _ _ hp hp'
      cases iha _ ha' trivial
      cases ihb _ hb' trivial
      rfl
    | valueItem hv =>
      obtain ⟨k, xs, hk, h1, h2⟩ := obj_lib hv
      cases (hf _ _ _ hp h1)
      cases h2
  | valueItem hv ih =>
    intro Y h hs
    obtain ⟨o', rfl⟩ := same_value hs
    cases h with
    | value hp' _ _ =>
      obtain ⟨k, xs, hk, h1, h2⟩ := obj_lib hv
      cases (hf _ _ _ h1 hp')
      cases h2
    | valueItem hv' => cases ih _ hv' trivial; rfl
  | @row p l sep xs vs hp hl hx ih =>
    intro Y h hs
    obtain ⟨o', rfl⟩ := same_row hs
    cases h with
    | row hp' hl' hx' =>
      cases hf _ _ _ hp hp'
      cases hf _ _ _ hl hl'
      cases map_inj (f := .value) (by intro a b e; injection e) (ih _ hx' (same_map (f := .value) (fun _ _ => trivial) _ _))
      rfl
  | @join p ty t a b js o l sep xs x y cs hp ht hj ha hb ho hl hx iha ihb ih =>
    intro Y h hs
    obtain ⟨o', rfl⟩ := same_join hs
    cases h with
    | join hp' ht' hj' ha' hb' ho' hl' hx' =>
      have e := hf _ _ _ hp hp'
      simp only [Cell.mk.injEq, List.cons.injEq, Val.atom.injEq, Atom.int.injEq, Val.ref.injEq, true_and, and_true] at e
      obtain ⟨e, rfl, rfl⟩ := e
      cases hf _ _ _ ht ht'
      cases hf _ _ _ ho ho'
      cases hf _ _ _ hl hl'
      cases iha _ ha' trivial
      cases ihb _ hb' trivial
      cases map_inj (f := .cond) (by intro a b e; injection e) (ih _ hx' (same_map (f := .cond) (fun _ _ => trivial) _ _))
      rw [join_inj e]
  | @table p a b js xs x y jo hp hj ha hb hx iha ihb ih =>
    intro Y h hs
    obtain ⟨o', rfl⟩ := same_table hs
    cases h with
    | table hp' hj' ha' hb' hx' =>
      cases hf _ _ _ hp hp'
      cases hf _ _ _ hj hj'
      cases iha _ ha' trivial
      cases ihb _ hb' trivial
      cases map_inj (f := .join) (by intro a b e; injection e) (ih _ hx' (same_map (f := .join) (fun _ _ => trivial) _ _))
      rfl
  | @columnsPart p l sep xs cs hp hl hx ih =>
    intro Y h hs
    obtain ⟨o', rfl⟩ := same_part hs
    cases h with
    | columnsPart hp' hl' hx' =>
      cases hf _ _ _ hp hp'
      cases hf _ _ _ hl hl'
      cases map_inj (f := .column) (by intro a b e; injection e) (ih _ hx' (same_map (f := .column) (fun _ _ => trivial) _ _))
      rfl
    | _ => cases hs
  | @condsPart p k l sep xs cs hp hl hx ih =>
    intro Y h hs
    obtain ⟨o', rfl⟩ := same_part hs
    cases h with
    | condsPart hp' hl' hx' =>
      cases hf _ _ _ hp hp'
      cases hf _ _ _ hl hl'
      cases map_inj (f := .cond) (by intro a b e; injection e) (ih _ hx' (same_map (f := .cond) (fun _ _ => trivial) _ _))
      rfl
    | _ => cases hs
  | @ordersPart p k l sep xs cs hp hl hx ih =>
    intro Y h hs
    obtain ⟨o', rfl⟩ := same_part hs
    cases h with
    | ordersPart hp' hl' hx' =>
      cases hf _ _ _ hp hp'
      cases hf _ _ _ hl hl'
      cases map_inj (f := .order) (by intro a b e; injection e) (ih _ hx' (same_map (f := .order) (fun _ _ => trivial) _ _))
      rfl
    | _ => cases hs
  | @tablesPart p k l sep xs cs hp hl hx ih =>
    intro Y h hs
    obtain ⟨o', rfl⟩ := same_part hs
    cases h with
    | tablesPart hp' hl' hx' =>
      cases hf _ _ _ hp hp'
      cases hf _ _ _ hl hl'
      cases map_inj (f := .table) (by intro a b e; injection e) (ih _ hx' (same_map (f := .table) (fun _ _ => trivial) _ _))
      rfl
    | _ => cases hs
  | @valuesPart p k l sep xs cs hp hl hx ih =>
    intro Y h hs
    obtain ⟨o', rfl⟩ := same_part hs
    cases h with
    | valuesPart hp' hl' hx' =>
      cases hf _ _ _ hp hp'
      cases hf _ _ _ hl hl'
      cases map_inj (f := .value) (by intro a b e; injection e) (ih _ hx' (same_map (f := .value) (fun _ _ => trivial) _ _))
      rfl
    | _ => cases hs
  | @rowsPart p l sep xs cs hp hl hx ih =>
    intro Y h hs
    obtain ⟨o', rfl⟩ := same_part hs
    cases h with
    | rowsPart hp' hl' hx' =>
      cases hf _ _ _ hp hp'
      cases hf _ _ _ hl hl'
      cases map_inj (f := .row) (by intro a b e; injection e) (ih _ hx' (same_map (f := .row) (fun _ _ => trivial) _ _))
      rfl
    | _ => cases hs
  | @conflictPart p l sep xs v c cs hp hl hx hv ih ihv =>
    intro Y h hs
    obtain ⟨o', rfl⟩ := same_part hs
    cases h with
    | conflictPart hp' hl' hx' hv' =>
      cases hf _ _ _ hp hp'
      cases hf _ _ _ hl hl'
      cases map_inj (f := .value) (by intro a b e; injection e) (ih _ hx' (same_map (f := .value) (fun _ _ => trivial) _ _))
      cases ihv _ hv' trivial
      rfl
    | _ => cases hs
  | @limitPart p l hp =>
    intro Y h hs
    obtain ⟨o', rfl⟩ := same_part hs
    cases h with
    | limitPart hp' =>
      rename_i l'
      have e := hf _ _ _ hp hp'
      simp only [Cell.mk.injEq, List.cons.injEq, Val.atom.injEq, true_and, and_true] at e
      obtain ⟨a, b⟩ := l
      obtain ⟨a', b'⟩ := l'
      cases intAtom_inj e.1
      cases intAtom_inj e.2
      rfl
    | _ => cases hs
  | @outfilePart p a b c d o hp ha hb hc hd iha ihb ihc ihd =>
    intro Y h hs
    obtain ⟨o', rfl⟩ := same_part hs
    cases h with
    | outfilePart hp' ha' hb' hc' hd' =>
      cases hf _ _ _ hp hp'
      rename_i o'
      obtain ⟨o1, o2, o3, o4⟩ := o
      obtain ⟨p1, p2, p3, p4⟩ := o'
      cases iha _ ha' trivial
      cases ihb _ hb' trivial
      cases ihc _ hc' trivial
      cases ihd _ hd' trivial
      rfl
    | _ => cases hs
  | @optionsPart p d kvs hp hd =>
    intro Y h hs
    obtain ⟨o', rfl⟩ := same_part hs
    cases h with
    | optionsPart hp' hd' =>
      cases hf _ _ _ hp hp'
      have e := hf _ _ _ hd hd'
      simp only [Cell.mk.injEq, true_and] at e
      rw [str_inj e]
    | _ => cases hs
  | @flagPart p k b hp =>
    intro Y h hs
    obtain ⟨o', rfl⟩ := same_part hs
    cases h with
    | flagPart hp' =>
      cases hf _ _ _ hp hp'
      rfl
    | _ => cases hs

end

end SqlPuzzle.Refine
