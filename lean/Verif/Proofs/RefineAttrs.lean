import Verif.Proofs.RefineSlots

/-! Parts that keep attributes. -/

namespace SqlPuzzle.Refine
open SqlPuzzle SqlPuzzle.Spec

theorem setAttr_run {h : Heap} {p i : Nat} {k : Cls} {xs : List Val} (hp : h[p]? = some ⟨k, xs⟩) (v : Val) :
    hSetAttr p i v h = (h.set p ⟨k, xs.set i v⟩, .ok ()) := by
  simp only [hSetAttr, HM.modify, hp]

theorem get_set_self {h : Heap} {p : Nat} {c d : Cell} (hp : h[p]? = some c) : (h.set p d)[p]? = some d :=
  List.getElem?_set_self (some_lt hp)

theorem attr_post {m : Mem} {h : Heap} {p : Nat} {c d : Cell} {x : Part} (hp : h[p]? = some c)
    (mk : (h.set p d)[p]? = some d → OwnPart (h.set p d) m (.ref p) x [p]) :
    Post m h (.ref p) [p] (h.set p d) x :=
  ⟨m, [p], mk (get_set_self hp), by simp, .set (by simp), fun _ h => .inl h, fun _ _ h => .inl h⟩

section
variable {m : Mem} {h : Heap} {p : Nat} {f : List Nat}

theorem reads_run {v : Val} {x : Obj} (hm : Sub m (cells h)) (s : Is m v (.obj x)) :
    ∃ y, (HM.reads fun h => .ok (shallow h v) : HM Obj) h = (h, .ok y) ∧ Like y x :=
  ⟨_, rfl, like_shallow hm s⟩

theorem ofR_run {α : Type} (r : R α) (h : Heap) : HM.ofR r h = (h, r) := rfl

/-- `offset` on the cell of a limit. -/
theorem offset_run (hm : Sub m (cells h)) {v : Val} {x : Obj} (s : Is m v (.obj x)) {l : LimitS}
    (hp : h[p]? = some ⟨.lib .limit, [.atom (intAtom l.limit), .atom (intAtom l.offset)]⟩) :
    hOffset p v h = (h.set p ⟨.lib .limit, [.atom (intAtom (limitOffset l x).1.limit),
      .atom (intAtom (limitOffset l x).1.offset)]⟩, res (limitOffset l x).2) := by
  have hself : h.set p ⟨.lib .limit, [.atom (intAtom l.limit), .atom (intAtom l.offset)]⟩ = h := by
    obtain ⟨h1, h2⟩ := List.getElem?_eq_some_iff.mp hp
    rw [← h2]; exact List.set_getElem_self h1
  unfold hOffset limitOffset
  have hc := check_run hm [.none, .int] s
  cases e : checkType [.none, .int] x with
  | error er => rw [run_error (hc.trans (by rw [e]))]; simp only [withR]; rw [hself]; rfl
  | ok u =>
    rw [run_ok (hc.trans (by rw [e])), withR_ok]
    obtain ⟨y, e1, hy⟩ := reads_run hm s
    rw [run_ok e1, hy.truthy]
    cases x.truthy with
    | false => exact setAttr_run hp _
    | true =>
      simp only [if_true]
      rw [← hy.int]
      cases toInt y with
      | error er =>
        rw [run_error (ofR_run (.error er) h)]
        simp only [withR]; rw [hself]; rfl
      | ok i =>
        rw [run_ok (ofR_run (.ok i) h), withR_ok]
        exact setAttr_run hp _

theorem offset_post {l : LimitS} (r : Ready m h p (.limit l) f) {v : Val} {x : Obj} (s : Is m v (.obj x)) :
    ∃ h', hOffset p v h = (h', res (limitOffset l x).2) ∧
      Post m h (.ref p) f h' (.limit (limitOffset l x).1) := by
  obtain ⟨hown, hnd, hm, hap⟩ := r
  cases hown with
  | limit hp => exact ⟨_, offset_run hm s hp, attr_post hp fun h => .limit h⟩

theorem limit_post {l : LimitS} (r : Ready m h p (.limit l) f) {v w : Val} {x y : Obj}
    (s : Is m v (.obj x)) (t : Is m w (.obj y)) :
    ∃ h', hLimit p v w h = (h', res (limitLimit l x y).2) ∧
      Post m h (.ref p) f h' (.limit (limitLimit l x y).1) := by
  have r' := r
  obtain ⟨hown, hnd, hm, hap⟩ := r
  cases hown with
  | limit hp =>
    unfold hLimit limitLimit
    have hc := check_run hm [.none, .int] s
    cases e : checkType [.none, .int] x with
    | error er => rw [run_error (hc.trans (by rw [e]))]; exact ⟨h, rfl, .rfl r'.own r'.nodup⟩
    | ok u =>
      rw [run_ok (hc.trans (by rw [e])), withR_ok]
      obtain ⟨y', e1, hy⟩ := reads_run hm s
      rw [run_ok e1, hy.none]
      cases x.isNone with
      | true =>
        simp only [if_true]
        rw [run_ok (setAttr_run hp _), setAttr_run (get_set_self hp), List.set_set]
        exact ⟨_, rfl, attr_post hp fun h => .limit (l := ⟨none, none⟩) h⟩
      | false =>
        simp only [Bool.false_eq_true, if_false]
        rw [← hy.int]
        cases toInt y' with
        | error er =>
          rw [run_error (ofR_run (.error er) h)]
          exact ⟨h, rfl, .rfl r'.own r'.nodup⟩
        | ok i =>
          rw [run_ok (ofR_run (.ok i) h), withR_ok,
            run_ok (setAttr_run hp _)]
          have hm' : Sub m (cells (h.set p ⟨.lib .limit, [.atom (.int i), .atom (intAtom l.offset)]⟩)) :=
            fun a c ha => by
              have hne : p ≠ a := fun e => hap a c ha (by simp [e])
              exact (List.getElem?_set_ne hne).trans (hm a c ha)
          obtain ⟨z, e3, hz⟩ := reads_run hm' t
          rw [run_ok (by exact e3), hz.none]
          cases y.isNone with
          | true => exact ⟨_, rfl, attr_post hp fun h => .limit (l := { l with limit := some i }) h⟩
          | false =>
            simp only [Bool.false_eq_true, if_false]
            have := offset_run (p := p) (l := { l with limit := some i }) hm' t (get_set_self hp)
            refine ⟨_, this, ?_⟩
            rw [List.set_set]
            exact attr_post hp fun h => .limit h

theorem outfile_post {o : Outfile} (r : Ready m h p (.outfile o) f) (fld : OutfileField) {v : Val} {x : Obj}
    (s : Is m v (.obj x)) :
    ∃ h', hOutfile p (match fld with | .file => 0 | .fields => 1 | .lines => 2 | .enclosed => 3) v h =
        (h', res (outfileSet o fld x).2) ∧
      Post m h (.ref p) f h' (.outfile (outfileSet o fld x).1) := by
  have r' := r
  obtain ⟨hown, hnd, hm, hap⟩ := r
  cases hown with
  | outfile hp ha hb hc hd =>
    unfold hOutfile outfileSet
    have hch := check_run hm [.str] s
    cases e : checkType [.str] x with
    | error er => rw [run_error (hch.trans (by rw [e]))]; exact ⟨h, rfl, .rfl r'.own r'.nodup⟩
    | ok u =>
      rw [run_ok (hch.trans (by rw [e])), withR_ok, setAttr_run hp]
      have hne : x ≠ .none := by rintro rfl; cases e
      have hs : Is m v (.opt (some x)) := .some s hne
      cases fld with
      | file => exact ⟨_, rfl, attr_post hp fun h => .outfile h hs hb hc hd⟩
      | fields => exact ⟨_, rfl, attr_post hp fun h => .outfile h ha hs hc hd⟩
      | lines => exact ⟨_, rfl, attr_post hp fun h => .outfile h ha hb hs hd⟩
      | enclosed => exact ⟨_, rfl, attr_post hp fun h => .outfile h ha hb hc hs⟩

theorem flag_post {k : Lib} {b : Bool} (r : Ready m h p (.flag k b) f) (b' : Bool) :
    ∃ h', hSetAttr p 0 (.atom (.bool b')) h = (h', res none) ∧ Post m h (.ref p) f h' (.flag k b') := by
  obtain ⟨hown, hnd, hm, hap⟩ := r
  cases hown with
  | flag hp => exact ⟨_, setAttr_run hp _, attr_post hp fun h => .flag h⟩

/-- The value of a key in a list of pairs is replaced. -/
def setPair (k v : Str) (kvs : List (Str × Str)) : List (Str × Str) :=
  match kvs with
  | [] => []
  | kv :: r => if kv.1 = k then (kv.1, v) :: r else kv :: setPair k v r

theorem setKey_pairs (k v : Str) (kvs : List (Str × Str)) :
    setKey k (.atom (.str v)) (strPairs kvs) = strPairs (setPair k v kvs) := by
  induction kvs with
  | nil => rfl
  | cons kv r ih =>
    show setKey k _ (.atom (.str kv.1) :: .atom (.str kv.2) :: strPairs r) = _
    unfold setKey setPair
    split
    · rfl
    · rw [ih]; rfl

theorem option_post {kvs : List (Str × Str)} (r : Ready m h p (.options kvs) f) (k v : Str) :
    ∃ h', hOption p k v h = (h', res none) ∧ Post m h (.ref p) f h' (.options (setPair k v kvs)) := by
  obtain ⟨hown, hnd, hm, hap⟩ := r
  cases hown with
  | @options _ d _ hp hd =>
    have hne : p ≠ d := by simpa using hnd
    refine ⟨h.set d ⟨.dict, strPairs (setPair k v kvs)⟩, ?_, m, [p, d], ?_, hnd, .set (by simp),
      fun _ h => .inl h, fun _ _ h => .inl h⟩
    · simp only [hOption, keptAt, hp, Lib.keeps, if_true, List.getElem?_cons_zero, HM.modify, hd, setKey_pairs]
      rfl
    · exact .options ((List.getElem?_set_ne hne.symm).trans hp) (get_set_self hd)

end

/-! ### `ON CONFLICT` -/

theorem str_is {m : Mem} {v : Val} {s : Str} (h : Is m v (.obj (.str s))) : v = .atom (.str s) := by
  generalize hx : Obj.str s = x at h
  cases h with
  | atom a => cases a <;> simp_all [Atom.obj]
  | query ho => subst hx; cases ho
  | _ => cases hx

theorem str_of {m : Mem} {s : Str} {x : Obj} (h : Is m (.atom (.str s)) (.obj x)) : x = .str s := by
  cases h with
  | atom => rfl

section
variable {T : Runtime} {cx : Ctx} {S : Sem} (hT : Faithful T cx S) {m : Mem} {h : Heap} {p : Nat}
  {f : List Nat}
include hT

/-- `OnConflictDoUpdate.set`. -/
theorem conflict_post {q : Insert} (r : Ready m h p (.conflict q.conflict q.onConflict) f)
    {a : HArgs} {b : Args} (s : ArgsAre m a b) :
    ∃ l h', listAt h p = .ok l ∧ hOnConflict T p l a h = (h', res (onConflictSet cx S q b).2) ∧
      Post m h (.ref p) f h' (.conflict (onConflictSet cx S q b).1.conflict
        (onConflictSet cx S q b).1.onConflict) := by
  have r' := r
  obtain ⟨hown, hnd, hm, hap⟩ := r
  cases hown with
  | @conflict _ l sep xs w c vs hp hl hx hv =>
    refine ⟨l, ?_⟩
    have same : ∀ er : Err, ∃ h', listAt h p = .ok l ∧ (h, (.error er : R Unit)) = (h', res (some er)) ∧
        Post m h (.ref p) [p, l] h' (.conflict q.conflict q.onConflict) := fun er =>
      ⟨h, listAt_run rfl hp hl, rfl, .rfl r'.own r'.nodup⟩
    unfold hOnConflict onConflictSet
    rw [kwSelf_sim s]
    split
    · exact same _
    have hpos := are_map.mp s.pos
    obtain ⟨apos, akw⟩ := a
    obtain ⟨bpos, bkw⟩ := b
    dsimp only at hpos ⊢
    cases hpos with
    | nil => exact same _
    | @cons v x apos bpos h1 h2 =>
      by_cases hstr : ∃ t, x = .str t
      · obtain ⟨t, rfl⟩ := hstr
        rw [str_is h1]
        dsimp only
        have hne : p ≠ l := by simpa using hnd
        -- the reference is made and stored
        let n := h.length
        let ext : List Cell := [⟨.lib .sqlReference, [.ref (n + 2), .atom (.str t)]⟩, ⟨.method, [.ref n]⟩,
          ⟨.dict, [.atom (.opaque 0), .ref (n + 1)]⟩]
        have e1 : hMkRef (.atom (.str t)) h = (h ++ ext, .ok n) := by
          simp only [hMkRef, bind, HM.andThen, HM.alloc, HM.modify, HM.ret, List.append_assoc, List.cons_append,
            List.nil_append]
          have hg : (h ++ [(⟨.lib .sqlReference, [.atom .none, .atom (.str t)]⟩ : Cell), ⟨.method, [.ref h.length]⟩,
            ⟨.dict, [.atom (.opaque 0), .ref (h ++ [(⟨.lib .sqlReference, [.atom .none, .atom (.str t)]⟩ : Cell)]).length]⟩])[h.length]? =
              some ⟨.lib .sqlReference, [.atom .none, .atom (.str t)]⟩ := by simp
          rw [hg]
          simp [ext, n]
        rw [run_ok e1]
        have hp1 : (h ++ ext)[p]? = some ⟨.lib .onConflict, [.ref l, w]⟩ := get_append_left hp _
        rw [run_ok (setAttr_run hp1 _)]
        generalize hh1 : (h ++ ext).set p ⟨.lib .onConflict, [Val.ref l, w].set 1 (.ref n)⟩ = h1'
        have hlt := some_lt hp
        have hllt := some_lt hl
        have hlen : h1'.length = h.length + 3 := by rw [← hh1]; simp [ext]
        have hst : Step (· = p) h h1' := by rw [← hh1]; exact (Step.append ext).trans (.set rfl)
        have hp2 : h1'[p]? = some ⟨.lib .onConflict, [.ref l, .ref n]⟩ := by
          rw [← hh1]; exact get_set_self hp1
        have hl2 : h1'[l]? = some ⟨.lib .listOfParts, sep :: xs⟩ := hst.same l _ hl (Ne.symm hne)
        have hn2 : h1'[n]? = some ⟨.lib .sqlReference, [.ref (n + 2), .atom (.str t)]⟩ := by
          rw [← hh1, List.getElem?_set_ne (by omega)]; simp [ext, n]
        have hm1 : Sub (plus m h h1') (cells h1') :=
          plus_cells hm (fun a c ha e => hap a c ha (by simp [e])) hst
        have hap1 : ∀ a c, plus m h h1' a c → a ∉ [p, l] := by
          rintro a c (ha | ⟨ha, _⟩)
          · exact hap a c ha
          · simp only [List.mem_cons, List.not_mem_nil, or_false]; omega
        have hargs : ArgsAre (plus m h h1') ⟨apos, akw⟩ ⟨bpos, bkw⟩ :=
          ⟨are_mono sub_plus (are_map.mpr h2), s.names, are_mono sub_plus s.vals⟩
        obtain ⟨h', e, i⟩ := values_sim hT (some_lt hl2) hm1 (fun c hc => hap1 l c hc (by simp)) hargs
          (listAt_start hl2 (are_mono sub_plus hx))
        refine ⟨h', listAt_run rfl hp hl, e, ?_⟩
        have href : Is (plus m h h1') (.ref n) (.conflict (some t)) := .conflict (.inr ⟨Nat.le_refl _, hn2⟩)
        obtain ⟨m', f', q1, q2, q3, q4, q5⟩ := list_post hp2 (some_lt hl2) hne
          (x := .conflict (some t) (valuesSet cx S q.onConflict ⟨bpos, bkw⟩).1)
          (fun _ a b c => .conflict a b c (is_mono sub_plus href)) i
        refine ⟨m', f', q1, q2, ⟨Nat.le_trans hst.grows q3.grows, fun a c ha hn => q3.same a c (hst.same a c ha
          fun e => hn (by simp [e])) hn⟩,
          fun a ha => (q4 a ha).imp_right fun h => by omega, fun a c ha => ?_⟩
        rcases q5 a c ha with (h2 | ⟨h2, h3⟩) | ⟨h2, h3, h4⟩
        · exact .inl h2
        · have ha' : a < h1'.length := some_lt h3
          have hnf : a ∉ [p, l] := hap1 a c (.inr ⟨h2, h3⟩)
          refine .inr ⟨h2, fun h5 => ?_, q3.same a c h3 hnf⟩
          rcases q4 a h5 with h6 | h6
          · exact hnf h6
          · omega
        · exact .inr ⟨by omega, h3, h4⟩
      · have hv' : ∀ t, v ≠ .atom (.str t) := by
          rintro t rfl
          exact hstr ⟨t, str_of h1⟩
        split
        · rename_i heq; cases heq; exact absurd ⟨_, rfl⟩ hstr
        · cases v with
          | ref => exact same _
          | atom at' => cases at' <;> first | exact absurd rfl (hv' _) | exact same _

end

end SqlPuzzle.Refine
