import Verif.Proofs.Tokens
import Verif.Proofs.Minimize

/-!
The text of an object without raw SQL is read as its tokens.
-/

namespace SqlPuzzle

open Spec

/-- The text does not end in white space and is not empty. -/
def Solid (t : Str) : Prop := ∃ c, t.getLast? = some c ∧ isSpace c = false

theorem Solid.append {a b : Str} (h : Solid b) : Solid (a ++ b) := by
  obtain ⟨c, h1, h2⟩ := h
  exact ⟨c, by rw [List.getLast?_append, h1]; rfl, h2⟩

theorem Solid.cons {a : Char} {b : Str} (h : Solid b) : Solid (a :: b) := Solid.append (a := [a]) h

theorem solid_last {a : Str} {c : Char} (h : isSpace c = false) : Solid (a ++ [c]) :=
  ⟨c, by simp, h⟩

theorem solid_fixed {a : Str} (h : (match a.getLast? with | some c => !isSpace c | none => false) = true) :
    Solid a := by
  cases e : a.getLast? with
  | none => rw [e] at h; cases h
  | some c => rw [e] at h; exact ⟨c, e, by simpa using h⟩

theorem solid_all {a : Str} (h : a ≠ []) (h' : ∀ c ∈ a, isSpace c = false) : Solid a :=
  ⟨a.getLast h, List.getLast?_eq_some_getLast h, h' _ (List.getLast_mem h)⟩

/-- The text is read as the tokens and does not end in white space. -/
structure RT (d : Dialect) (t : Str) (ts : List Tok) : Prop where
  reads : Reads d t ts
  solid : Solid t

section
variable {d : Dialect}

theorem RT.pre {f g ts us} (h : ReadsAny d f ts) (k : RT d g us) : RT d (f ++ g) (ts ++ us) :=
  ⟨h.append_reads k.reads, k.solid.append⟩

theorem RT.mid {f g e ts us vs} (h : RT d f ts) (s : SepStart g) (m : ReadsAny d g us)
    (k : RT d e vs) : RT d (f ++ (g ++ e)) (ts ++ (us ++ vs)) := by
  refine ⟨?_, k.solid.append.append⟩
  have := (h.reads.append_any s m).append_reads k.reads
  simpa only [List.append_assoc] using this

theorem RT.post {f g ts us} (h : RT d f ts) (s : SepStart g) (k : RT d g us) :
    RT d (f ++ g) (ts ++ us) := ⟨h.reads.append s k.reads, k.solid.append⟩

/-- An optional clause with a blank before it. -/
def ClauseR (d : Dialect) (t : Str) (ts : List Tok) : Prop :=
  (t = [] ∧ ts = []) ∨ ∃ s, t = ' ' :: s ∧ RT d s ts

theorem readsAny_blank (hq : d.Known) : ReadsAny d [' '] [] :=
  readsAny_fixed hq _ _ (fun _ _ _ _ => ⟨rfl, rfl⟩)

theorem sepStart_blank {s : Str} : SepStart (' ' :: s) := ⟨_, _, rfl, Or.inl rfl⟩

theorem RT.blank {t ts} (hq : d.Known) (h : RT d t ts) : RT d (' ' :: t) ts :=
  RT.pre (readsAny_blank hq) h

theorem RT.clause {f g ts us} (hq : d.Known) (h : RT d f ts) (k : ClauseR d g us) :
    RT d (f ++ g) (ts ++ us) := by
  rcases k with ⟨rfl, rfl⟩ | ⟨s, rfl, k⟩
  · simpa using h
  · exact h.post sepStart_blank (k.blank hq)

theorem ClauseR.append {f g ts us} (hq : d.Known) (h : ClauseR d f ts) (k : ClauseR d g us) :
    ClauseR d (f ++ g) (ts ++ us) := by
  rcases h with ⟨rfl, rfl⟩ | ⟨s, rfl, h⟩
  · simpa using k
  · exact Or.inr ⟨s ++ g, rfl, h.clause hq k⟩

theorem clauseR_some {t ts} (h : RT d t ts) : ClauseR d (' ' :: t) ts := Or.inr ⟨t, rfl, h⟩

theorem clauseR_none : ClauseR d [] [] := Or.inl ⟨rfl, rfl⟩

theorem clauseR_of {b : Bool} {x : R Str} {t : Str} {ts : List Tok} (e : clause b x = .ok t)
    (h : ∀ s, b = true → x = .ok s → RT d s ts) : ClauseR d t (optToks b ts) := by
  cases b with
  | false => injection e with e; subst e; exact clauseR_none
  | true =>
    simp only [clause, if_true, bind_ok] at e
    obtain ⟨s, e1, e2⟩ := e
    injection e2 with e2
    subst e2
    exact clauseR_some (h s rfl e1)

/-! ### Fixed text -/

theorem RT.fixed (hq : d.Known) (f : Str) (ts : List Tok)
    (h : FixedReads f ts '"' ∧ FixedReads f ts '`')
    (h' : (match f.getLast? with | some c => !isSpace c | none => false) = true) : RT d f ts :=
  ⟨reads_fixed hq f ts h, solid_fixed h'⟩

macro "any_rfl" hq:term : term => `(readsAny_fixed $hq _ _ (fun _ _ _ _ => ⟨rfl, rfl⟩))

theorem rt_paren (hq : d.Known) {t ts} (h : RT d t ts) : RT d ('(' :: (t ++ [')'])) (paren ts) := by
  have h1 : ReadsAny d ['('] [.sym '('] := any_rfl hq
  have h2 : RT d [')'] [.sym ')'] := RT.fixed hq _ _ fixed_rfl rfl
  exact RT.pre h1 (h.post ⟨_, _, rfl, Or.inr (Or.inr rfl)⟩ h2)

/-- `NAME(…)`. -/
theorem rt_call (hq : d.Known) {f : Str} {w : Tok} (hf : ReadsAny d (f ++ ['(']) [w, .sym '('])
    {t ts} (h : RT d t ts) : RT d (f ++ '(' :: (t ++ [')'])) (w :: paren ts) := by
  have h2 : RT d [')'] [.sym ')'] := RT.fixed hq _ _ fixed_rfl rfl
  have := RT.pre hf (h.post ⟨_, _, rfl, Or.inr (Or.inr rfl)⟩ h2)
  simpa [paren] using this

/-! ### Separated sequences -/

theorem rt_join {sep : Str} {st : List Tok} (s : SepStart sep) (hs : ReadsAny d sep st)
    {ts : List Str} {us : List (List Tok)} (h : List.Forall₂ (RT d) ts us) (hne : ts ≠ []) :
    RT d (joinS sep ts) (joinT st us) := by
  induction h with
  | nil => exact absurd rfl hne
  | @cons a b l1 l2 h hs' ih =>
    cases hs' with
    | nil => exact h
    | @cons a' b' l1' l2' h' hs'' =>
      have := ih (by simp)
      have e := h.mid s hs this
      simpa only [joinS, joinT, List.append_assoc] using e

theorem readsAny_comma (hq : d.Known) : ReadsAny d L!", " [.sym ','] := any_rfl hq

theorem readsAny_and (hq : d.Known) : ReadsAny d L!" AND " [.word L!"AND"] := any_rfl hq

theorem forall₂_of_mapR {α : Type} {f : α → R Str} {g : α → List Tok} {xs : List α} {ts : List Str}
    (e : mapR f xs = .ok ts) (h : ∀ x ∈ xs, ∀ t, f x = .ok t → RT d t (g x)) :
    List.Forall₂ (RT d) ts (xs.map g) := by
  replace e := mapR_ok_iff.mp e
  induction e with
  | nil => exact .nil
  | @cons a b l1 l2 e es ih =>
    exact .cons (h a (by simp) b e) (ih fun x hx => h x (by simp [hx]))

theorem mapR_ne_nil {α : Type} {f : α → R Str} {xs : List α} {ts : List Str}
    (e : mapR f xs = .ok ts) (h : xs ≠ []) : ts ≠ [] := by
  intro h'
  have := mapR_length e
  rw [h'] at this
  exact h (List.length_eq_zero_iff.mp this.symm)

theorem rt_commas (hq : d.Known) {α : Type} {f : α → R Str} {g : α → List Tok} {xs : List α}
    {ts : List Str} (e : mapR f xs = .ok ts) (hne : xs ≠ [])
    (h : ∀ x ∈ xs, ∀ t, f x = .ok t → RT d t (g x)) :
    RT d (joinS L!", " ts) (commas (xs.map g)) :=
  rt_join ⟨_, _, rfl, Or.inr (Or.inl rfl)⟩ (readsAny_comma hq) (forall₂_of_mapR e h)
    (mapR_ne_nil e hne)

/-! ### Literals -/

theorem digit_not_space {c : Char} (h : isDigitC c = true) : isSpace c = false := by
  simp only [isDigitC, Bool.and_eq_true, decide_eq_true_eq] at h
  have h1 : 48 ≤ c.toNat := h.1
  have h2 : c.toNat ≤ 57 := h.2
  unfold isSpace
  simp only [Bool.or_eq_false_iff, Bool.and_eq_false_iff, decide_eq_false_iff_not, beq_eq_false_iff_ne]
  omega

theorem solid_natText (n : Nat) : Solid (natText n) :=
  solid_all (natText_ne n) fun c hc => digit_not_space (natText_digits n c hc)

theorem rt_int (hq : d.Known) (i : Int) : RT d (intText i) (intToks i) := by
  refine ⟨reads_intText hq i, ?_⟩
  cases i with
  | ofNat n => exact solid_natText n
  | negSucc n => exact (solid_natText (n + 1)).cons

theorem rt_fmt5 (hq : d.Known) (neg : Bool) (num den : Nat) :
    RT d (fmt5 neg num den) (signedToks neg (fmt5 neg num den)) := by
  obtain ⟨s, e, h⟩ := reads_fmt5 hq neg num den
  constructor
  · unfold signedToks
    have : (if neg then (fmt5 neg num den).drop 1 else fmt5 neg num den) = s := by
      rw [e]; cases neg <;> simp
    rw [this]; exact h
  · unfold fmt5
    generalize roundHalfEven (num * 100000) den = k
    refine Solid.append (Solid.cons ?_)
    refine solid_all ?_ fun c hc => digit_not_space (padText_digits _ _ c hc)
    intro h0
    have := padText_length 4 (k % 100000) (by norm_num; exact Nat.mod_lt _ (by decide))
    rw [h0] at this; cases this

theorem solid_quote {s : Str} : Solid ('\'' :: (s ++ ['\''])) := Solid.cons (solid_last rfl)

theorem rt_bytes (hq : d.Known) (b : Backend) (bs : List UInt8) :
    RT d (b.bytes bs) [bytesTok b bs] := by
  refine ⟨reads_bytes hq b bs, ?_⟩
  cases b <;> exact solid_last rfl

theorem rt_bool (hq : d.Known) (b : Backend) (v : Bool) : RT d (b.boolean v) [boolTok b v] := by
  cases b <;> cases v <;> exact RT.fixed hq _ _ fixed_rfl rfl

theorem rt_null (hq : d.Known) : RT d L!"NULL" [.word L!"NULL"] := RT.fixed hq _ _ fixed_rfl rfl

theorem quote_not_space (b : Backend) : isSpace b.quote = false := by cases b <;> rfl

theorem solid_reference {b : Backend} {s : Str} (h : refParts b.quote s ≠ []) :
    Solid (reference b.quote s) := by
  unfold reference
  generalize refParts b.quote s = ps at h
  have key : ∀ p, Solid (quotePart b.quote p) := by
    intro p
    unfold quotePart
    split
    · rename_i h; subst h; exact solid_fixed rfl
    · exact Solid.cons (solid_last (quote_not_space b))
  induction ps with
  | nil => exact absurd rfl h
  | cons p ps ih =>
    cases ps with
    | nil => exact key p
    | cons p' ps' =>
      have := ih (by simp)
      exact Solid.append this

theorem rt_reference {cx : Ctx} (hf : Fits cx d) {s : Str} (h : SafeName cx.backend.quote s) :
    RT d (reference cx.backend.quote s) (refToks (refParts cx.backend.quote s)) := by
  refine ⟨?_, solid_reference (refParts_ne h.1 h.2)⟩
  have := reads_reference hf.known (s := s)
    (by rw [hf]; exact fun p hp => (refParts_wellQuoted h.1 p hp).2)
  rwa [hf] at this

end

/-! ### Objects -/

section
variable {cx : Ctx} {S : Sem} {d : Dialect} {T : Obj → List Tok} {P : Kind → Obj → Prop}

/-- What is known about inner objects. -/
def Inner (d : Dialect) (S : Sem) (T : Obj → List Tok) (P : Kind → Obj → Prop) : Prop :=
  ∀ k o t, P k o → S.str o = .ok t → RT d t (T o)

theorem rt_list (hq : d.Known) (ih : Inner d S T P) {xs : List Obj} {t : Str}
    (hne : xs ≠ []) (h : ∀ x ∈ xs, P .expr (.sqlValue x)) (e : listText S xs = .ok t) :
    RT d t (listToks T xs) := by
  unfold listText at e
  rw [bind_ok] at e
  obtain ⟨ts, e1, e2⟩ := e
  injection e2 with e2
  subst e2
  exact rt_paren hq (rt_commas hq e1 hne fun x hx u hu => ih _ _ _ (h x hx) hu)

theorem rt_sub (hq : d.Known) (ih : Inner d S T P) {k : Kind} {o : Obj} {t : Str} (h : P k o)
    (e : parenText S o = .ok t) : RT d t (paren (T o)) := by
  unfold parenText at e
  rw [bind_ok] at e
  obtain ⟨u, e1, e2⟩ := e
  injection e2 with e2
  subst e2
  exact rt_paren hq (ih _ _ _ h e1)

theorem rt_val (hf : Fits cx d) (ih : Inner d S T P) {v : Obj} {t : Str}
    (h : safeVal cx.backend.quote P v) (e : sqlValueText cx S v = .ok t) :
    RT d t (valToks cx d T v) := by
  have hq := hf.known
  have ite_list : ∀ {xs : List Obj}, xs ≠ [] →
      (if xs.isEmpty then .error .invalidArgument else listText S xs : R Str) = .ok t →
      listText S xs = .ok t := by
    intro xs hx he
    rwa [if_neg (by simpa using hx)] at he
  cases v with
  | none => injection e with e; subst e; exact rt_null hq
  | bool b => injection e with e; subst e; exact rt_bool hq _ _
  | int i => injection e with e; subst e; exact rt_int hq i
  | float f =>
    obtain ⟨neg, m, ex, rfl⟩ := h
    injection e with e; subst e; exact rt_fmt5 hq _ _ _
  | decimal f =>
    obtain ⟨neg, m, ex, rfl⟩ := h
    injection e with e; subst e; exact rt_fmt5 hq _ _ _
  | str s =>
    injection e with e; subst e
    have hs : isReference cx.backend.quote s = false := by
      rw [← Bool.not_eq_true, isReference_iff]
      rintro ⟨r, h1, h2⟩
      exact h r h1 h2
    show RT d (strValueText cx s) _
    unfold strValueText
    rw [if_neg (by simp [hs])]
    exact ⟨reads_literal hq s, solid_quote⟩
  | bytes b => injection e with e; subst e; exact rt_bytes hq _ _
  | date v => injection e with e; subst e; exact ⟨reads_inert hq (inert_date v), solid_quote⟩
  | datetime v =>
    injection e with e; subst e; exact ⟨reads_inert hq (inert_datetime v), solid_quote⟩
  | list xs => exact rt_list hq ih h.1 h.2 (ite_list h.1 e)
  | tuple xs => exact rt_list hq ih h.1 h.2 (ite_list h.1 e)
  | set xs => exact rt_list hq ih h.1 h.2 (ite_list h.1 e)
  | frozenset xs => exact rt_list hq ih h.1 h.2 (ite_list h.1 e)
  | gen xs => exact rt_list hq ih h.1 h.2 e
  | range xs =>
    have hx : xs ≠ [] := h.1
    have h2 := h.2
    have e' : (if xs.isEmpty then .error .invalidArgument else listText S (xs.map .int) : R Str) =
      .ok t := e
    rw [if_neg (by simpa using hx)] at e'
    refine rt_list hq ih (by simpa using hx) ?_ e'
    intro x hx'
    obtain ⟨i, hi, rfl⟩ := List.mem_map.mp hx'
    exact h2 i hi
  | select s => exact rt_sub hq ih h e
  | union a b all => exact rt_sub hq ih h e
  | dict _ => exact absurd h.1 (by simp [Obj.isSql])
  | «opaque» _ => exact absurd h.1 (by simp [Obj.isSql])
  | custom _ => exact ih _ _ _ h.2 e
  | sqlValue _ => exact ih _ _ _ h.2 e
  | sqlRef _ => exact ih _ _ _ h.2 e
  | rel _ _ => exact ih _ _ _ h.2 e
  | conds _ => exact ih _ _ _ h.2 e
  | cofc _ _ _ => exact ih _ _ _ h.2 e
  | not_ _ => exact ih _ _ _ h.2 e
  | func _ _ _ => exact ih _ _ _ h.2 e
  | concat _ => exact ih _ _ _ h.2 e
  | groupConcat _ _ _ => exact ih _ _ _ h.2 e
  | convert _ _ => exact ih _ _ _ h.2 e
  | exists_ _ => exact ih _ _ _ h.2 e
  | insert _ => exact ih _ _ _ h.2 e
  | update _ => exact ih _ _ _ h.2 e
  | delete _ => exact ih _ _ _ h.2 e

theorem rt_ref (hf : Fits cx d) (ih : Inner d S T P) {v : Obj} {t : Str}
    (h : safeRef cx.backend.quote P v) (e : sqlRefText cx S v = .ok t) :
    RT d t (refToksOf cx T v) := by
  have hq := hf.known
  cases v with
  | str s => injection e with e; subst e; exact rt_reference hf h
  | int i => injection e with e; subst e; exact rt_int hq i
  | select s => exact rt_sub hq ih h e
  | union a b all => exact rt_sub hq ih h e
  | custom _ => exact ih _ _ _ h.2 e
  | sqlValue _ => exact ih _ _ _ h.2 e
  | sqlRef _ => exact ih _ _ _ h.2 e
  | rel _ _ => exact ih _ _ _ h.2 e
  | conds _ => exact ih _ _ _ h.2 e
  | cofc _ _ _ => exact ih _ _ _ h.2 e
  | not_ _ => exact ih _ _ _ h.2 e
  | func _ _ _ => exact ih _ _ _ h.2 e
  | concat _ => exact ih _ _ _ h.2 e
  | groupConcat _ _ _ => exact ih _ _ _ h.2 e
  | convert _ _ => exact ih _ _ _ h.2 e
  | exists_ _ => exact ih _ _ _ h.2 e
  | insert _ => exact ih _ _ _ h.2 e
  | update _ => exact ih _ _ _ h.2 e
  | delete _ => exact ih _ _ _ h.2 e
  | none => exact absurd h.1 (by simp [Obj.isSql])
  | bool _ => exact absurd h.1 (by simp [Obj.isSql])
  | float _ => exact absurd h.1 (by simp [Obj.isSql])
  | decimal _ => exact absurd h.1 (by simp [Obj.isSql])
  | bytes _ => exact absurd h.1 (by simp [Obj.isSql])
  | date _ => exact absurd h.1 (by simp [Obj.isSql])
  | datetime _ => exact absurd h.1 (by simp [Obj.isSql])
  | list _ => exact absurd h.1 (by simp [Obj.isSql])
  | tuple _ => exact absurd h.1 (by simp [Obj.isSql])
  | set _ => exact absurd h.1 (by simp [Obj.isSql])
  | frozenset _ => exact absurd h.1 (by simp [Obj.isSql])
  | gen _ => exact absurd h.1 (by simp [Obj.isSql])
  | range _ => exact absurd h.1 (by simp [Obj.isSql])
  | dict _ => exact absurd h.1 (by simp [Obj.isSql])
  | «opaque» _ => exact absurd h.1 (by simp [Obj.isSql])


theorem rt_aliased (hf : Fits cx d) (ih : Inner d S T P) {n a : Obj} {t : Str}
    (h : safeAliased cx.backend.quote P n a) (e : aliasedText cx S n a = .ok t) :
    RT d t (aliasedToks cx T n a) := by
  have hq := hf.known
  unfold aliasedText at e
  unfold aliasedToks
  cases ha : a.truthy with
  | false =>
    rw [if_neg (by simp [ha])] at e
    simpa [optToks] using rt_ref hf ih h.1 e
  | true =>
    rw [if_pos ha, bind_ok] at e
    obtain ⟨x, e1, e⟩ := e
    rw [bind_ok] at e
    obtain ⟨y, e2, e⟩ := e
    injection e with e
    subst e
    have m : ReadsAny d L!" AS " (words [L!"AS"]) := any_rfl hq
    have := (rt_ref hf ih h.1 e1).mid (g := L!" AS ") sepStart_blank m (rt_ref hf ih (h.2 ha) e2)
    simpa only [optToks, if_true, List.append_assoc] using this

theorem rt_column (hf : Fits cx d) (ih : Inner d S T P) {c : Column} {t : Str}
    (h : safeColumn cx.backend.quote P c) (e : columnText cx S c = .ok t) :
    RT d t (columnToks cx T c) := rt_aliased hf ih h e

theorem rt_order (hf : Fits cx d) (ih : Inner d S T P) {o : Order} {t : Str}
    (h : safeRef cx.backend.quote P o.col) (e : orderText cx S o = .ok t) :
    RT d t (orderToks cx T o) := by
  have hq := hf.known
  unfold orderText at e
  rw [bind_ok] at e
  obtain ⟨x, e1, e⟩ := e
  injection e with e
  subst e
  have hx := rt_ref hf ih h e1
  unfold orderToks
  cases o.desc with
  | false => simpa [optToks] using hx
  | true =>
    have m : RT d L!" DESC" (words [L!"DESC"]) := RT.fixed hq _ _ fixed_rfl rfl
    exact hx.post sepStart_blank m

/-- A relation between blanks. -/
theorem readsAny_rel (hq : d.Known) (k : Rel) :
    ReadsAny d (' ' :: (k.text ++ [' '])) (relToks k) := by
  cases k <;> exact any_rfl hq

theorem rt_plainCond (hf : Fits cx d) (ih : Inner d S T P) {col v : Obj} {k : Rel}
    {vt : Obj → R Str} {vk : Obj → List Tok} {t : Str} (h : safeRef cx.backend.quote P col)
    (hv : ∀ u, vt v = .ok u → RT d u (vk v)) (e : plainCondText cx S col k vt v = .ok t) :
    RT d t (plainCondToks cx T col k vk v) := by
  have hq := hf.known
  unfold plainCondText at e
  rw [bind_ok] at e
  obtain ⟨x, e1, e⟩ := e
  rw [bind_ok] at e
  obtain ⟨y, e2, e⟩ := e
  injection e with e
  subst e
  have := (rt_ref hf ih h e1).mid sepStart_blank (readsAny_rel hq k) (hv y e2)
  simpa [plainCondToks] using this

theorem rt_inCond (hf : Fits cx d) (ih : Inner d S T P) {col v : Obj} {k nk : Rel}
    {glue : Str} {gt nt : Str} {t : Str} (h : safeRef cx.backend.quote P col)
    (hv : match v.iterate with
      | none => safeVal cx.backend.quote P v
      | some xs => xs ≠ [] ∧ ∀ x ∈ xs, x.isNone = false → P .expr (.sqlValue x))
    (hg : ReadsAny d gt [.word glue]) (hgs : SepStart gt)
    (hn : RT d nt (relToks nk ++ [.word L!"NULL"])) (hns : SepStart nt)
    (e : inCondText cx S col k gt nt (sqlValueText cx S) v = .ok t) :
    RT d t (inCondToks cx T col k nk glue (valToks cx d T) v) := by
  have hq := hf.known
  unfold inCondText at e
  unfold inCondToks
  cases hi : v.iterate with
  | none =>
    rw [hi] at e hv
    exact rt_plainCond hf ih h (fun u hu => rt_val hf ih hv hu) e
  | some xs =>
    rw [hi] at e hv
    simp only at e hv ⊢
    generalize hvals : xs.filter (fun x => !x.isNone) = vals at e
    have hlist : ∀ u, sqlValueText cx S (.list vals) = .ok u → vals ≠ [] →
        RT d u (valToks cx d T (.list vals)) := by
      intro u hu hne
      refine rt_val hf ih ⟨hne, ?_⟩ hu
      intro x hx
      rw [← hvals, List.mem_filter] at hx
      exact hv.2 x hx.1 (by simpa using hx.2)
    cases hany : xs.any Obj.isNone with
    | false =>
      rw [if_neg (by simp [hany])] at e
      rw [if_neg (by simp)]
      have hne : vals ≠ [] := by
        obtain ⟨x, hx⟩ := List.exists_mem_of_ne_nil xs hv.1
        have hxn : x.isNone = false := by
          have := List.any_eq_false.mp hany x hx
          simpa using this
        intro h0
        have : x ∈ vals := by rw [← hvals, List.mem_filter]; exact ⟨hx, by simp [hxn]⟩
        rw [h0] at this; cases this
      exact rt_plainCond hf ih h (fun u hu => hlist u hu hne) e
    | true =>
      rw [if_pos hany] at e
      rw [if_pos rfl]
      cases hem : vals.isEmpty with
      | true =>
        rw [if_pos hem, bind_ok] at e
        obtain ⟨x, e1, e⟩ := e
        injection e with e
        subst e
        exact (rt_ref hf ih h e1).post hns hn
      | false =>
        rw [if_neg (by simp [hem]), bind_ok] at e
        obtain ⟨x, e1, e⟩ := e
        rw [bind_ok] at e
        obtain ⟨y, e2, e⟩ := e
        injection e with e
        subst e
        have h1 := rt_plainCond hf ih h (fun u hu => hlist u hu (by simpa using hem)) e1
        have h2 := (rt_ref hf ih h e2).post hns hn
        have := rt_paren hq (h1.mid hgs hg h2)
        simpa [List.append_assoc] using this

theorem rt_cond (hf : Fits cx d) (ih : Inner d S T P) {c : Cond} {t : Str}
    (h : safeCond cx.backend.quote P c) (e : condText cx S c = .ok t) :
    RT d t (condToks cx d T c) := by
  have hq := hf.known
  cases c with
  | item o => exact ih _ _ _ h e
  | cond on col k v =>
    obtain ⟨hc, hv⟩ := h
    have plain : ∀ k : Rel,
        (if on && v.isStr then safeRef cx.backend.quote P v else safeVal cx.backend.quote P v) →
        plainCondText cx S col k (if on && v.isStr then sqlRefText cx S else sqlValueText cx S) v =
          .ok t →
        RT d t (plainCondToks cx T col k
          (if on && v.isStr then refToksOf cx T else valToks cx d T) v) := by
      intro k hv e
      refine rt_plainCond hf ih hc ?_ e
      intro u hu
      cases hb : (on && v.isStr) with
      | true => rw [hb] at hu hv; exact rt_ref hf ih hv hu
      | false => rw [hb] at hu hv; exact rt_val hf ih hv hu
    have inn : ∀ (hv : match v.iterate with
          | none => safeVal cx.backend.quote P v
          | some xs => (on && v.isStr) = false ∧ xs ≠ [] ∧
              ∀ x ∈ xs, x.isNone = false → P .expr (.sqlValue x)),
        (on && v.isStr) = false ∧ match v.iterate with
          | none => safeVal cx.backend.quote P v
          | some xs => xs ≠ [] ∧ ∀ x ∈ xs, x.isNone = false → P .expr (.sqlValue x) := by
      intro hv
      cases hi : v.iterate with
      | none =>
        rw [hi] at hv
        refine ⟨?_, hv⟩
        cases v <;> simp_all [Obj.iterate, Obj.isStr]
      | some xs => rw [hi] at hv; exact ⟨hv.1, hv.2⟩
    cases k with
    | in_ =>
      obtain ⟨hb, hv⟩ := inn hv
      simp only [condText, formatCond, condToks, hb, Bool.false_eq_true, if_false] at e ⊢
      exact rt_inCond hf ih hc hv (any_rfl hq) sepStart_blank (RT.fixed hq _ _ fixed_rfl rfl)
        sepStart_blank e
    | notIn =>
      obtain ⟨hb, hv⟩ := inn hv
      simp only [condText, formatCond, condToks, hb, Bool.false_eq_true, if_false] at e ⊢
      exact rt_inCond hf ih hc hv (any_rfl hq) sepStart_blank (RT.fixed hq _ _ fixed_rfl rfl)
        sepStart_blank e
    | _ => exact plain _ hv e

theorem rt_conj (hf : Fits cx d) (ih : Inner d S T P) {ps : List Cond} {ts : List Str}
    (hne : ps ≠ []) (h : safeConds cx.backend.quote P ps) (e : mapR (condText cx S) ps = .ok ts) :
    RT d (joinS L!" AND " ts) (conjToks cx d T ps) :=
  rt_join sepStart_blank (readsAny_and hf.known)
    (forall₂_of_mapR e fun p hp _ hu => rt_cond hf ih (h p hp) hu) (mapR_ne_nil e hne)

/-- A clause of parts with a keyword. -/
theorem rt_parts {α : Type} {kw : Str} {kt : List Tok} {sep dflt : Str} {st : List Tok}
    {f : α → R Str} {g : α → List Tok} {ps : List α} {t : Str}
    (hk : kw = [] ∧ kt = [] ∨ kw ≠ [] ∧ ReadsAny d (kw ++ [' ']) kt)
    (hs : SepStart sep) (hs' : ReadsAny d sep st) (hne : ps ≠ [])
    (h : ∀ p ∈ ps, ∀ u, f p = .ok u → RT d u (g p)) (e : partsText kw sep dflt f ps = .ok t) :
    RT d t (kt ++ joinT st (ps.map g)) := by
  unfold partsText at e
  rw [if_neg (by simpa using hne), bind_ok] at e
  obtain ⟨ts, e1, e⟩ := e
  injection e with e
  have hj := rt_join hs hs' (forall₂_of_mapR e1 h) (mapR_ne_nil e1 hne)
  rcases hk with ⟨rfl, rfl⟩ | ⟨hkn, hk⟩
  · simp only [List.isEmpty_nil, if_true] at e
    subst e; exact hj
  · rw [if_neg (by simpa using hkn)] at e
    subst e
    have := RT.pre hk hj
    simpa only [List.append_assoc, List.cons_append, List.nil_append] using this

theorem sepStart_comma : SepStart L!", " := ⟨_, _, rfl, Or.inr (Or.inl rfl)⟩

theorem rt_columns (hf : Fits cx d) (ih : Inner d S T P) {cs : List Column} {t : Str}
    (h : ∀ c ∈ cs, safeColumn cx.backend.quote P c) (e : columnsText cx S cs = .ok t) :
    RT d t (columnsToks cx T cs) := by
  have hq := hf.known
  unfold columnsToks
  cases cs with
  | nil => injection e with e; subst e; exact RT.fixed hq _ _ fixed_rfl rfl
  | cons c cs =>
    rw [if_neg (by simp)]
    exact rt_parts (kt := []) (Or.inl ⟨rfl, rfl⟩) sepStart_comma (readsAny_comma hq) (by simp)
      (fun p hp u hu => rt_column hf ih (h p hp) hu) e

theorem rt_orders (hf : Fits cx d) (ih : Inner d S T P) {kw : Str} {ks : List Str}
    (hk : kw ≠ [] ∧ ReadsAny d (kw ++ [' ']) (words ks)) {os : List Order} {t : Str}
    (h : ∀ o ∈ os, safeRef cx.backend.quote P o.col)
    (e : clause (!os.isEmpty) (ordersText cx S kw os) = .ok t) :
    ClauseR d t (ordersToks cx T ks os) := by
  have hq := hf.known
  refine clauseR_of e fun s hs e => ?_
  exact rt_parts (Or.inr hk) sepStart_comma (readsAny_comma hq) (by simpa using hs)
    (fun p hp u hu => rt_order hf ih (h p hp) hu) e

theorem rt_conds (hf : Fits cx d) (ih : Inner d S T P) {kw : Str} {ks : List Str}
    (hk : kw ≠ [] ∧ ReadsAny d (kw ++ [' ']) (words ks)) {ps : List Cond} {t : Str}
    (h : safeConds cx.backend.quote P ps) (e : clause (!ps.isEmpty) (condsText cx S kw ps) = .ok t) :
    ClauseR d t (condsToks cx d T ks ps) := by
  have hq := hf.known
  refine clauseR_of e fun s hs e => ?_
  exact rt_parts (Or.inr hk) sepStart_blank (readsAny_and hq) (by simpa using hs)
    (fun p hp u hu => rt_cond hf ih (h p hp) hu) e

theorem rt_assign (hf : Fits cx d) (ih : Inner d S T P) {v : Value} {t : Str}
    (h : safeAssign cx.backend.quote P v) (e : valueText cx S v = .ok t) :
    RT d t (assignToks cx d T v) := by
  have hq := hf.known
  cases v with
  | item o => exact h.elim
  | value col v =>
    simp only [valueText, bind_ok] at e
    obtain ⟨x, e1, y, e2, e⟩ := e
    injection e with e
    subst e
    have m : ReadsAny d L!" = " [.op L!"="] := any_rfl hq
    have := (rt_ref hf ih h.1 e1).mid (g := L!" = ") sepStart_blank m (rt_val hf ih h.2 e2)
    simpa only [assignToks, List.append_assoc, List.cons_append, List.nil_append] using this

theorem rt_assigns (hf : Fits cx d) (ih : Inner d S T P) {kw : Str} {kt : List Tok}
    (hk : kw = [] ∧ kt = [] ∨ kw ≠ [] ∧ ReadsAny d (kw ++ [' ']) kt) {vs : List Value} {t : Str}
    (h : ∀ v ∈ vs, safeAssign cx.backend.quote P v)
    (e : clause (!vs.isEmpty) (valuesText cx S kw vs) = .ok t) :
    ClauseR d t (assignsToks cx d T kt vs) := by
  have hq := hf.known
  refine clauseR_of e fun s hs e => ?_
  exact rt_parts hk sepStart_comma (readsAny_comma hq) (by simpa using hs)
    (fun p hp u hu => rt_assign hf ih (h p hp) hu) e

theorem readsAny_joinType (hq : d.Known) (k : JoinType) :
    ReadsAny d (k.text ++ [' ']) (joinTypeToks k) := by
  cases k <;> exact any_rfl hq

theorem rt_oneJoin (hf : Fits cx d) (ih : Inner d S T P) {j : Join} {t : Str}
    (h : safeJoin cx.backend.quote P j) (e : joinText cx S j = .ok t) :
    RT d t (joinToks cx d T j) := by
  have hq := hf.known
  unfold joinText at e
  rw [bind_ok] at e
  obtain ⟨x, e1, e⟩ := e
  have hx := rt_aliased hf ih h.1 e1
  have hk := readsAny_joinType hq j.type
  unfold joinToks
  cases ho : j.ons.isEmpty with
  | true =>
    rw [if_pos ho] at e
    injection e with e
    subst e
    have := RT.pre hk hx
    simpa [optToks] using this
  | false =>
    rw [if_neg (by simp [ho]), bind_ok] at e
    obtain ⟨y, e2, e⟩ := e
    injection e with e
    subst e
    have hy := rt_parts (kt := []) (Or.inl ⟨rfl, rfl⟩) sepStart_blank (readsAny_and hq)
      (by simpa using ho) (fun p hp u hu => rt_cond hf ih (h.2 p hp) hu) e2
    have m : ReadsAny d L!" ON " (words [L!"ON"]) := any_rfl hq
    have := RT.pre hk (hx.mid (g := L!" ON ") sepStart_blank m hy)
    simpa only [optToks, conjToks, Bool.not_false, if_true, List.append_assoc, List.cons_append, List.nil_append] using this

theorem joinS_blank_clause {ts : List Str} (h : ts ≠ []) :
    ' ' :: joinS [' '] ts = (ts.map fun t => ' ' :: t).flatten := by
  induction ts with
  | nil => exact absurd rfl h
  | cons t ts ih =>
    cases ts with
    | nil => simp [joinS]
    | cons t' ts' =>
      have := ih (by simp)
      simp only [joinS, List.map_cons, List.flatten_cons] at this ⊢
      rw [← this]; simp

theorem rt_table (hf : Fits cx d) (ih : Inner d S T P) {tb : Table} {t : Str}
    (h : safeTable cx.backend.quote P tb) (e : tableText cx S tb = .ok t) :
    RT d t (tableToks cx S d T tb) := by
  have hq := hf.known
  unfold tableText at e
  rw [bind_ok] at e
  obtain ⟨x, e1, e⟩ := e
  have hx := rt_aliased hf ih h.1 e1
  unfold tableToks keptJoins
  cases hj : tb.joins.isEmpty with
  | true =>
    rw [if_pos hj] at e
    injection e with e
    subst e
    have hn : tb.joins = [] := by simpa using hj
    rw [hn]
    have : minimizeJoins cx S [] = .ok [] := rfl
    rw [this]
    simpa using hx
  | false =>
    rw [if_neg (by simp [hj]), bind_ok] at e
    obtain ⟨js, e2, e⟩ := e
    rw [bind_ok] at e
    obtain ⟨ts, e3, e⟩ := e
    injection e with e
    subst e
    rw [e2]
    have hne : js ≠ [] := minimizeJoins_ne_nil cx S e2 (by simpa using hj)
    have hsafe : ∀ j ∈ js, safeJoin cx.backend.quote P j := by
      intro j hj'
      obtain ⟨j0, h0, a1, a2, a3⟩ := minimizeJoins_mem cx S e2 hj'
      have := h.2 j0 h0
      unfold safeJoin at this ⊢
      rw [a1, a2, a3]; exact this
    have hF : List.Forall₂ (RT d) ts (js.map (joinToks cx d T)) :=
      forall₂_of_mapR e3 fun j hj' u hu => rt_oneJoin hf ih (hsafe j hj') hu
    have : x ++ ' ' :: joinS [' '] ts = x ++ (ts.map fun t => ' ' :: t).flatten := by
      rw [joinS_blank_clause (mapR_ne_nil e3 hne)]
    rw [this]
    refine hx.clause hq ?_
    clear this e3
    revert hF
    simp only
    generalize js.map (joinToks cx d T) = us
    intro hF
    induction hF with
    | nil => exact clauseR_none
    | cons a _ ih => exact (clauseR_some a).append hq ih

theorem rt_tables (hf : Fits cx d) (ih : Inner d S T P) {kw : Str} {ks : List Str}
    (hk : kw = [] ∧ words ks = [] ∨ kw ≠ [] ∧ ReadsAny d (kw ++ [' ']) (words ks))
    {ts : List Table} {t : Str}
    (h : ∀ o ∈ ts, safeTable cx.backend.quote P o)
    (e : clause (!ts.isEmpty) (tablesText cx S kw ts) = .ok t) :
    ClauseR d t (tablesToks cx S d T ks ts) := by
  have hq := hf.known
  refine clauseR_of e fun s hs e => ?_
  exact rt_parts hk sepStart_comma (readsAny_comma hq) (by simpa using hs)
    (fun p hp u hu => rt_table hf ih (h p hp) hu) e

end

end SqlPuzzle
