import Verif.Proofs.TokensRead
import Verif.Proofs.Inserts

/-!
The text of a statement without raw SQL is read as its tokens.
-/

namespace SqlPuzzle

open Spec

section
variable {d : Dialect}

theorem RT.strip {t : Str} {ts : List Tok} {c : Char} {s : Str} (h : RT d t ts) (e : t = c :: s)
    (hc : isSpace c = false) : RT d (strip t) ts := by
  have : SqlPuzzle.strip t = t := by
    refine strip_eq_self ?_ ?_
    · intro x hx
      rw [e] at hx
      injection hx with hx
      rw [← hx]; exact hc
    · intro x hx
      obtain ⟨y, h1, h2⟩ := h.solid
      rw [h1] at hx
      injection hx with hx
      rw [← hx]; exact h2
  rw [this]; exact h

theorem strip_blank (s : Str) : strip (' ' :: s) = strip s := by
  unfold strip
  rw [List.dropWhile_cons, if_pos (show isSpace ' ' = true from rfl)]

theorem words_mem (o : SelectOptions) {w : Str} (h : w ∈ o.words) : w ∈ selectWords := by
  obtain ⟨c, dup, b1, b2, b3, b4, b5, b6⟩ := o
  simp only [SelectOptions.words, List.mem_append] at h
  rcases h with ((((((h | h) | h) | h) | h) | h) | h) | h
  · cases c <;> simp at h <;> subst h <;> decide
  · cases dup <;> simp at h <;> subst h <;> decide
  · cases b1 <;> simp at h; subst h; decide
  · cases b2 <;> simp at h; subst h; decide
  · cases b3 <;> simp at h; subst h; decide
  · cases b4 <;> simp at h; subst h; decide
  · cases b5 <;> simp at h; subst h; decide
  · cases b6 <;> simp at h; subst h; decide

theorem words_nodup (o : SelectOptions) : o.words.Nodup := by
  obtain ⟨c, dup, b1, b2, b3, b4, b5, b6⟩ := o
  cases c <;> cases dup <;> cases b1 <;> cases b2 <;> cases b3 <;> cases b4 <;> cases b5 <;>
    cases b6 <;> decide

theorem rt_selectWord (hq : d.Known) {w : Str} (h : w ∈ selectWords) : RT d w [.word w] := by
  simp only [selectWords, List.mem_cons, List.not_mem_nil, or_false] at h
  rcases h with rfl | rfl | rfl | rfl | rfl | rfl | rfl | rfl | rfl | rfl | rfl <;>
    exact RT.fixed hq _ _ fixed_rfl rfl

theorem joinT_nil_map (ws : List Str) : joinT [] (ws.map fun w => [Tok.word w]) = words ws := by
  induction ws with
  | nil => rfl
  | cons w ws ih =>
    cases ws with
    | nil => rfl
    | cons w' ws' =>
      simp only [List.map_cons, joinT, words] at ih ⊢
      rw [ih]; rfl

theorem rt_options (hq : d.Known) (o : SelectOptions) {t : Str}
    (e : clause (!o.words.isEmpty) (.ok (optionsText o.words)) = .ok t) :
    ClauseR d t (words (sortBy strLe o.words)) := by
  have hp := sortBy_perm strLe o.words
  have := clauseR_of (ts := words (sortBy strLe o.words)) (d := d) e ?_
  · cases hw : o.words.isEmpty with
    | false => rw [hw] at this; exact this
    | true =>
      rw [hw] at this
      have h0 : o.words = [] := by simpa using hw
      rw [h0]; exact this
  · intro s hs he
    injection he with he
    subst he
    rw [← joinT_nil_map]
    refine rt_join sepStart_blank (readsAny_blank hq) ?_ ?_
    · rw [List.forall₂_map_right_iff]
      refine List.forall₂_same.mpr fun w hw => rt_selectWord hq (words_mem o ?_)
      exact hp.mem_iff.mp hw
    · intro h0
      rw [h0] at hp
      have := hp.nil_eq
      rw [← this] at hs; simp at hs

theorem rt_limit (hq : d.Known) (l : LimitS) {t : Str}
    (e : clause l.isSet (.ok (limitText l)) = .ok t) :
    ClauseR d t (intOptToks [L!"LIMIT"] l.limit ++ intOptToks [L!"OFFSET"] l.offset) := by
  obtain ⟨a, b⟩ := l
  have hl : ReadsAny d L!"LIMIT " (words [L!"LIMIT"]) := any_rfl hq
  have ho : ReadsAny d L!"OFFSET " (words [L!"OFFSET"]) := any_rfl hq
  cases a with
  | none =>
    cases b with
    | none => injection e with e; subst e; exact clauseR_none
    | some o =>
      injection e with e; subst e
      have h : RT d (L!"OFFSET " ++ intText o) _ := RT.pre ho (rt_int hq o)
      exact clauseR_some h
  | some n =>
    cases b with
    | none =>
      injection e with e; subst e
      have h : RT d (L!"LIMIT " ++ intText n) _ := RT.pre hl (rt_int hq n)
      rw [show intOptToks [L!"OFFSET"] (none : Option Int) = [] from rfl, List.append_nil]
      exact clauseR_some h
    | some o =>
      injection e with e; subst e
      have h1 := RT.pre hl (rt_int hq n)
      have h2 := (RT.pre ho (rt_int hq o)).blank hq
      have h := h1.post sepStart_blank h2
      have e : L!"LIMIT " ++ intText n ++ ' ' :: (L!"OFFSET " ++ intText o) =
          L!"LIMIT " ++ intText n ++ ' ' :: L!"OFFSET " ++ intText o := by
        simp only [List.append_assoc, List.cons_append]
      rw [e] at h
      exact clauseR_some h

end

section
variable {cx : Ctx} {S : Sem} {d : Dialect} {T : Obj → List Tok} {P : Kind → Obj → Prop}

theorem rt_phrase (hf : Fits cx d) (ih : Inner d S T P) {kw : Str} {ks : List Str} {v : Option Obj}
    {t : Str} (hk : ReadsAny d kw (words ks)) (h : safeOpt cx.backend.quote P v)
    (e : outfilePhrase cx S (' ' :: kw) v = .ok t) : ClauseR d t (phraseToks cx d T ks v) := by
  cases v with
  | none => injection e with e; subst e; exact clauseR_none
  | some v =>
    simp only [outfilePhrase, bind_ok] at e
    obtain ⟨x, e1, e⟩ := e
    injection e with e
    subst e
    exact clauseR_some (RT.pre hk (rt_val hf ih h e1))

theorem rt_outfile (hf : Fits cx d) (ih : Inner d S T P) {o : Outfile} {t : Str}
    (h1 : safeOpt cx.backend.quote P o.file) (h2 : safeOpt cx.backend.quote P o.fields)
    (h3 : safeOpt cx.backend.quote P o.lines) (h4 : safeOpt cx.backend.quote P o.enclosed)
    (e : clause o.file.isSome (outfileText cx S o) = .ok t) :
    ClauseR d t (outfileToks cx d T o) := by
  have hq := hf.known
  refine clauseR_of e fun s hs e => ?_
  simp only [outfileText, bind_ok] at e
  obtain ⟨f, e1, a, e2, b, e3, c, e4, e⟩ := e
  injection e with e
  subst e
  cases hfile : o.file with
  | none => rw [hfile] at hs; cases hs
  | some v =>
    rw [hfile] at e1 h1
    have k : ReadsAny d L!"INTO OUTFILE " (words [L!"INTO", L!"OUTFILE"]) := any_rfl hq
    have r1 := RT.pre k (rt_val hf ih h1 e1)
    have r2 := rt_phrase (kw := L!"FIELDS TERMINATED BY ") hf ih
      (ks := [L!"FIELDS", L!"TERMINATED", L!"BY"]) (any_rfl hq) h2 e2
    have r3 := rt_phrase (kw := L!"LINES TERMINATED BY ") hf ih
      (ks := [L!"LINES", L!"TERMINATED", L!"BY"]) (any_rfl hq) h3 e3
    have r4 := rt_phrase (kw := L!"OPTIONALLY ENCLOSED BY ") hf ih
      (ks := [L!"OPTIONALLY", L!"ENCLOSED", L!"BY"]) (any_rfl hq) h4 e4
    have := ((r1.clause hq r2).clause hq r3).clause hq r4
    simpa only [phraseToks, List.append_assoc] using this

theorem rt_flag {b : Bool} {f : Str} {ws : List Str} {t : Str}
    (h : RT d f (words ws)) (e : clause b (.ok f) = .ok t) : ClauseR d t (optToks b (words ws)) := by
  refine clauseR_of e fun s _ e => ?_
  injection e with e; subst e; exact h

theorem rt_select (hf : Fits cx d) (ih : Inner d S T P) {q : Select} {t : Str}
    (h : safeSelect cx.backend.quote P q) (e : selectText cx S q = .ok t) :
    RT d t (selectToks cx S d T q) := by
  have hq := hf.known
  obtain ⟨g1, g2, g3, g4, g5, g6, g7, g8, g9, g10⟩ := h
  simp only [selectText, bind_ok] at e
  obtain ⟨x1, e1, x2, e2, x3, e3, x4, e4, x5, e5, x6, e6, x7, e7, x8, e8, x9, e9, x10, e10, e⟩ := e
  injection e with e
  subst e
  have r1 := clauseR_of (d := d) e1 fun s _ e => rt_columns (T := T) hf ih g1 e
  have r2 := rt_orders (ks := [L!"GROUP", L!"BY"]) hf ih ⟨by decide, any_rfl hq⟩ g4 e2
  have r3 := rt_conds (ks := [L!"HAVING"]) hf ih ⟨by decide, any_rfl hq⟩ g5 e3
  have r4 := rt_outfile hf ih g7 g8 g9 g10 e4
  have r5 := rt_limit hq _ e5
  have r6 := rt_orders (ks := [L!"ORDER", L!"BY"]) hf ih ⟨by decide, any_rfl hq⟩ g6 e6
  have r7 : ClauseR d x7 (optToks q.forUpdate (words [L!"FOR", L!"UPDATE"])) :=
    rt_flag (RT.fixed hq _ _ fixed_rfl rfl) e7
  have r8 := rt_options hq _ e8
  have r9 := rt_tables (ks := [L!"FROM"]) hf ih (Or.inr ⟨by decide, any_rfl hq⟩) g2 e9
  have r10 := rt_conds (ks := [L!"WHERE"]) hf ih ⟨by decide, any_rfl hq⟩ g3 e10
  have r0 : RT d L!"SELECT" [.word L!"SELECT"] := RT.fixed hq _ _ fixed_rfl rfl
  have key := (((((((((r0.clause hq r8).clause hq r1).clause hq r9).clause hq r10).clause hq
    r2).clause hq r3).clause hq r6).clause hq r5).clause hq r4).clause hq r7
  have key := key.strip (c := 'S') rfl rfl
  simpa only [selectToks, optToks, if_true, List.append_assoc, List.cons_append, List.nil_append]
    using key

theorem exists_map {α β : Type} {f : β → α} {xs : List α} (h : ∀ x ∈ xs, ∃ y, x = f y) :
    ∃ ys : List β, xs = ys.map f := by
  induction xs with
  | nil => exact ⟨[], rfl⟩
  | cons x xs ih =>
    obtain ⟨y, rfl⟩ := h x (by simp)
    obtain ⟨ys, rfl⟩ := ih fun z hz => h z (by simp [hz])
    exact ⟨y :: ys, rfl⟩

theorem safeRows_parts {q : Char} {rows : List (List Value)} (h : ∀ r ∈ rows, safeRow q P r) :
    ∃ rs : List Row, rows = rs.map rowOf := by
  apply exists_map
  intro r hr
  have := (h r hr).2
  clear hr
  obtain ⟨ys, e⟩ := exists_map (f := fun p : Str × Obj => (ValuePart.value (.str p.1) p.2 : Value))
    (xs := r) fun v hv => by
      obtain ⟨c, x, e, _⟩ := this v hv
      exact ⟨(c, x), e⟩
  exact ⟨ys, e⟩

theorem safe_lookup {q : Char} {r : List Value} (c : Str) (h : ∀ v ∈ r, ∃ c x, v = .value (.str c) x ∧
    SafeName q c ∧ safeVal q P x) : safeVal q P (lookupValue c r) := by
  induction r with
  | nil => trivial
  | cons v r ih =>
    have ih := ih fun w hw => h w (by simp [hw])
    obtain ⟨c', x, rfl, _, hx⟩ := h v (by simp)
    unfold lookupValue
    split
    · exact ih
    · split
      · exact hx
      · exact ih

theorem insertColumns_spec {q : Char} {rows : List (List Value)} (h : ∀ r ∈ rows, safeRow q P r)
    (hne : rows ≠ []) :
    allColumns rows = .ok (insertColumns rows) ∧ insertColumns rows ≠ [] ∧
      ∀ c ∈ insertColumns rows, SafeName q c := by
  obtain ⟨rs, rfl⟩ := safeRows_parts h
  obtain ⟨cols, e, hc⟩ := allColumns_spec rs
  have e' : insertColumns (rs.map rowOf) = cols := by unfold insertColumns; rw [e]
  rw [e']
  refine ⟨e, ?_, ?_⟩
  · obtain ⟨r, hr⟩ := List.exists_mem_of_ne_nil rs (by simpa using hne)
    have h1 := (h (rowOf r) (List.mem_map_of_mem hr)).1
    have h2 : r ≠ [] := by intro h0; rw [h0] at h1; exact h1 rfl
    obtain ⟨p, hp⟩ := List.exists_mem_of_ne_nil r h2
    exact List.ne_nil_of_mem ((hc.used p.1).mpr ⟨r, hr, p.2, hp⟩)
  · intro c hcm
    obtain ⟨r, hr, v, hv⟩ := (hc.used c).mp hcm
    obtain ⟨c', x, ev, hs, _⟩ := (h (rowOf r) (List.mem_map_of_mem hr)).2
      (.value (.str c) v) (List.mem_map_of_mem (f := fun p : Str × Obj =>
        (ValuePart.value (.str p.1) p.2 : Value)) hv)
    cases ev; exact hs

theorem rt_rows (hf : Fits cx d) (ih : Inner d S T P) {rows : List (List Value)} {t : Str}
    (h : ∀ r ∈ rows, safeRow cx.backend.quote P r)
    (e : clause (!rows.isEmpty) (rowsText cx S rows) = .ok t) :
    ClauseR d t (rowsToks cx d T rows) := by
  have hq := hf.known
  unfold rowsToks
  refine clauseR_of e fun s hs ev => ?_
  clear e
  obtain ⟨e0, hne, hsafe⟩ := insertColumns_spec h (by simpa using hs)
  generalize insertColumns rows = cols at e0 hne hsafe
  simp only [rowsText, e0, bind_ok] at ev
  clear e0
  obtain ⟨c', e1, ts, e2, e⟩ := ev
  injection e1 with e1
  subst e1
  injection e with e
  subst e
  have h1 : RT d (joinS L!", " (cols.map (reference cx.backend.quote)))
      (commas (cols.map fun c => refToks (refParts cx.backend.quote c))) := by
    refine rt_join sepStart_comma (readsAny_comma hq) ?_ (by simpa using hne)
    rw [List.forall₂_map_left_iff, List.forall₂_map_right_iff]
    exact List.forall₂_same.mpr fun c hc => rt_reference hf (hsafe c hc)
  have h2 : RT d (joinS L!", " (ts.map fun t => '(' :: (t ++ [')'])))
      (commas (rows.map (rowToks cx d T cols))) := by
    refine rt_join sepStart_comma (readsAny_comma hq) ?_ ?_
    · rw [List.forall₂_map_left_iff, List.forall₂_map_right_iff]
      replace e2 := mapR_ok_iff.mp e2
      clear hs
      induction e2 with
      | nil => exact .nil
      | @cons r u l1 l2 e' _ ih' =>
        refine .cons ?_ (ih' fun x hx => h x (by simp [hx]))
        simp only [rowText, if_neg (show ¬ cols.isEmpty = true by simpa using hne), bind_ok] at e'
        obtain ⟨us, e3, e4⟩ := e'
        injection e4 with e4
        subst e4
        rw [mapR_map] at e3
        exact rt_paren hq (rt_commas hq e3 hne fun c _ w hw =>
          rt_val hf ih (safe_lookup c (h r (by simp)).2) hw)
    · have := mapR_ne_nil e2 (by simpa using hs)
      simpa using this
  have m : ReadsAny d L!" VALUES " [.word L!"VALUES"] := any_rfl hq
  have := (rt_paren hq h1).mid (g := L!" VALUES ") sepStart_blank m h2
  have e5 : '(' :: (joinS L!", " (cols.map (reference cx.backend.quote)) ++ [')']) ++ (L!" VALUES " ++
      joinS L!", " (ts.map fun t => '(' :: (t ++ [')']))) =
      '(' :: (joinS L!", " (cols.map (reference cx.backend.quote)) ++ L!") VALUES " ++
        joinS L!", " (ts.map fun t => '(' :: (t ++ [')']))) := by
    simp only [List.cons_append, List.append_assoc, List.nil_append]
    rfl
  rw [← e5]
  exact this

theorem rt_insert (hf : Fits cx d) (ih : Inner d S T P) {q : Insert} {t : Str}
    (h : safeInsert cx.backend.quote P q) (e : insertText cx S q = .ok t) :
    RT d t (insertToks cx S d T q) := by
  have hq := hf.known
  obtain ⟨g1, g2, g3, g4, g5, _⟩ := h
  simp only [insertText, bind_ok] at e
  obtain ⟨x1, e1, x2, e2, x3, e3, x4, e4, x5, e5, x6, e6, e⟩ := e
  injection e with e
  subst e
  have r1 : ClauseR d x1 (optToks q.ignore (words [L!"IGNORE"])) :=
    rt_flag (RT.fixed hq _ _ fixed_rfl rfl) e1
  have r3 : ClauseR d x3 (assignsToks cx d T (words [L!"ON", L!"CONFLICT"] ++
        (paren (refToks (refParts cx.backend.quote (q.conflict.getD []))) ++
         words [L!"DO", L!"UPDATE"])) q.onConflict) := by
    by_cases hc : q.onConflict = []
    · rw [hc] at e3 ⊢
      injection e3 with e3; subst e3; exact clauseR_none
    · obtain ⟨_, c, hcc, hcs⟩ := g5 hc
      rw [hcc] at e3 ⊢
      refine rt_assigns hf ih (Or.inr ⟨?_, ?_⟩) g4 e3
      · unfold conflictKeyword
        exact List.append_ne_nil_of_left_ne_nil (List.append_ne_nil_of_left_ne_nil (by decide) _) _
      · have k : ReadsAny d L!"ON CONFLICT " (words [L!"ON", L!"CONFLICT"]) := any_rfl hq
        have k1 : ReadsAny d ['('] [.sym '('] := any_rfl hq
        have k2 : ReadsAny d L!") DO UPDATE " [.sym ')', .word L!"DO", .word L!"UPDATE"] :=
          any_rfl hq
        have kk := k.append (k1.append ((rt_reference hf hcs).reads.append_any
          (g := L!") DO UPDATE ") ⟨_, _, rfl, Or.inr (Or.inr rfl)⟩ k2))
        have e7 : conflictKeyword cx (some c) ++ [' '] = L!"ON CONFLICT " ++ (['('] ++
            (reference cx.backend.quote c ++ L!") DO UPDATE ")) := by
          unfold conflictKeyword
          simp only [List.append_assoc]
          rfl
        rw [e7]
        simpa only [Option.getD_some, paren, words, List.map_cons, List.map_nil, List.append_assoc,
          List.cons_append, List.nil_append] using kk
  have r4 := rt_assigns (kw := L!"ON DUPLICATE KEY UPDATE")
    (kt := words [L!"ON", L!"DUPLICATE", L!"KEY", L!"UPDATE"]) hf ih
    (Or.inr ⟨by decide, any_rfl hq⟩) g3 e4
  have r5 := rt_tables (ks := []) hf ih (Or.inl ⟨rfl, rfl⟩) g1 e5
  have r6 := rt_rows hf ih g2 e6
  have rI : ClauseR d L!" INTO" [.word L!"INTO"] :=
    clauseR_some (RT.fixed hq L!"INTO" _ fixed_rfl rfl)
  have e2' : x2 = ' ' :: (if q.isReplace then L!"REPLACE" else L!"INSERT") := by
    injection e2 with e2; exact e2.symm
  have r0 : RT d (if q.isReplace then L!"REPLACE" else L!"INSERT")
      [.word (if q.isReplace then L!"REPLACE" else L!"INSERT")] := by
    cases q.isReplace <;> exact RT.fixed hq _ _ fixed_rfl rfl
  have key := (((((r0.clause hq r1).clause hq rI).clause hq r5).clause hq r6).clause hq
    r4).clause hq r3
  have hd : ∃ c s, (if q.isReplace then L!"REPLACE" else L!"INSERT") ++ x1 ++ L!" INTO" ++ x5 ++ x6 ++
      x4 ++ x3 = c :: s ∧ isSpace c = false := by
    cases q.isReplace
    · exact ⟨'I', _, rfl, rfl⟩
    · exact ⟨'R', _, rfl, rfl⟩
  obtain ⟨c, s, hcs, hsp⟩ := hd
  have key := key.strip hcs hsp
  have e8 : x2 ++ x1 ++ L!" INTO" ++ x5 ++ x6 ++ x4 ++ x3 = ' ' ::
      ((if q.isReplace then L!"REPLACE" else L!"INSERT") ++ x1 ++ L!" INTO" ++ x5 ++ x6 ++ x4 ++ x3) := by
    rw [e2']; rfl
  rw [e8, strip_blank]
  simpa only [insertToks, List.append_assoc, List.cons_append, List.nil_append] using key

theorem rt_update (hf : Fits cx d) (ih : Inner d S T P) {q : Update} {t : Str}
    (h : safeUpdate cx.backend.quote P q) (e : updateText cx S q = .ok t) :
    RT d t (updateToks cx S d T q) := by
  have hq := hf.known
  obtain ⟨g1, g2, g3⟩ := h
  unfold updateText at e
  split at e
  · cases e
  simp only [bind_ok] at e
  obtain ⟨x1, e1, x2, e2, x3, e3, x4, e4, e⟩ := e
  injection e with e
  subst e
  have r2 : ClauseR d x2 (optToks q.ignore (words [L!"IGNORE"])) :=
    rt_flag (RT.fixed hq _ _ fixed_rfl rfl) e2
  have r1 := rt_tables (ks := []) hf ih (Or.inl ⟨rfl, rfl⟩) g1 e1
  have r3 := rt_assigns (kt := []) hf ih (Or.inl ⟨rfl, rfl⟩) g2 e3
  have r4 := rt_conds (ks := [L!"WHERE"]) hf ih ⟨by decide, any_rfl hq⟩ g3 e4
  have rS : ClauseR d L!" SET" [.word L!"SET"] := clauseR_some (RT.fixed hq L!"SET" _ fixed_rfl rfl)
  have r0 : RT d L!"UPDATE" [.word L!"UPDATE"] := RT.fixed hq _ _ fixed_rfl rfl
  have key := ((((r0.clause hq r2).clause hq r1).clause hq rS).clause hq r3).clause hq r4
  have key := key.strip (c := 'U') rfl rfl
  simpa only [updateToks, List.append_assoc, List.cons_append, List.nil_append] using key

theorem rt_delete (hf : Fits cx d) (ih : Inner d S T P) {q : Delete} {t : Str}
    (h : safeDelete cx.backend.quote P q) (e : deleteText cx S q = .ok t) :
    RT d t (deleteToks cx S d T q) := by
  have hq := hf.known
  obtain ⟨g1, g2, g3⟩ := h
  unfold deleteText at e
  split at e
  · cases e
  simp only [bind_ok] at e
  obtain ⟨x1, e1, x2, e2, x3, e3, x4, e4, e⟩ := e
  injection e with e
  subst e
  have r1 : ClauseR d x1 (optToks q.ignore (words [L!"IGNORE"])) :=
    rt_flag (RT.fixed hq _ _ fixed_rfl rfl) e1
  have r2 := rt_tables (ks := []) hf ih (Or.inl ⟨rfl, rfl⟩) g2 e2
  have r3 := rt_tables (ks := []) hf ih (Or.inl ⟨rfl, rfl⟩) g1 e3
  have r4 := rt_conds (ks := [L!"WHERE"]) hf ih ⟨by decide, any_rfl hq⟩ g3 e4
  have rS : ClauseR d L!" FROM" [.word L!"FROM"] :=
    clauseR_some (RT.fixed hq L!"FROM" _ fixed_rfl rfl)
  have r0 : RT d L!"DELETE" [.word L!"DELETE"] := RT.fixed hq _ _ fixed_rfl rfl
  have key := ((((r0.clause hq r1).clause hq r3).clause hq rS).clause hq r2).clause hq r4
  have key := key.strip (c := 'D') rfl rfl
  simpa only [deleteToks, List.append_assoc, List.cons_append, List.nil_append] using key

/-! ### Functions -/

theorem arg_plain (cx : Ctx) (S : Sem) (T : Obj → List Tok) (P : Kind → Obj → Prop) {a : Obj}
    (h : a.isListTuple = false) :
    safeArg cx.backend.quote P a = safeRef cx.backend.quote P a ∧ argToks cx T a = refToksOf cx T a ∧
      exprText cx S a = sqlRefText cx S a := by
  cases a <;> first | exact ⟨rfl, rfl, rfl⟩ | cases h

theorem rt_arg (hf : Fits cx d) (ih : Inner d S T P) {a : Obj} {t : Str}
    (h : safeArg cx.backend.quote P a) (e : exprText cx S a = .ok t) :
    RT d t (argToks cx T a) := by
  have hq := hf.known
  have multi : ∀ xs : List Obj, xs ≠ [] → (∀ x ∈ xs, safeRef cx.backend.quote P x) →
      (mapR (sqlRefText cx S) xs >>= fun ts => (.ok (joinS L!", " ts) : R Str)) = .ok t →
      RT d t (commas (xs.map (refToksOf cx T))) := by
    intro xs hne hx e
    rw [bind_ok] at e
    obtain ⟨ts, e1, e⟩ := e
    injection e with e
    subst e
    exact rt_commas hq e1 hne fun x hx' u hu => rt_ref hf ih (hx x hx') hu
  cases hl : a.isListTuple with
  | true =>
    cases a with
    | list xs => exact multi xs h.1 h.2 e
    | tuple xs => exact multi xs h.1 h.2 e
    | _ => cases hl
  | false =>
    obtain ⟨k1, k2, k3⟩ := arg_plain cx S T P hl
    rw [k1] at h; rw [k2]; rw [k3] at e
    exact rt_ref hf ih h e

end

end SqlPuzzle
