import Verif.Proofs.Answers
import Verif.Proofs.InList
import Verif.Proofs.JoinHistory
import Verif.Spec.Sources

/-!
The tables and joins that a server reads.
-/

namespace SqlPuzzle

open Spec

/-! ### Tokens of conditions -/

/-- The tokens that separate the tables of a statement. -/
def tableSeps : List Tok := [.sym ',', .word L!"JOIN", .word L!"ON"]

theorem tableSeps_breaks {s : Tok} (h : s ∈ tableSeps) : s ∈ breaks := by
  simp only [tableSeps, List.mem_cons, List.not_mem_nil, or_false] at h
  rcases h with rfl | rfl | rfl <;> decide

theorem whole_plain {s : Tok} {ss : List Tok} (hs : s ∈ ss) {r : List Tok}
    (hr : ∀ t ∈ r, t ≠ .sym '(' ∧ t ≠ .sym ')' ∧ t ∉ ss) : Whole s r := by
  induction r with
  | nil => exact whole_nil s
  | cons t r ih =>
    have ht := hr t (by simp)
    exact .cons ht.1 ht.2.1 (fun e => ht.2.2 (e ▸ hs)) (ih fun x hx => hr x (List.mem_cons_of_mem _ hx))

theorem whole_cond_sep {s : Tok} (hs : s ∈ tableSeps) {ts : List Tok} (h : G .cond ts) : Whole s ts := by
  have hb := tableSeps_breaks hs
  cases h with
  | compare h1 hr h2 =>
    refine (expr_facts hb h1).1.append (Whole.append ?_ (expr_facts hb h2).1)
    have key : ∀ r ∈ relations, ∀ t ∈ r, t ≠ .sym '(' ∧ t ≠ .sym ')' ∧ t ∉ tableSeps := by decide
    exact whole_plain hs (key _ hr)
  | test h => exact (expr_facts hb h).1
  | group h => exact whole_paren (g_built h trivial)
  | both h1 h2 => exact whole_paren (.append (g_built h1 trivial) (.cons (by decide) (g_built h2 trivial)))
  | either h1 h2 => exact whole_paren (.append (g_built h1 trivial) (.cons (by decide) (g_built h2 trivial)))
  | not h =>
    exact .cons (by simp) (by simp) (fun e => by rw [← e] at hs; revert hs; decide) (whole_paren (g_built h trivial))

theorem whole_conj_sep {s : Tok} (hs : s ∈ tableSeps) {ts : List Tok} (h : G .conj ts) : Whole s ts := by
  obtain ⟨xs, _, rfl, h1⟩ := conj_list h
  exact whole_joinT (fun x hx => whole_cond_sep hs (h1 x hx)) (by decide) (by decide)
    (fun e => by rw [← e] at hs; revert hs; decide)

/-- The words before `JOIN`. -/
def kindWords : List Str := [L!"LEFT", L!"RIGHT", L!"FULL"]

/-- The last token is no kind of a join. -/
def Kindless (ts : List Tok) : Prop := ∃ t, ts.getLast? = some t ∧ ∀ w ∈ kindWords, t ≠ .word w

theorem Kindless.append {ts us : List Tok} (h : Kindless us) : Kindless (ts ++ us) := by
  obtain ⟨t, h1, h2⟩ := h
  exact ⟨t, by rw [List.getLast?_append, h1]; rfl, h2⟩

theorem Kindless.cons {t : Tok} {us : List Tok} (h : Kindless us) : Kindless (t :: us) :=
  Kindless.append (ts := [t]) h

theorem kindless_paren {ts : List Tok} : Kindless (paren ts) := by
  refine ⟨.sym ')', ?_, by simp⟩
  have e : paren ts = (.sym '(' :: ts) ++ [.sym ')'] := by simp [paren]
  rw [e, List.getLast?_append]
  rfl

theorem kindless_one {t : Tok} (h : ∀ w ∈ kindWords, t ≠ .word w) : Kindless [t] := ⟨t, rfl, h⟩

theorem kindless_names : ∀ {ps : List Str}, ps ≠ [] → Kindless (refToks ps)
  | [], h => absurd rfl h
  | [p], _ => kindless_one (by unfold segmentTok; split <;> simp)
  | p :: p' :: ps, _ => (kindless_names (ps := p' :: ps) (by simp)).cons.cons

theorem kindless_expr {ts : List Tok} (h : G .expr ts) : Kindless ts := by
  cases h with
  | name h => exact kindless_names h
  | lit h => cases h <;> exact kindless_one (by first | decide | simp)
  | neg => exact (kindless_one (by simp)).cons
  | tuple h => exact kindless_paren
  | subquery h => exact kindless_paren
  | _ => exact kindless_paren.cons

theorem kindless_cond {ts : List Tok} (h : G .cond ts) : Kindless ts := by
  cases h with
  | compare h1 hr h2 => exact ((kindless_expr h2).append).append
  | test h => exact kindless_expr h
  | not h => exact kindless_paren.cons
  | _ => exact kindless_paren

theorem kindless_conj {ts : List Tok} (h : G .conj ts) : Kindless ts := by
  generalize hc : Cat.conj = c at h
  induction h with
  | conjOne h => exact kindless_cond h
  | conjMore h _ _ ih => exact (ih hc).append.append
  | _ => cases hc

/-! ### One table -/

theorem cutKind_none {ts : List Tok} (h : Kindless ts) : cutKind ts = (ts, []) := by
  obtain ⟨t, h1, h2⟩ := h
  unfold cutKind
  rw [if_neg]
  rw [h1]
  simp only [List.mem_cons, Option.some.injEq, List.not_mem_nil, or_false, not_or]
  exact ⟨h2 _ (by decide), h2 _ (by decide), h2 _ (by decide)⟩

theorem cutKind_word {ts : List Tok} {w : Str} (h : w ∈ kindWords) :
    cutKind (ts ++ [.word w]) = (ts, [.word w]) := by
  have e : (ts ++ [Tok.word w]).getLast? = some (.word w) := by simp
  unfold cutKind
  rw [e, if_pos, List.dropLast_concat]
  · rfl
  · clear e
    revert w
    decide

/-- The words before `JOIN` in a join. -/
theorem joinTypeToks_kind (ty : JoinType) : joinTypeToks ty = kindSeen ty ++ [.word L!"JOIN"] := by
  cases ty <;> rfl

theorem cutKind_kind {ts : List Tok} (h : Kindless ts) (ty : JoinType) :
    cutKind (ts ++ kindSeen ty) = (ts, kindSeen ty) := by
  cases ty with
  | inner => rw [kindSeen, List.append_nil, cutKind_none h]
  | _ => exact cutKind_word (by decide)

theorem whole_kind (ty : JoinType) {s : Tok} (hs : s ∈ tableSeps) : Whole s (kindSeen ty) :=
  whole_plain hs (by cases ty <;> decide)

section
variable {cx : Ctx} {S : Sem} {d : Dialect} {T : Obj → List Tok} {P : Kind → Obj → Prop} {V : Type}
  {sv : Server V} {src : Sources V} {column : Str → List Tok}

/-- The tokens of a named table. -/
theorem aliased_facts (ih : Phrases T P) {n a : Obj} (h : safeAliased cx.backend.quote P n a) :
    (∀ s ∈ tableSeps, Whole s (aliasedToks cx T n a)) ∧ Kindless (aliasedToks cx T n a) := by
  have h1 := g_ref ih h.1
  unfold aliasedToks
  cases hb : a.truthy with
  | false =>
    simp only [optToks, Bool.false_eq_true, if_false, List.append_nil]
    exact ⟨fun s hs => (expr_facts (tableSeps_breaks hs) h1).1, kindless_expr h1⟩
  | true =>
    have h2 := g_ref ih (h.2 hb)
    refine ⟨fun s hs => (expr_facts (tableSeps_breaks hs) h1).1.append ?_, (kindless_expr h2).cons.append⟩
    exact .cons (by decide) (by decide) (fun e => by rw [← e] at hs; revert hs; decide)
      (expr_facts (tableSeps_breaks hs) h2).1

/-- The tokens of a table that is joined, with its conditions. -/
def joinedToks (cx : Ctx) (d : Dialect) (T : Obj → List Tok) (j : Join) : List Tok :=
  aliasedToks cx T j.name j.alias ++ optToks (!j.ons.isEmpty) (words [L!"ON"] ++ conjToks cx d T j.ons)

theorem joined_facts (ih : Phrases T P) {j : Join} (h : safeJoin cx.backend.quote P j) :
    (∀ s ∈ [Tok.sym ',', .word L!"JOIN"], Whole s (joinedToks cx d T j)) ∧ Kindless (joinedToks cx d T j) := by
  have hsub : ∀ s ∈ [Tok.sym ',', .word L!"JOIN"], s ∈ tableSeps := by decide
  have h1 := aliased_facts ih h.1
  unfold joinedToks
  cases hb : j.ons.isEmpty with
  | true =>
    simp only [optToks, Bool.not_true, Bool.false_eq_true, if_false, List.append_nil]
    exact ⟨fun s hs => h1.1 s (hsub s hs), h1.2⟩
  | false =>
    have h2 : G .conj (conjToks cx d T j.ons) := g_conds ih (by intro e; rw [e] at hb; cases hb) h.2
    refine ⟨fun s hs => (h1.1 s (hsub s hs)).append ?_, (kindless_conj h2).cons.append⟩
    exact .cons (by decide) (by decide) (fun e => by rw [← e] at hs; revert hs; decide)
      (whole_conj_sep (hsub s hs) h2)

/-- The tokens after the first table, cut at `JOIN`: the kind of each join stands before. -/
def joinPieces (cx : Ctx) (d : Dialect) (T : Obj → List Tok) : List Tok → List Join → List (List Tok)
  | ts, [] => [ts]
  | ts, j :: js => (ts ++ kindSeen j.type) :: joinPieces cx d T (joinedToks cx d T j) js

theorem joinToks_eq (j : Join) : joinToks cx d T j = kindSeen j.type ++ (.word L!"JOIN" :: joinedToks cx d T j) := by
  unfold joinToks joinedToks
  rw [joinTypeToks_kind]
  simp

theorem pieces_joins (ih : Phrases T P) {js : List Join} (h : ∀ j ∈ js, safeJoin cx.backend.quote P j)
    {ts : List Tok} (ht : Whole (.word L!"JOIN") ts) :
    pieces (.word L!"JOIN") (ts ++ (js.map (joinToks cx d T)).flatten) = joinPieces cx d T ts js := by
  induction js generalizing ts with
  | nil =>
    simp only [List.map_nil, List.flatten_nil, List.append_nil]
    exact ht.one
  | cons j js ih' =>
    have hj := (joined_facts (d := d) ih (h j (by simp))).1 (.word L!"JOIN") (by decide)
    have e : ts ++ ((j :: js).map (joinToks cx d T)).flatten =
        (ts ++ kindSeen j.type) ++ (.word L!"JOIN" :: (joinedToks cx d T j ++ (js.map (joinToks cx d T)).flatten)) := by
      simp [joinToks_eq]
    rw [e, (ht.append (whole_kind j.type (by decide))).cut (by decide) (by decide),
      ih' (fun k hk => h k (by simp [hk])) hj]
    rfl

theorem whole_joins (ih : Phrases T P) {js : List Join} (h : ∀ j ∈ js, safeJoin cx.backend.quote P j) :
    Whole (.sym ',') (js.map (joinToks cx d T)).flatten := by
  induction js with
  | nil => exact whole_nil _
  | cons j js ih' =>
    rw [List.map_cons, List.flatten_cons, joinToks_eq]
    refine Whole.append ((whole_kind j.type (by decide)).append (.cons (by decide) (by decide) (by decide) ?_))
      (ih' fun k hk => h k (by simp [hk]))
    exact (joined_facts ih (h j (by simp))).1 _ (by decide)

/-- What a join asks for in terms of its tokens. -/
def joinRead (sv : Server V) (src : Sources V) (cx : Ctx) (d : Dialect) (T : Obj → List Tok)
    (rows : List (Tuple V)) (j : Join) : List (Tuple V) :=
  src.join (kindSeen j.type) rows (tableRows src (aliasedToks cx T j.name j.alias))
    (if j.ons = [] then fun _ => true else fun row => truth (sv.predicate row) (conjToks cx d T j.ons) = .t)

theorem joinRows_step (ih : Phrases T P) {j : Join} (h : safeJoin cx.backend.quote P j) (rows : List (Tuple V))
    (ty : JoinType) (ps : List (List Tok)) :
    joinRows sv src rows (kindSeen j.type) ((joinedToks cx d T j ++ kindSeen ty) :: ps) =
      joinRows sv src (joinRead sv src cx d T rows j) (kindSeen ty) ps := by
  have hk := (joined_facts (d := d) ih h).2
  have ha := (aliased_facts ih h.1).1 (.word L!"ON") (by decide)
  conv => lhs; unfold joinRows
  rw [cutKind_kind hk]
  unfold joinRead
  cases ho : j.ons with
  | nil =>
    have e : joinedToks cx d T j = aliasedToks cx T j.name j.alias := by
      simp [joinedToks, ho, optToks]
    simp only [e, ha.one, if_true]
  | cons c cs =>
    have h2 : G .conj (conjToks cx d T j.ons) := g_conds ih (by rw [ho]; simp) h.2
    have e : joinedToks cx d T j = aliasedToks cx T j.name j.alias ++ (.word L!"ON" :: conjToks cx d T j.ons) := by
      simp [joinedToks, ho, optToks, words]
    have hp : pieces (.word L!"ON") (joinedToks cx d T j) =
        [aliasedToks cx T j.name j.alias, conjToks cx d T j.ons] := by
      rw [e, ha.cut (by decide) (by decide), (whole_conj_sep (by decide) h2).one]
    simp only [hp, ← ho]
    rw [if_neg (by rw [ho]; simp)]

theorem joinRows_pieces (ih : Phrases T P) {js : List Join} {j : Join} (h : ∀ k ∈ j :: js, safeJoin cx.backend.quote P k)
    (rows : List (Tuple V)) :
    joinRows sv src rows (kindSeen j.type) (joinPieces cx d T (joinedToks cx d T j) js) =
      (j :: js).foldl (joinRead sv src cx d T) rows := by
  induction js generalizing rows j with
  | nil =>
    have := joinRows_step (sv := sv) (src := src) (d := d) ih (h j (by simp)) rows .inner []
    rw [kindSeen, List.append_nil] at this
    exact this
  | cons k js ih' =>
    exact (joinRows_step ih (h j (by simp)) rows k.type _).trans
      (ih' (fun x hx => h x (List.mem_cons_of_mem _ hx)) _)

theorem itemRows_table (ih : Phrases T P) {t : Table} (h1 : safeAliased cx.backend.quote P t.name t.alias)
    {js : List Join} (h2 : ∀ j ∈ js, safeJoin cx.backend.quote P j) :
    itemRows sv src (aliasedToks cx T t.name t.alias ++ (js.map (joinToks cx d T)).flatten) =
      js.foldl (joinRead sv src cx d T) (tableRows src (aliasedToks cx T t.name t.alias)) := by
  have ha := aliased_facts ih h1
  unfold itemRows
  rw [pieces_joins ih h2 (ha.1 _ (by decide))]
  cases js with
  | nil =>
    have := cutKind_none ha.2
    simp only [joinPieces, this]
    rfl
  | cons j js =>
    simp only [joinPieces, cutKind_kind ha.2]
    exact joinRows_pieces ih h2 _

/-- A named table and its label. -/
theorem tableRows_named {n a : Obj} (hn : ∃ s, n = .str s) (ha : a = .none ∨ ∃ s, a = .str s)
    (hc : ∀ s, n = .str s ∨ a = .str s ∧ s ≠ [] → column s = refToks (refParts cx.backend.quote s)) :
    tableRows src (aliasedToks cx T n a) = tableSeen src column n a := by
  obtain ⟨s, rfl⟩ := hn
  have e1 := hc s (.inl rfl)
  have plain : tableRows src (refToks (refParts cx.backend.quote s)) = src.table (column s) (column s) := by
    unfold tableRows
    rw [(whole_ref _).one, e1]
  have none : ∀ a : Obj, a.truthy = false →
      aliasedToks cx T (.str s) a = refToks (refParts cx.backend.quote s) := by
    intro a h
    simp [aliasedToks, h, optToks, refToksOf]
  rcases ha with rfl | ⟨u, rfl⟩
  · rw [none _ rfl]
    exact plain
  · cases u with
    | nil =>
      rw [none _ rfl]
      exact plain
    | cons c cs =>
      have e2 := hc (c :: cs) (.inr ⟨rfl, by simp⟩)
      have e : aliasedToks cx T (.str s) (.str (c :: cs)) =
          refToks (refParts cx.backend.quote s) ++ (.word L!"AS" :: refToks (refParts cx.backend.quote (c :: cs))) := rfl
      unfold tableRows
      rw [e, (whole_ref _).cut (by decide) (by decide), (whole_ref _).one]
      show src.table _ _ = src.table (column s) (column (c :: cs))
      rw [e1, e2]

end

/-! ### The tables given -/

namespace JoinHistory

open Classical

theorem joinsGiven_names (es : List TableEvent) : (joinsGiven es).map joinNamed = joinedTables es := by
  induction es with
  | nil => rfl
  | cons e es ih => cases e <;> simp [joinsGiven, joinedTables, joinNamed, ih]

theorem onsUntilJoin_mem {es : List TableEvent} {c : Cond} (h : c ∈ onsUntilJoin es) :
    ∃ ps, .on ps ∈ es ∧ c ∈ onsOf ps := by
  induction es with
  | nil => cases h
  | cons e es ih =>
    cases e with
    | join ty n al => cases h
    | on ps =>
      rcases List.mem_append.mp h with h | h
      · exact ⟨ps, by simp, h⟩
      · obtain ⟨ps', h1, h2⟩ := ih h
        exact ⟨ps', List.mem_cons_of_mem _ h1, h2⟩
    | _ =>
      obtain ⟨ps', h1, h2⟩ := ih h
      exact ⟨ps', List.mem_cons_of_mem _ h1, h2⟩

theorem firsts_sub {α : Type} {same : α → α → Bool} {xs : List α} {x : α} (h : x ∈ firsts same xs) : x ∈ xs := by
  induction xs with
  | nil => cases h
  | cons y ys ih =>
    rcases List.mem_cons.mp h with rfl | h
    · simp
    · exact List.mem_cons_of_mem _ (ih (List.mem_filter.mp h).1)

theorem joinsGiven_ons {es : List TableEvent} {j : Join} (h : j ∈ joinsGiven es) {c : Cond} (hc : c ∈ j.ons) :
    ∃ ps, .on ps ∈ es ∧ c ∈ onsOf ps := by
  induction es with
  | nil => cases h
  | cons e es ih =>
    have tail : j ∈ joinsGiven es → ∃ ps, .on ps ∈ e :: es ∧ c ∈ onsOf ps := fun h => by
      obtain ⟨ps', h1, h2⟩ := ih h
      exact ⟨ps', List.mem_cons_of_mem _ h1, h2⟩
    cases e with
    | join ty n al =>
      rcases List.mem_cons.mp h with rfl | h
      · obtain ⟨ps', h1, h2⟩ := onsUntilJoin_mem (firsts_sub hc)
        exact ⟨ps', List.mem_cons_of_mem _ h1, h2⟩
      · exact tail h
    | _ => exact tail h

theorem untilTable_sub (es : List TableEvent) : (untilTable es).Sublist es := by
  induction es with
  | nil => exact .slnil
  | cons e es ih =>
    cases e with
    | tables ps =>
      cases ps with
      | nil => exact ih.cons_cons _
      | cons p ps => exact List.nil_sublist _
    | _ => exact ih.cons_cons _

theorem joinedTables_sub {es es' : List TableEvent} (h : es.Sublist es') :
    (joinedTables es).Sublist (joinedTables es') := by
  induction h with
  | slnil => exact .slnil
  | cons a _ ih => cases a <;> first | exact ih | exact ih.cons _
  | cons_cons a _ ih => cases a <;> first | exact ih | exact ih.cons_cons _

theorem givenTogether_mem {ps : List (Obj × Obj)} {js : List Join} {t : Table} (h : t ∈ givenTogether ps js) :
    named t ∈ ps ∧ (t.joins = [] ∨ t.joins = js) := by
  induction ps with
  | nil => cases h
  | cons p ps ih =>
    cases ps with
    | nil =>
      cases List.mem_singleton.mp h
      exact ⟨by simp [named], .inr rfl⟩
    | cons q ps =>
      rcases List.mem_cons.mp h with rfl | h
      · exact ⟨by simp [named], .inl rfl⟩
      · exact ⟨List.mem_cons_of_mem _ (ih h).1, (ih h).2⟩

/-- Where the tables and their joins come from. -/
theorem tablesGiven_mem {es : List TableEvent} {t : Table} (h : t ∈ tablesGiven es) :
    named t ∈ listedTables es ∧ (t.joins.map joinNamed).Sublist (joinedTables es) ∧
    ∀ j ∈ t.joins, ∀ c ∈ j.ons, ∃ ps, .on ps ∈ es ∧ c ∈ onsOf ps := by
  induction es with
  | nil => cases h
  | cons e es ih =>
    have tail : t ∈ tablesGiven es → named t ∈ listedTables (e :: es) ∧
        (t.joins.map joinNamed).Sublist (joinedTables (e :: es)) ∧
        ∀ j ∈ t.joins, ∀ c ∈ j.ons, ∃ ps, .on ps ∈ e :: es ∧ c ∈ onsOf ps := fun h => by
      obtain ⟨h1, h2, h3⟩ := ih h
      refine ⟨?_, ?_, fun j hj c hc => ?_⟩
      · rw [listedTables_cons]; exact List.mem_append_right _ h1
      · rw [joinedTables_cons]; exact h2.trans (List.sublist_append_right _ _)
      · obtain ⟨ps, h1, h2⟩ := h3 j hj c hc
        exact ⟨ps, List.mem_cons_of_mem _ h1, h2⟩
    cases e with
    | tables ps =>
      rcases List.mem_append.mp h with h | h
      · obtain ⟨h1, h2⟩ := givenTogether_mem h
        refine ⟨List.mem_append_left _ h1, ?_⟩
        rcases h2 with h2 | h2
        · rw [h2]; exact ⟨List.nil_sublist _, by simp⟩
        · rw [h2, joinsGiven_names]
          refine ⟨(joinedTables_sub (untilTable_sub es) : List.Sublist _ (joinedTables es)), fun j hj c hc => ?_⟩
          obtain ⟨ps', h3, h4⟩ := joinsGiven_ons hj hc
          exact ⟨ps', List.mem_cons_of_mem _ ((untilTable_sub es).subset h3), h4⟩
      · exact tail h
    | _ => exact tail h

theorem tablesGiven_ne {es : List TableEvent} (h : listedTables es ≠ []) : tablesGiven es ≠ [] := by
  induction es with
  | nil => exact absurd rfl h
  | cons e es ih =>
    cases e with
    | tables ps =>
      cases ps with
      | nil => exact ih h
      | cons p ps => cases ps <;> simp [tablesGiven, givenTogether]
    | _ => exact ih h

/-! ### What was asked for, and what is given -/

section
variable {V : Type} {src : Sources V} {column : Str → List Tok} {holds : Tuple V → Obj → Tri}

/-- A comparison in `on` is as true as its mirror image. -/
theorem mirror_seen {cx : Ctx} {d : Dialect} {sv : Server V} (hf : Fits cx d) (hh : ConditionsSeen cx d sv holds)
    (hm : MirrorsAgree sv) {n : Nat} {a b : Cond} (h : safeCond cx.backend.quote (Safe cx.backend.quote n) a)
    (e : mirror a = some b) (row : Tuple V) : holds row (.conds [a]) = holds row (.conds [b]) := by
  have key : ∀ (s t : Str) (k : Rel) (r : Str), SafeName cx.backend.quote s → SafeName cx.backend.quote t →
      (k, r) ∈ [(Rel.eq, L!"="), (.ne, L!"!="), (.lt, L!"<"), (.gt, L!">"), (.le, L!"<="), (.ge, L!">=")] →
      holds row (.conds [.cond true (.str s) k (.str t)]) = sv.predicate row (refToks (refParts cx.backend.quote s) ++
        .op r :: refToks (refParts cx.backend.quote t)) := by
    intro s t k r hs ht hk
    have hc : safeCond cx.backend.quote (Safe cx.backend.quote n) (.cond true (.str s) k (.str t)) := by
      simp only [List.mem_cons, Prod.mk.injEq, List.not_mem_nil, or_false] at hk
      rcases hk with ⟨rfl, _⟩ | ⟨rfl, _⟩ | ⟨rfl, _⟩ | ⟨rfl, _⟩ | ⟨rfl, _⟩ | ⟨rfl, _⟩ <;> exact ⟨hs, ht⟩
    have et : ∃ u, condText cx (sem cx n) (.cond true (.str s) k (.str t)) = .ok u := by
      simp only [List.mem_cons, Prod.mk.injEq, List.not_mem_nil, or_false] at hk
      rcases hk with ⟨rfl, _⟩ | ⟨rfl, _⟩ | ⟨rfl, _⟩ | ⟨rfl, _⟩ | ⟨rfl, _⟩ | ⟨rfl, _⟩ <;> exact ⟨_, rfl⟩
    rw [← leaf_toks hf (hh row) hc et]
    have e : condToks cx d (toks cx d n) (.cond true (.str s) k (.str t)) =
        refToks (refParts cx.backend.quote s) ++ .op r :: refToks (refParts cx.backend.quote t) := by
      simp only [List.mem_cons, Prod.mk.injEq, List.not_mem_nil, or_false] at hk
      rcases hk with ⟨rfl, rfl⟩ | ⟨rfl, rfl⟩ | ⟨rfl, rfl⟩ | ⟨rfl, rfl⟩ | ⟨rfl, rfl⟩ | ⟨rfl, rfl⟩ <;> rfl
    rw [e]
    exact truth_compare (.name (refParts_ne hs.1 hs.2)) (by simp)
      ⟨.cons (by simp) (by simp) (by simp) (whole_ref _), .cons (by simp) (by simp) (by simp) (whole_ref _)⟩ _
  unfold mirror at e
  split at e
  case h_7 => cases e
  all_goals cases e
  · rw [key _ _ _ L!"=" h.1 h.2 (by decide), key _ _ _ L!"=" h.2 h.1 (by decide)]
    exact (hm row _ _).1
  · rw [key _ _ _ L!"!=" h.1 h.2 (by decide), key _ _ _ L!"!=" h.2 h.1 (by decide)]
    exact (hm row _ _).2.1
  · rw [key _ _ _ L!"<" h.1 h.2 (by decide), key _ _ _ L!">" h.2 h.1 (by decide)]
    exact (hm row _ _).2.2.1
  · rw [key _ _ _ L!">" h.1 h.2 (by decide), key _ _ _ L!"<" h.2 h.1 (by decide)]
    exact (hm row _ _).2.2.1.symm
  · rw [key _ _ _ L!"<=" h.1 h.2 (by decide), key _ _ _ L!">=" h.2 h.1 (by decide)]
    exact (hm row _ _).2.2.2
  · rw [key _ _ _ L!">=" h.1 h.2 (by decide), key _ _ _ L!"<=" h.2 h.1 (by decide)]
    exact (hm row _ _).2.2.2.symm

/-- Dropping conditions that repeat an earlier one changes nothing, if those kept are as true as their mirror
images. -/
theorem firsts_kept {truth : Cond → Prop} (cs : List Cond)
    (hm : ∀ a ∈ firsts (fun a b => decide (SameOn a b)) cs, ∀ b, mirror a = some b → (truth a ↔ truth b)) :
    (∀ c ∈ firsts (fun a b => decide (SameOn a b)) cs, truth c) ↔ ∀ c ∈ cs, truth c := by
  constructor
  · intro h
    have : ∀ c ∈ cs, ∃ a ∈ firsts (fun a b => decide (SameOn a b)) cs, SameOn a c := by
      clear h hm
      induction cs with
      | nil => simp
      | cons x xs ih =>
        intro c hc
        rcases List.mem_cons.mp hc with rfl | hc
        · exact ⟨c, List.mem_cons_self, .inl rfl⟩
        · obtain ⟨a, ha, hs⟩ := ih c hc
          by_cases hx : SameOn x a
          · exact ⟨x, List.mem_cons_self, sameOn_trans hx hs⟩
          · exact ⟨a, List.mem_cons_of_mem _ (List.mem_filter.mpr ⟨ha, by simp [hx]⟩), hs⟩
    intro c hc
    obtain ⟨a, ha, rfl | hs⟩ := this c hc
    · exact h _ ha
    · exact (hm a ha c hs).mp (h a ha)
  · intro h c hc
    exact h c (firsts_sub hc)

theorem foldl_joinsGiven (es : List TableEvent)
    (hm : ∀ j ∈ joinsGiven es, ∀ a ∈ j.ons, ∀ b row, mirror a = some b → holds row (.conds [a]) = holds row (.conds [b]))
    (rows : List (Tuple V)) :
    (joinsGiven es).foldl (joinSeen src column holds) rows = (joinsAsked es).foldl (joinSeen src column holds) rows := by
  induction es generalizing rows with
  | nil => rfl
  | cons e es ih =>
    cases e with
    | join ty n al =>
      rw [joinsGiven] at hm
      rw [joinsGiven, joinsAsked, List.foldl_cons, List.foldl_cons, ih fun j hj => hm j (List.mem_cons_of_mem _ hj)]
      congr 1
      unfold joinSeen
      congr 1
      funext row
      congr 1
      exact propext (firsts_kept _ fun a ha b h => by rw [hm _ List.mem_cons_self a ha b row h])
    | _ => exact ih hm rows

theorem givenTogether_seen {js js' : List Join}
    (h : ∀ rows, js.foldl (joinSeen src column holds) rows = js'.foldl (joinSeen src column holds) rows)
    (ps : List (Obj × Obj)) :
    (givenTogether ps js).map (sourceSeen src column holds) = (givenTogether ps js').map (sourceSeen src column holds) := by
  induction ps with
  | nil => rfl
  | cons p ps ih =>
    cases ps with
    | nil => exact congrArg (fun x => [x]) (h _)
    | cons q ps => exact congrArg (_ :: ·) ih

theorem givenTogether_last {ps : List (Obj × Obj)} (h : ps ≠ []) (js : List Join) :
    ∃ t ∈ givenTogether ps js, t.joins = js := by
  induction ps with
  | nil => exact absurd rfl h
  | cons p ps ih =>
    cases ps with
    | nil => exact ⟨_, List.mem_cons_self, rfl⟩
    | cons q ps =>
      obtain ⟨t, ht, e⟩ := ih (by simp)
      exact ⟨t, List.mem_cons_of_mem _ ht, e⟩

theorem sourcesSeen_given (es : List TableEvent)
    (hm : ∀ t ∈ tablesGiven es, ∀ j ∈ t.joins, ∀ a ∈ j.ons, ∀ b row, mirror a = some b →
      holds row (.conds [a]) = holds row (.conds [b])) :
    sourcesSeen src column holds (tablesGiven es) = sourcesSeen src column holds (tablesAsked es) := by
  unfold sourcesSeen
  congr 1
  induction es with
  | nil => rfl
  | cons e es ih =>
    cases e with
    | tables ps =>
      rw [tablesGiven] at hm
      rw [tablesGiven, tablesAsked, List.map_append, List.map_append, ih fun t ht => hm t (List.mem_append_right _ ht)]
      congr 1
      by_cases hp : ps = []
      · rw [hp]; rfl
      · obtain ⟨t, ht, e⟩ := givenTogether_last hp (joinsGiven (untilTable es))
        exact givenTogether_seen (foldl_joinsGiven _ (e ▸ hm t (List.mem_append_left _ ht))) ps
    | _ => exact ih hm

end

end JoinHistory

end SqlPuzzle
