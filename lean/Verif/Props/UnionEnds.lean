import Verif.Proofs.UnionEnds
import Verif.Props.Unions

/-!
C37: unions whose selects have `ORDER BY`, `LIMIT`, `INTO OUTFILE` or `FOR UPDATE`.
-/

namespace SqlPuzzle

open Spec

section
variable {cx : Ctx} {d : Dialect}

/-- C37 with `ORDER BY`, `LIMIT`, … in the last select: they apply to the rows of the whole expression, whose last
select is taken without them.  (So the last select does not keep its own limit: `C37_refuted_limit`.) -/
theorem C37_last_partial {Row : Type} (hf : Fits cx d) {sel : List Tok → Bag Row}
    {cut : List Tok → Bag Row → Bag Row} {leaf : Obj → Bag Row} (hc : ∀ b, cut [] b = b)
    (hl : LeafBag cx d sel cut leaf) {tr : UnionTree} (hr : tr.Regular) (ht : tr.OnlyLastTail) {n k : Nat} {t u : Str}
    (h : NoRaw cx.backend.quote .query tr.obj) (e : (sem cx n).str tr.obj = .ok t)
    (eu : (sem cx k).str (.select tr.last) = .ok u) :
    bagOf sel cut (lex d t) = cut (endOf (lex d u)) (tr.withoutTail.bag leaf) := by
  obtain ⟨N, hs, r⟩ := read_noRaw hf h e
  have h1 := safe_le (Nat.le_max_left N n) hs
  have h2 := ((sem_le cx (Nat.le_max_right N n)).str _).ok e
  obtain ⟨m, v, tail, a1, a2, a3, ⟨t', a4⟩, a5, a6, a7, _, _⟩ := ends_last hf tr _ t h1 h2 ht
  have huv : u = v := by
    have x := ((sem_le cx (Nat.le_max_left k m)).str _).ok eu
    have y := ((sem_le cx (Nat.le_max_right k m)).str _).ok a1
    rw [x] at y
    exact Except.ok.inj y
  subst huv
  have hq := union_quiet (d := d) a2 a3
  have f := hq.facts (w := L!"ORDER") (by decide)
  have hb := beforeAt_split _ tail 0 f.1
  rw [f.2, a7.before, List.append_nil] at hb
  obtain ⟨p1, p2⟩ := parts_union (d := d) tr.withoutTail _ a2 a3
  obtain ⟨l1, l2⟩ := leaf_bags hf hc hl tr.withoutTail _ a2 a3 ⟨t', a4⟩
  rw [r (max N n) (Nat.le_max_left _ _), a5, ← a6]
  have key := bagOf_parts (sel := sel) hc p1 p2
  rw [l1, l2, regular_fold leaf _ (withoutTail_regular hr), ← toks_union cx d _ _ a2] at key
  rw [← key]
  have hb' := beforeAt_split _ [] 0 f.1
  rw [f.2, List.append_nil] at hb'
  unfold bagOf
  rw [hb, hb']
  simp [beforeAt, hc]

/-- C37, which unions the databases accept: exactly those with `ORDER BY`, `LIMIT`, … in no select but the last. -/
theorem C37_accepted (hf : Fits cx d) {tr : UnionTree} {n : Nat} {t : Str}
    (h : NoRaw cx.backend.quote .query tr.obj) (e : (sem cx n).str tr.obj = .ok t) :
    unionAccepted (lex d t) ↔ tr.OnlyLastTail := by
  obtain ⟨N, hs, r⟩ := read_noRaw hf h e
  have h1 := safe_le (Nat.le_max_left N n) hs
  have h2 := ((sem_le cx (Nat.le_max_right N n)).str _).ok e
  rw [r (max N n) (Nat.le_max_left _ _)]
  unfold unionAccepted
  constructor
  · intro hu
    by_contra hn
    obtain ⟨A, B, C, k, k1, k2, k3, k4⟩ := ends_inside hf tr _ t h1 h2 hn
    rw [k, endOf_append k1 k3 _ fun x => absurd x k2] at hu
    have f := k4.facts (w := L!"UNION") (by decide)
    rw [clausesAt_split, f.2, clausesAt_hit (by decide)] at hu
    simp at hu
  · intro ho
    obtain ⟨m, v, tail, a1, a2, a3, a4, a5, a6, a7, a8, _⟩ := ends_last hf tr _ t h1 h2 ho
    have := endOf_append (union_quiet (d := d) a2 a3) a7 [] fun _ => rfl
    rw [List.append_nil] at this
    rw [a5, this]
    exact (a8.facts (w := L!"UNION") (by decide)).1

end

private def cx0 : Ctx := ⟨.sql, ⟨id, id, fun _ => true, fun _ => [], fun _ => []⟩⟩

private def from_ (s : Str) : UnionTree := .sel { tables := [⟨.str s, .none, []⟩] }

/-- `select_from(s).order_by('x').limit(3)` -/
private def cut_ (s : Str) : UnionTree :=
  .sel { tables := [⟨.str s, .none, []⟩], orderBy := [⟨.str L!"x", false⟩], limit := { limit := some 3 } }

/-- `(a & b) | c.order_by('x').limit(3)`: the limit of `c` is that of the union. -/
example {Row : Type} {sel : List Tok → Bag Row} {cut : List Tok → Bag Row → Bag Row} {leaf : Obj → Bag Row}
    (hc : ∀ b, cut [] b = b) (hl : LeafBag cx0 standardDialect sel cut leaf) :
    bagOf sel cut (lex standardDialect L!"SELECT * FROM \"a\" UNION ALL SELECT * FROM \"b\" UNION SELECT * FROM \"c\" ORDER BY \"x\" LIMIT 3") =
      cut [.word L!"ORDER", .word L!"BY", .ident L!"x", .word L!"LIMIT", .num L!"3"]
        (((leaf (from_ L!"a").obj).addAll (leaf (from_ L!"b").obj)).addDistinct (leaf (from_ L!"c").obj)) :=
  C37_last_partial (cx := cx0) (d := standardDialect) (tr := .distinct (.all (from_ L!"a") (from_ L!"b")) (cut_ L!"c")) rfl hc hl
    (by exact (rfl : (cut_ L!"c").endsDistinct = true))
    (by simp [from_, cut_, UnionTree.OnlyLastTail, UnionTree.NoTail, Select.NoTail]) (n := 7) (k := 7)
    (u := L!"SELECT * FROM \"c\" ORDER BY \"x\" LIMIT 3") ⟨7, by decide +kernel⟩ (by decide +kernel) (by decide +kernel)

/-- `a.order_by('x').limit(3) & b` is not accepted. -/
example : ¬ unionAccepted (lex standardDialect
    L!"SELECT * FROM \"a\" ORDER BY \"x\" LIMIT 3 UNION ALL SELECT * FROM \"b\"") := by
  rw [C37_accepted (cx := cx0) (d := standardDialect) (tr := .all (cut_ L!"a") (from_ L!"b")) (n := 7) rfl ⟨7, by decide +kernel⟩
    (by decide +kernel)]
  simp [from_, cut_, UnionTree.OnlyLastTail, UnionTree.NoTail, Select.NoTail]

end SqlPuzzle
