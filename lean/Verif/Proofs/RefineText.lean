import Verif.Proofs.RefineCalls
import Verif.Proofs.Oracle

/-! A query that is called is also a value. -/

namespace SqlPuzzle.Refine
open SqlPuzzle SqlPuzzle.Spec

theorem part_is {h : Heap} {m : Mem} (hm : Sub m (cells h)) {v x f} (s : OwnPart h m v x f) :
    Is (cells h) v (.part x) := by
  cases s with
  | columns hp hl hx => exact .columnsPart hp hl (are_mono hm hx)
  | conds hp hl hx => exact .condsPart hp hl (are_mono hm hx)
  | orders hp hl hx => exact .ordersPart hp hl (each_are (g := .order) (fun _ _ _ h => order_is hm h) hx)
  | tables hp hl hx => exact .tablesPart hp hl (each_are (g := .table) (fun _ _ _ h => table_is hm h) hx)
  | values hp hl hx => exact .valuesPart hp hl (are_mono hm hx)
  | rows hp hl hx => exact .rowsPart hp hl (are_mono hm hx)
  | conflict hp hl hx hv => exact .conflictPart hp hl (are_mono hm hx) (is_mono hm hv)
  | limit hp => exact .limitPart hp
  | outfile hp ha hb hc hd =>
    exact .outfilePart hp (is_mono hm ha) (is_mono hm hb) (is_mono hm hc) (is_mono hm hd)
  | options hp hd => exact .optionsPart hp hd
  | flag hp => exact .flagPart hp

theorem holds_is {h : Heap} {q : Nat} {o : Obj} {own : List Nat} (H : Holds h q o own) :
    Is (cells h) (.ref q) (.obj o) := by
  obtain ⟨k, ps, more, d, refs, fs, ho, hq, hd, he, _⟩ := H.query
  refine .query ho hq hd ?_
  have := each_are (g := .part) (fun _ _ _ h => part_is (outside_cells own _) h) he
  rwa [List.map_map] at this

theorem queryParts_sql {o : Obj} {r} (h : queryParts o = some r) : o.isSql = true := (query_sql h).1

theorem holds_sql {h : Heap} {q : Nat} {o : Obj} {own : List Nat} (H : Holds h q o own) : o.isSql = true := by
  obtain ⟨k, ps, more, d, refs, fs, ho, _⟩ := H.query
  exact queryParts_sql ho

end SqlPuzzle.Refine
