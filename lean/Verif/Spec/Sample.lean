import Verif.Model.Heap
import Verif.Model.Render

/-!
A query in memory for examples: `SELECT 'x' FROM "t" WHERE "a" = 1 LIMIT 5`, of which the column is `V('x')`, a
cyclic object.
-/

namespace SqlPuzzle.Spec.Sample
open SqlPuzzle


/-- A string. -/
def s (x : Str) : Val := .atom (.str x)
/-- `None`. -/
def nil : Val := .atom .none

/-- The query is at address 0. -/
def query : Heap := [
  /- 0 -/ ⟨.lib .select, [.ref 1, .ref 2, .ref 3, .ref 4, .ref 5, .ref 6, .ref 7, .ref 8, .ref 9, .ref 10, .ref 11]⟩,
  /- 1 -/ ⟨.dict, [s L!"columns", .ref 2, s L!"group_by", .ref 3, s L!"having", .ref 4,
    s L!"into_outfile", .ref 5, s L!"limit", .ref 6, s L!"order_by", .ref 7,
    s L!"select_for_update", .ref 8, s L!"select_options", .ref 9, s L!"tables", .ref 10,
    s L!"where", .ref 11]⟩,
  /- 2 -/ ⟨.lib .columns, [.ref 12]⟩,
  /- 3 -/ ⟨.lib .groupBy, [.ref 13]⟩,
  /- 4 -/ ⟨.lib .having, [.ref 14]⟩,
  /- 5 -/ ⟨.lib .outfile, [nil, nil, nil, nil]⟩,
  /- 6 -/ ⟨.lib .limit, [.atom (.int 5), nil]⟩,
  /- 7 -/ ⟨.lib .orderBy, [.ref 15]⟩,
  /- 8 -/ ⟨.lib .forUpdate, [.atom (.bool false)]⟩,
  /- 9 -/ ⟨.lib .options, [.ref 16]⟩,
  /- 10 -/ ⟨.lib .tablesForSelect, [.ref 17]⟩,
  /- 11 -/ ⟨.lib .where_, [.ref 18]⟩,
  /- 12 -/ ⟨.lib .listOfParts, [s L!", ", .ref 22]⟩,
  /- 13 -/ ⟨.lib .listOfParts, [s L!", "]⟩,
  /- 14 -/ ⟨.lib .listOfParts, [s L!" AND "]⟩,
  /- 15 -/ ⟨.lib .listOfParts, [s L!", "]⟩,
  /- 16 -/ ⟨.dict, [s L!"sql_cache", s L!"off", s L!"duplicated", s L!"off", s L!"sql_small_result", s L!"off",
    s L!"sql_big_result", s L!"off", s L!"sql_buffer_result", s L!"off", s L!"sql_calc_found_rows", s L!"off",
    s L!"straight_join", s L!"off", s L!"high_priority", s L!"off"]⟩,
  /- 17 -/ ⟨.lib .listOfParts, [s L!", ", .ref 20]⟩,
  /- 18 -/ ⟨.lib .listOfParts, [s L!" AND ", .ref 19]⟩,
  /- 19 -/ ⟨.lib .condition, [s L!"a", .ref 26]⟩,
  /- 20 -/ ⟨.lib .table, [s L!"t", nil, .ref 21]⟩,
  /- 21 -/ ⟨.list, []⟩,
  /- 22 -/ ⟨.lib .column, [.ref 23, nil]⟩,
  /- 23 -/ ⟨.lib .sqlValue, [.ref 24, s L!"x"]⟩,
  /- 24 -/ ⟨.dict, [.atom (.opaque 0), .ref 25]⟩,
  /- 25 -/ ⟨.method, [.ref 23]⟩,
  /- 26 -/ ⟨.lib (.relation .eq), [.atom (.int 1)]⟩]

/-- The generic backend. -/
def cx0 : Ctx := ⟨.sql, ⟨id, id, fun _ => true, fun _ => [], fun _ => []⟩⟩

end SqlPuzzle.Spec.Sample
