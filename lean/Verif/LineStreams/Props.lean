import Verif.LineStreams.Lemmas

/-!
# C47: line-oriented streaming responses frame rows correctly

Full statement: a newline-delimited or CSV streaming response sends its rows in order separated by single newlines,
marks exactly the last message as final, and a reader recovers the rows.

It holds for newline-delimited JSON.  For CSV it fails when a value contains a comma or a newline (nothing is
quoted), and when the content is an async iterable that starts over, whose first row is sent twice.
-/

namespace Verif.LineStreams

open Verif Spec

/-- Plain streaming: the chunks in order, exactly the last message final. -/
theorem C47_stream (chunks : List Str) : OneFinal (stream chunks) ∧ whole (stream chunks) = chunks.flatMap id :=
  streamLoop_spec chunks none

/-- Newline-delimited rows: exactly the last message is final and the body is the rows separated by single
newlines, whatever the encoding of a row is. -/
theorem C47_ndjson_framing {R : Type} (enc : R → Str) (rows : List R) :
    OneFinal (ndjson enc rows) ∧ whole (ndjson enc rows) = joinWith ['\n'] (rows.map enc) := by
  cases rows with
  | nil => exact ⟨oneFinal_single _, rfl⟩
  | cons r rs => exact ndjsonLoop_spec enc rs (enc r)

/-- A reader of newline-delimited JSON recovers the rows, whatever values they are. -/
theorem C47_ndjson_recovered (exclude : Bool) (rows : List Json.Json) :
    readNdjson (whole (ndjson (Json.jsonEncode exclude) rows)) =
      rows.map fun r => some (if exclude then Json.excludeNone r else r) := by
  rw [(C47_ndjson_framing _ rows).2]
  unfold readNdjson
  have hl : lines (joinWith ['\n'] (rows.map (Json.jsonEncode exclude))) = rows.map (Json.jsonEncode exclude) := by
    unfold lines
    cases rows with
    | nil => rfl
    | cons r rs =>
      rw [List.map_cons, if_neg (joinWith_ne_nil (Json.jsonEncode exclude r) _ (json_ne_nil _))]
      refine splitOn_joinWith _ _ (by simp) ?_
      intro p hp
      rw [← List.map_cons, List.mem_map] at hp
      obtain ⟨v, -, rfl⟩ := hp
      intro hc
      exact absurd (Json.C50_one_line exclude v _ hc) (by decide)
  rw [hl, List.map_map]
  refine List.map_congr_left fun r _ => ?_
  cases exclude
  · exact Json.C50_roundtrip r
  · exact Json.C50_exclude r

example : (ndjson (Json.jsonEncode false) [.obj (.cons "a".toList (.int 1) .nil), .str "x\ny".toList]).map (·.more) =
      [true, false] ∧
    whole (ndjson (Json.jsonEncode false) [.obj (.cons "a".toList (.int 1) .nil), .str "x\ny".toList]) =
      "{\"a\":1}\n\"x\\ny\"".toList := by decide +kernel

/-- CSV framing, for every list of rows: exactly the last message is final; the body is the header line and one line
per row, separated by single newlines. -/
theorem C47_csv_framing (r : Row) (rs : List Row) :
    OneFinal (csv false (r :: rs)) ∧
      whole (csv false (r :: rs)) =
        joinWith ['\n'] (joinWith [','] (r.map (·.1)) :: (r :: rs).map (csvLine (r.map (·.1)))) := by
  obtain ⟨h1, h2⟩ := csvLoop_spec (r.map (·.1)) rs r
  refine ⟨oneFinal_cons _ h1, ?_⟩
  show joinWith [','] (r.map (·.1)) ++ ['\n'] ++ whole (csvLoop (r.map (·.1)) r rs) = _
  rw [h2]
  rfl

/-- An empty CSV response is one empty final message. -/
theorem C47_csv_empty (fresh : Bool) : csv fresh [] = [⟨[], false⟩] := rfl

/-- **Partial**: a reader recovers the columns and, for every row, the value of each column (empty where the row has
none) when names and values contain neither commas nor newlines and there is at least one column.  Missing: other
values (`C47_csv_comma_false`), async iterables that start over (`C47_csv_repeated_false`). -/
theorem C47_csv_recovered_partial (r : Row) (rs : List Row) (hr : r ≠ []) (hk : ∀ p ∈ r, Field p.1)
    (hv : ∀ row ∈ r :: rs, ∀ p ∈ row, Field p.2) :
    readCsv (whole (csv false (r :: rs))) =
      r.map (·.1) :: (r :: rs).map fun row => (r.map (·.1)).map fun h => (aget row h).getD [] := by
  rw [(C47_csv_framing r rs).2]
  have hkeys : r.map (·.1) ≠ [] := by simpa using hr
  have hkf : ∀ h ∈ r.map (·.1), Field h := by
    intro h hh
    obtain ⟨p, hp, rfl⟩ := List.mem_map.1 hh
    exact hk p hp
  have hget : ∀ row ∈ r :: rs, ∀ h, Field ((aget row h).getD []) := by
    intro row hrow h
    cases hg : aget row h with
    | none => exact ⟨by simp, by simp⟩
    | some v =>
      have : (h, v) ∈ row := by
        have aux : ∀ l : Row, aget l h = some v → (h, v) ∈ l := by
          intro l
          induction l with
          | nil => intro h; simp [aget] at h
          | cons p l ih =>
            intro hh
            obtain ⟨k, w⟩ := p
            unfold aget at hh
            split at hh
            · rename_i e; cases hh; rw [e]; exact List.mem_cons_self ..
            · exact List.mem_cons_of_mem _ (ih hh)
        exact aux row hg
      exact hv row hrow _ this
  have hl : lines (joinWith ['\n'] (joinWith [','] (r.map (·.1)) :: (r :: rs).map (csvLine (r.map (·.1))))) =
      joinWith [','] (r.map (·.1)) :: (r :: rs).map (csvLine (r.map (·.1))) := by
    unfold lines
    rw [if_neg]
    · refine splitOn_joinWith _ _ (by simp) ?_
      intro p hp
      rcases List.mem_cons.1 hp with h | h
      · rw [h]
        exact joinWith_not_mem (by decide) _ fun x hx => (hkf x hx).2
      · obtain ⟨row, hrow, rfl⟩ := List.mem_map.1 h
        refine joinWith_not_mem (by decide) _ fun x hx => ?_
        obtain ⟨k, -, rfl⟩ := List.mem_map.1 hx
        exact (hget row hrow k).2
    · intro e
      revert e
      rw [List.map_cons, joinWith]
      simp
  unfold readCsv
  rw [hl, List.map_cons, List.map_map]
  congr 1
  · exact splitOn_joinWith _ _ hkeys fun x hx => (hkf x hx).1
  · refine List.map_congr_left fun row hrow => ?_
    show splitOn ',' (csvLine (r.map (·.1)) row) = _
    refine splitOn_joinWith _ _ (by simpa using hr) ?_
    intro x hx
    obtain ⟨k, -, rfl⟩ := List.mem_map.1 hx
    exact (hget row hrow k).1

example : whole (csv false [[("a".toList, "1".toList), ("b".toList, [])], [("b".toList, "x".toList)]]) =
    "a,b\n1,\n,x".toList := by decide

/-- A comma in a value: the row reads back with one field too many.  A newline: as one row too many. -/
theorem C47_csv_comma_false :
    readCsv (whole (csv false [[("name".toList, "Doe, Jo".toList)]])) =
      [["name".toList], ["Doe".toList, " Jo".toList]] ∧
    readCsv (whole (csv false [[("name".toList, "a\nb".toList)]])) =
      [["name".toList], ["a".toList], ["b".toList]] := by decide

/-- A row with a column that the first row does not have loses it. -/
theorem C47_csv_extra_column_false :
    whole (csv false [[("a".toList, "1".toList)], [("a".toList, "2".toList), ("b".toList, "3".toList)]]) =
      "a\n1\n2".toList := by decide

/-- An async iterable that starts over has its first row sent twice. -/
theorem C47_csv_repeated_false (r : Row) (rs : List Row) :
    whole (csv true (r :: rs)) = whole (csv false (r :: r :: rs)) := rfl

end Verif.LineStreams
