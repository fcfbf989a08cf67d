import Verif.Json.Model

/-!
# Line-oriented streaming responses

Model of `StreamingResponse.stream`, `CSVResponse.stream` and `NDJSONResponse.stream`
(/repo/lilya/responses.py 543-553, 1397-1435, 1534-1572).  Bodies are texts before encoding in the charset.
-/

namespace Verif.LineStreams

open Verif

/-- A body message: its body and whether more follow. -/
structure Msg where
  body : Str
  more : Bool
  deriving DecidableEq

/-- The loop of `StreamingResponse.stream` (responses.py 543-553): a chunk is sent when the next one is there. -/
def streamLoop : Option Str → List Str → List Msg
  | last, [] => [⟨last.getD [], false⟩]
  | none, c :: cs => streamLoop (some c) cs
  | some l, c :: cs => ⟨l, true⟩ :: streamLoop (some c) cs

/-- `StreamingResponse.stream`. -/
def stream (chunks : List Str) : List Msg := streamLoop none chunks

/-- The loop of `NDJSONResponse.stream` (responses.py 1548-1572): a row is sent with its newline when the next one is
there; the last without. -/
def ndjsonLoop {R : Type} (enc : R → Str) : Option Str → List R → List Msg
  | some l, [] => [⟨l, false⟩]
  | none, [] => [⟨[], false⟩]
  | none, r :: rs => ndjsonLoop enc (some (enc r)) rs
  | some l, r :: rs => ⟨l ++ ['\n'], true⟩ :: ndjsonLoop enc (some (enc r)) rs

/-- `NDJSONResponse.stream` with `enc` for `json_encode`. -/
def ndjson {R : Type} (enc : R → Str) (rows : List R) : List Msg := ndjsonLoop enc none rows

/-- A row of a CSV response: a mapping, with `str` applied to its values. -/
abbrev Row := List (Str × Str)

/-- `','.join(str(last_row.get(h, '')) for h in headers)` (responses.py 1419, 1430). -/
def csvLine (headers : List Str) (row : Row) : Str := joinWith [','] (headers.map fun h => (aget row h).getD [])

/-- The loop of `CSVResponse.stream` (responses.py 1413-1435). -/
def csvLoop (headers : List Str) : Row → List Row → List Msg
  | last, [] => [⟨csvLine headers last, false⟩]
  | last, r :: rs => ⟨csvLine headers last ++ ['\n'], true⟩ :: csvLoop headers r rs

/-- `CSVResponse.stream` (responses.py 1397-1435).  `fresh` says that the content is an async iterable that starts
over when iterated again (the first row is taken from one iterator and the loop asks for another, 1399-1413); async
generators and all synchronous contents do not. -/
def csv (fresh : Bool) (rows : List Row) : List Msg :=
  match rows with
  | [] => [⟨[], false⟩]
  | r :: rs => ⟨joinWith [','] (r.map (·.1)) ++ ['\n'], true⟩ ::
    csvLoop (r.map (·.1)) r (if fresh then r :: rs else rs)

end Verif.LineStreams
