import Verif.LineStreams.Model
import Verif.Json.Spec

/-!
# Specification of line-oriented streaming
-/

namespace Verif.LineStreams.Spec

open Verif Verif.LineStreams

/-- The whole body as the client receives it. -/
def whole (ms : List Msg) : Str := ms.flatMap (·.body)

/-- Exactly the last message is marked as final. -/
def OneFinal (ms : List Msg) : Prop := ∃ init l, ms = init ++ [l] ∧ l.more = false ∧ ∀ m ∈ init, m.more = true

/-- The lines of a text: an empty text has none. -/
def lines (s : Str) : List Str := if s = [] then [] else splitOn '\n' s

/-- Read newline-delimited JSON. -/
def readNdjson (s : Str) : List (Option Json.Json) := (lines s).map Json.Spec.readJson

/-- Read comma-separated values: the header fields and the fields of each row. -/
def readCsv (s : Str) : List (List Str) := (lines s).map (splitOn ',')

/-- A text that can stand in a field as it is. -/
def Field (s : Str) : Prop := ',' ∉ s ∧ '\n' ∉ s

end Verif.LineStreams.Spec
