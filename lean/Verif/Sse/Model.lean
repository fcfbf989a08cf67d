import Verif.Path.Model
import Verif.Url.Model

/-!
# Server-sent events: the wire form

Model of `SSEMessage.to_wire` (/repo/lilya/contrib/sse/channels.py 21-62) and of
`EventStreamResponse._encode_event` (/repo/lilya/responses.py 930-963).  Texts are sequences of characters; the
UTF-8 encoding is left out.
-/

namespace Verif.Sse

open Verif

/-- The characters at which Python's `str.splitlines` breaks a line. -/
def pyBreak (c : Char) : Bool :=
  c.toNat ∈ [0x0a, 0x0b, 0x0c, 0x0d, 0x1c, 0x1d, 0x1e, 0x85, 0x2028, 0x2029]

/-- `str.splitlines` with the line read so far; `cr` says that the last character was a carriage return that
ended a line. -/
def splitlinesFrom (cr : Bool) (cur : Str) : Str → List Str
  | [] => if cur = [] then [] else [cur]
  | c :: s =>
    if cr = true ∧ c = '\n' then splitlinesFrom false cur s
    else if pyBreak c then cur :: splitlinesFrom (decide (c = '\r')) [] s
    else splitlinesFrom false (cur ++ [c]) s

/-- Python `str.splitlines()`. -/
def splitlines (s : Str) : List Str := splitlinesFrom false [] s

/-- `str(n)` of an integer.  Integers of more than 4300 digits, which Python refuses to print, are not set
apart. -/
def intText (n : Int) : Str := if n < 0 then '-' :: Path.natToDec n.natAbs else Path.natToDec n.natAbs

/-- `SSEMessage` (/repo/lilya/contrib/sse/channels.py 21-31).  The data is a text: data of any other type is
replaced by its JSON text first (channels.py 51-55). -/
structure Msg where
  data : Str
  event : Option Str
  id : Option Str
  retry : Option Int
  deriving DecidableEq

/-- A field that is written when the text is there and not empty (channels.py 43-46). -/
def optLine (name : Str) : Option Str → List Str
  | none => []
  | some v => if v = [] then [] else [name ++ ':' :: ' ' :: v]

/-- The `retry` field (channels.py 47-49). -/
def retryLine : Option Int → List Str
  | none => []
  | some n => ["retry".toList ++ ':' :: ' ' :: intText n]

/-- `splitlines() or [""]` (channels.py 58). -/
def dataLines (d : Str) : List Str := if splitlines d = [] then [[]] else splitlines d

/-- The lines of a message (channels.py 42-59). -/
def wireLines (m : Msg) : List Str :=
  optLine "event".toList m.event ++ optLine "id".toList m.id ++ retryLine m.retry ++
    (dataLines m.data).map fun l => "data".toList ++ ':' :: ' ' :: l

/-- `SSEMessage.to_wire` (/repo/lilya/contrib/sse/channels.py 33-62). -/
def toWire (m : Msg) : Str := ((wireLines m).map (· ++ ['\n'])).flatten ++ ['\n']

/-! ## `EventStreamResponse` -/

/-- The mapping given to `_encode_event`: the values as texts.  `retry` may be present with the value `None`. -/
structure EventDict where
  comment : Option Str
  id : Option Str
  event : Option Str
  data : Option Str
  retry : Option (Option Int)
  deriving DecidableEq

/-- A field of the mapping (/repo/lilya/responses.py 946-957). -/
def fieldLine (name : Str) : Option Str → List Str
  | none => []
  | some v => [name ++ ':' :: ' ' :: v]

/-- The retry value of an event: its own, else the default of the response when that is not zero
(/repo/lilya/responses.py 958-961). -/
def retryValue (dflt : Option Int) (e : EventDict) : Option Int :=
  match e.retry with
  | some r => r
  | none => if dflt = some 0 then none else dflt

/-- The lines of an event (/repo/lilya/responses.py 944-961). -/
def eventLines (dflt : Option Int) (e : EventDict) : List Str :=
  fieldLine [] e.comment ++ fieldLine "id".toList e.id ++ fieldLine "event".toList e.event ++
    fieldLine "data".toList e.data ++ retryLine (retryValue dflt e)

/-- `_encode_event` (/repo/lilya/responses.py 930-963) for a mapping. -/
def encodeEvent (sep : Str) (dflt : Option Int) (e : EventDict) : Str :=
  joinWith sep (eventLines dflt e) ++ sep ++ sep

end Verif.Sse
