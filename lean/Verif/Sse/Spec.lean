import Verif.Sse.Model

/-!
# A standard event-stream client

The reading rules of the HTML standard, section "Interpreting an event stream".
-/

namespace Verif.Sse.Spec

open Verif

/-- The lines of a stream: they end with LF, CR or CR LF; an unfinished last line is ignored.  `cr` says that
the last character read was a CR. -/
def linesFrom (cr : Bool) (cur : Str) : Str → List Str
  | [] => []
  | c :: s =>
    if cr = true ∧ c = '\n' then linesFrom false cur s
    else if c = '\n' ∨ c = '\r' then cur :: linesFrom (decide (c = '\r')) [] s
    else linesFrom false (cur ++ [c]) s

/-- An event as the page gets it. -/
structure Event where
  type : Str
  data : Str
  lastId : Str
  deriving DecidableEq

/-- The buffers of the client, its reconnection time and the events given to the page. -/
structure Client where
  data : Str
  type : Str
  lastId : Str
  retry : Option Nat
  out : List Event
  deriving DecidableEq

/-- A client that has read nothing. -/
def Client.fresh : Client := ⟨[], [], [], none, []⟩

/-- At an empty line the event is given to the page, unless it has no data. -/
def Client.dispatch (c : Client) : Client :=
  if c.data = [] then { c with type := [] }
  else
    { c with
      data := [], type := [],
      out := c.out ++ [⟨if c.type = [] then "message".toList else c.type, c.data.dropLast, c.lastId⟩] }

/-- A field. -/
def Client.field (c : Client) (name value : Str) : Client :=
  if name = "event".toList then { c with type := value }
  else if name = "data".toList then { c with data := c.data ++ value ++ ['\n'] }
  else if name = "id".toList then (if Char.ofNat 0 ∈ value then c else { c with lastId := value })
  else if name = "retry".toList then
    (if value ≠ [] ∧ value.all Path.isDigit = true then { c with retry := some (Path.decVal value) } else c)
  else c

/-- One space after the colon is dropped. -/
def dropSpace : Str → Str
  | [] => []
  | c :: s => if c = ' ' then s else c :: s

/-- A line. -/
def Client.line (c : Client) (l : Str) : Client :=
  if l = [] then c.dispatch
  else if l.head? = some ':' then c
  else c.field (Url.partition ':' l).1 (dropSpace ((Url.partition ':' l).2.getD []))

/-- Reading a stream. -/
def read (s : Str) : Client := (linesFrom false [] s).foldl Client.line Client.fresh

/-! ## What the page should get -/

/-- No line break. -/
def OneLine (s : Str) : Prop := ∀ c ∈ s, c ≠ '\n' ∧ c ≠ '\r'

/-- The event that stands for a message, after the identifier `lastId`. -/
def eventOf (lastId : Str) (m : Msg) : Event :=
  ⟨(match m.event with
    | none => "message".toList
    | some n => n), m.data, m.id.getD lastId⟩

/-- The events for a sequence of messages. -/
def eventsOf (lastId : Str) : List Msg → List Event
  | [] => []
  | m :: ms => eventOf lastId m :: eventsOf (m.id.getD lastId) ms

/-- The event for a mapping: none without data; an empty name counts as none. -/
def responseEvent (lastId : Str) (e : EventDict) : List Event :=
  match e.data with
  | none => []
  | some d => [⟨if e.event.getD [] = [] then "message".toList else e.event.getD [], d, e.id.getD lastId⟩]

/-- The events for a sequence of mappings. -/
def responseEvents (lastId : Str) : List EventDict → List Event
  | [] => []
  | e :: es => responseEvent lastId e ++ responseEvents (e.id.getD lastId) es

/-- The last value present in a list. -/
def lastSome {α : Type} (l : List (Option α)) : Option α := (l.filterMap id).getLast?

/-- The separators a response accepts. -/
def Sep (sep : Str) : Prop := sep = ['\n'] ∨ sep = ['\r'] ∨ sep = ['\r', '\n']

/-- The data that survives: LF is the only line break in it and not the last character. -/
def PlainData (d : Str) : Prop := (∀ c ∈ d, pyBreak c = true → c = '\n') ∧ d.getLast? ≠ some '\n'

/-- Conditions on the fields of a message. -/
def Fields (m : Msg) : Prop :=
  (∀ n, m.event = some n → n ≠ [] ∧ OneLine n) ∧
    (∀ i, m.id = some i → i ≠ [] ∧ OneLine i ∧ Char.ofNat 0 ∉ i) ∧ (∀ r, m.retry = some r → 0 ≤ r)

/-- Conditions on the fields of an event. -/
def EFields (e : EventDict) : Prop :=
  (∀ v, e.comment = some v → OneLine v) ∧ (∀ v, e.id = some v → OneLine v ∧ Char.ofNat 0 ∉ v) ∧
    (∀ v, e.event = some v → OneLine v) ∧ (∀ v, e.data = some v → OneLine v)

end Verif.Sse.Spec
