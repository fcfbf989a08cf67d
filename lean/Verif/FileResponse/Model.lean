import Verif.Ranges.Model

/-!
# File responses

Model of `FileResponse` (/repo/lilya/responses.py 966-1244).  Bytes are characters.  The file does not
change while it is sent.  Of the headers only those that describe the body are represented.  The
subheader of a multipart response is represented by an arbitrary function of the range.
-/

namespace Verif.FileResponse

open Verif Verif.Path Verif.Ranges

/-- `range_multipart_boundary` (/repo/lilya/responses.py 984, 1003-1005): off, or on (given or made
from the time and the etag). -/
inductive Boundary where
  | off
  | on
  deriving DecidableEq

/-- The configuration of the response. -/
structure Conf where
  chunk : Nat
  allowRange : Bool
  boundary : Boundary
  etag : Str
  status : Nat

/-- The response object: status and headers, which persist when it is called again. -/
structure State where
  status : Nat
  contentLength : Option Int
  contentRange : Option Rng
  multipart : Bool
  deriving DecidableEq

/-- A new response (`__init__`, /repo/lilya/responses.py 970-1025). -/
def State.new (c : Conf) : State := ⟨c.status, none, none, false⟩

/-- The request: is it HEAD or OPTIONS, the headers `If-Range` and `Range` (empty when missing) and
the extensions of the server. -/
structure Req where
  headerOnly : Bool
  ifRange : Str
  range : Str
  pathsend : Bool
  zerocopy : Bool

/-- Messages sent: the start with the announced length, content range and whether it is a multipart
response; body messages; a count of bytes the server copies from the file; and the whole file
sent by the server. -/
inductive Msg where
  | start (status : Nat) (length : Int) (range : Option Rng) (multipart : Bool)
  | body (data : Str) (more : Bool)
  | zerocopy (data : Str) (more : Bool)
  | pathsend
  deriving DecidableEq

/-- What the call does. -/
inductive Outcome where
  | notSatisfiable
  | sent (msgs : List Msg) (st : State)
  deriving DecidableEq

/-- `set_stat_headers` (/repo/lilya/responses.py 1036-1044): `setdefault`. -/
def announce (file : Str) (st : State) : State :=
  match st.contentLength with
  | some _ => st
  | none => { st with contentLength := some file.length }

/-- The content length header as a number. -/
def State.length (st : State) : Int := st.contentLength.getD 0

/-- `get_content_ranges_and_multipart` (/repo/lilya/responses.py 1053-1066). -/
def contentRanges (c : Conf) (st : State) (range : Str) : Result :=
  parseRangeValue { maxRanges := some (if c.boundary = .off then 1 else 5) }
    [("bytes".toList, st.length - 1)] range

/-- What `set_range_headers` decides: nothing, or the ranges to send. -/
inductive Plan where
  | notSatisfiable
  | whole
  | ranges (rs : List Rng)
  deriving DecidableEq

/-- The single range from the first to the last position (/repo/lilya/responses.py 1094-1100). -/
def span : List Rng → Rng
  | [] => ⟨0, 0⟩
  | r :: rs => ⟨r.start, ((r :: rs).getLast (by simp)).stop⟩

/-- `set_range_headers` after the ranges are parsed (/repo/lilya/responses.py 1080-1106). -/
def setRanges (c : Conf) (st : State) (comma : Bool) (size : Int) (rs : List Rng) : Plan × State :=
  if rs = [] then (.whole, st)
  else if comma then
    if c.boundary = .off then (.whole, st)
    else (.ranges rs, { st with multipart := true, contentLength := some size, status := 206 })
  else if 1 < rs.length then
    (.ranges [span rs],
      { st with
        contentRange := some (span rs)
        contentLength := some ((span rs).stop - (span rs).start + 1)
        status := 206 })
  else
    (.ranges rs, { st with contentRange := rs.head?, contentLength := some size, status := 206 })

/-- `set_range_headers` (/repo/lilya/responses.py 1068-1106). -/
def setRangeHeaders (c : Conf) (st : State) (range : Str) : Plan × State :=
  match contentRanges c st range with
  | .ignored => (.whole, st)
  | .notSatisfiable => (.notSatisfiable, st)
  | .ranges size rs => setRanges c st (decide (',' ∈ range)) size rs

/-- `check_if_range` (/repo/lilya/responses.py 1046-1051). -/
def checkIfRange (c : Conf) (ifRange : Str) : Bool := ifRange = [] || ifRange = c.etag

/-- The decision about ranges in `__call__` (/repo/lilya/responses.py 1127-1128). -/
def plan (c : Conf) (st : State) (req : Req) : Plan × State :=
  if req.headerOnly = false ∧ c.allowRange = true ∧ checkIfRange c req.ifRange = true then
    setRangeHeaders c st req.range
  else (.whole, st)

/-- `file.read(count)` at a position. -/
def readAt (file : Str) (pos count : Nat) : Str := (file.drop pos).take count

/-- The `while more_chunks` loop (/repo/lilya/responses.py 1216-1229, 1172-1186); the first argument
bounds the number of rounds.  Returns the messages and the new position. -/
def chunks (mk : Str → Bool → Msg) (chunk : Nat) (sub : Bool) (file : Str) :
    Nat → Nat → Nat → List Msg × Nat
  | 0, _, pos => ([], pos)
  | fuel + 1, size, pos =>
    if chunk < size then
      let rest := chunks mk chunk sub file fuel (size - chunk) (pos + (readAt file pos chunk).length)
      (mk (readAt file pos chunk) true :: rest.1, rest.2)
    else ([mk (readAt file pos size) sub], pos + (readAt file pos size).length)

/-- The number of bytes of a range. -/
def sizeOf (r : Rng) : Nat := (r.stop - r.start + 1).toNat

/-- The loop over the ranges (/repo/lilya/responses.py 1156-1196, 1200-1239); `sub` is the subheader
of each range of a multipart response. -/
def sendRanges (mk : Str → Bool → Msg) (chunk : Nat) (sub : Option (Rng → Str)) (file : Str) :
    Int → Nat → List Rng → List Msg
  | _, _, [] => []
  | lastStop, pos, r :: rs =>
    let pos0 := if lastStop ≠ r.start then r.start.toNat else pos
    let head := match sub with
      | some f => [Msg.body (f r) true]
      | none => []
    let out := chunks mk chunk sub.isSome file (sizeOf r + 1) (sizeOf r) pos0
    head ++ out.1 ++ sendRanges mk chunk sub file r.stop out.2 rs

/-- The ranges of the file to send (/repo/lilya/responses.py 1136-1140). -/
def planRanges (st : State) : Plan → List Rng
  | .ranges rs => rs
  | _ => [⟨0, st.length - 1⟩]

/-- The subheader (/repo/lilya/responses.py 1142-1149): only when there are ranges and no content range
header. -/
def planSub (f : Rng → Str) (st : State) : Plan → Option (Rng → Str)
  | .ranges _ => if st.contentRange = none then some f else none
  | _ => none

/-- `content_ranges is None`. -/
def Plan.isWhole : Plan → Bool
  | .ranges _ => false
  | _ => true

/-- The body (/repo/lilya/responses.py 1135-1239). -/
def sendBody (c : Conf) (f : Rng → Str) (st : State) (file : Str) (req : Req) (pl : Plan) : List Msg :=
  if pl.isWhole = true ∧ req.pathsend = true then [.pathsend]
  else
    sendRanges (if req.zerocopy then .zerocopy else .body) c.chunk (planSub f st pl) file 0 0
        (planRanges st pl) ++
      (if (planSub f st pl).isSome then [.body [] false] else [])

/-- What follows the decision about the ranges (/repo/lilya/responses.py 1129-1244). -/
def callWith (c : Conf) (f : Rng → Str) (file : Str) (req : Req) : Plan × State → Outcome
  | (.notSatisfiable, _) => .notSatisfiable
  | (pl, st) =>
    let start := Msg.start st.status st.length st.contentRange st.multipart
    if req.headerOnly then .sent [start] st
    else .sent (start :: sendBody c f st file req pl) st

/-- `FileResponse.__call__` (/repo/lilya/responses.py 1108-1244). -/
def call (c : Conf) (f : Rng → Str) (st : State) (file : Str) (req : Req) : Outcome :=
  callWith c f file req (plan c (announce file st) req)

end Verif.FileResponse
