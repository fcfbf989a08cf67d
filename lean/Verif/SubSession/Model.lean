import Verif.Basic

/-!
# Sub-sessions

Model of `SessionContextMiddleware` (/repo/lilya/middleware/session_context.py) and of the `session` object
(/repo/lilya/context.py 405-480) for one http request inside `SessionMiddleware`
(/repo/lilya/middleware/sessions.py).

The session of the connection (`scope["session"]`) is a dictionary, and with `sub_path` the middleware gives the
application one of its values, a dictionary too, which both sides change in place.  A dictionary below a key of the
session is therefore an object; it is named by its key, because it is created below that key (by decoding the cookie
or by `setdefault`) and put back below the same key only.  Simplification: the values written by an application are
texts, so that it does not itself put one of these dictionaries below another key; a second level of nesting is left
out.
-/

namespace Verif.SubSession

open Verif

/-- A dictionary below a key of the session. -/
abbrev Dict := List (Str × Str)

/-- A value of a stored session: `None`, a text (any other value that is no dictionary), or a dictionary. -/
inductive Val
  | null
  | text (t : Str)
  | dict (d : Dict)
deriving DecidableEq, Repr

/-- A session as it is stored in the cookie (/repo/lilya/middleware/sessions.py 87-96). -/
abbrev Stored := List (Str × Val)

/-- A value of the session in memory; `dict` is the object that is named by the key. -/
inductive Entry
  | null
  | text (t : Str)
  | dict
deriving DecidableEq, Repr

/-- A middleware that is active: `self.sub_path`, the local `session` and `send_started`
(/repo/lilya/middleware/session_context.py 42-49). -/
structure Frame where
  sub : Str
  held : Entry
  started : Bool

/-- The memory during a request: `scope["session"]`, the contents of the dictionaries, the active middleware with
the innermost first, and the session that was written to the cookie. -/
structure St where
  global : List (Str × Entry)
  heap : Str → Dict
  frames : List Frame
  saved : Option Stored

/-- The value in memory for a stored one (`json.loads`, /repo/lilya/middleware/sessions.py 87-88). -/
def entryOf : Val → Entry
  | .null => .null
  | .text t => .text t
  | .dict _ => .dict

/-- `load_session_data` (/repo/lilya/middleware/sessions.py 98-116) after the signature was checked. -/
def load (s : Stored) : St where
  global := s.map fun kv => (kv.1, entryOf kv.2)
  heap := fun k => match aget s k with
    | some (.dict d) => d
    | _ => []
  frames := []
  saved := none

/-- The value that is stored for one in memory (`encode_session`, /repo/lilya/middleware/sessions.py 90-94). -/
def valueOf (heap : Str → Dict) (k : Str) : Entry → Val
  | .null => .null
  | .text t => .text t
  | .dict => .dict (heap k)

/-- The session as it is written to the cookie (/repo/lilya/middleware/sessions.py 133-135).  For an empty session
the cookie is removed or not set, and the next request loads an empty session. -/
def save (st : St) : Stored := st.global.map fun kv => (kv.1, valueOf st.heap kv.1 kv.2)

/-- `SessionContextMiddleware.__call__` before the application is called
(/repo/lilya/middleware/session_context.py 33-47, 64): `global_session.setdefault(self.sub_path, {})`. -/
def enter (sub : Str) (st : St) : St :=
  if sub = [] then { st with frames := ⟨[], .dict, false⟩ :: st.frames }
  else match aget st.global sub with
    | some e => { st with frames := ⟨sub, e, false⟩ :: st.frames }
    | none =>
      { st with
        global := aset st.global sub .dict
        heap := fun k => if k = sub then [] else st.heap k
        frames := ⟨sub, .dict, false⟩ :: st.frames }

/-- `not session` (/repo/lilya/middleware/session_context.py 55). -/
def falsy (heap : Str → Dict) (f : Frame) : Bool :=
  match f.held with
  | .null => true
  | .text t => t = []
  | .dict => heap f.sub = []

/-- `cleanup_session` (/repo/lilya/middleware/session_context.py 51-58). -/
def cleanup (heap : Str → Dict) (global : List (Str × Entry)) (f : Frame) : List (Str × Entry) :=
  if f.started ∨ f.sub = [] then global
  else if falsy heap f then adel global f.sub
  else aset global f.sub f.held

/-- What an application does to a dictionary: `d[k] = v`, `del d[k]` (or `pop`), `d.clear()`. -/
inductive Op
  | set (k v : Str)
  | del (k : Str)
  | clear

/-- An operation on a dictionary of texts.  Simplification: `del` of a missing key, which raises, changes nothing. -/
def Op.onDict (d : Dict) : Op → Dict
  | .set k v => aset d k v
  | .del k => adel d k
  | .clear => []

/-- An operation on the session of the connection. -/
def Op.onGlobal (g : List (Str × Entry)) : Op → List (Str × Entry)
  | .set k v => aset g k (.text v)
  | .del k => adel g k
  | .clear => []

/-- A step of the application: an operation through the `session` object, one through `request.session`, or a
message, which is the start of the response or something before or after it (`http.response.push`,
/repo/lilya/requests.py 364-376; `http.response.body`). -/
inductive Act
  | session (op : Op)
  | request (op : Op)
  | send (start : Bool)

/-- `send_wrapper` of every active middleware (/repo/lilya/middleware/session_context.py 60-64), from the inside
out, and `process_response` of `SessionMiddleware` (/repo/lilya/middleware/sessions.py 118-158), which writes the
cookie when the response starts. -/
def sent (start : Bool) (st : St) : St :=
  let st' : St :=
    { st with
      global := st.frames.foldl (cleanup st.heap) st.global
      frames := st.frames.map fun f => { f with started := true } }
  if start ∧ st'.saved = none then { st' with saved := some (save st') } else st'

/-- A step.  `none`: it raises, because there is no middleware (/repo/lilya/context.py 458-466) or because the value
below the path is no dictionary (/repo/lilya/context.py 409-425; `TypeError` for a text).  Without `sub_path` the
object is the session of the connection. -/
def step (st : St) : Act → Option St
  | .session op =>
    match st.frames with
    | [] => none
    | f :: _ =>
      if f.sub = [] then some { st with global := op.onGlobal st.global }
      else match f.held with
        | .dict => some { st with heap := fun k => if k = f.sub then op.onDict (st.heap k) else st.heap k }
        | _ => none
  | .request op => some { st with global := op.onGlobal st.global }
  | .send start => some (sent start st)

/-- The steps of the application, up to the first one that raises. -/
def steps (st : St) : List Act → St
  | [] => st
  | a :: as =>
    match step st a with
    | some st' => steps st' as
    | none => st

/-- A request with the stored session `s`, middleware with the given paths (the outermost first) and the steps of
the application: the session that is written to the cookie, if the response started. -/
def serve (s : Stored) (subs : List Str) (acts : List Act) : Option Stored :=
  (steps (subs.foldl (fun st sub => enter sub st) (load s)) acts).saved

/-- What `session` holds when the application starts, for a middleware with `sub_path`: its items, or `none` when an
access raises (/repo/lilya/context.py 409-433). -/
def seen (s : Stored) (subs : List Str) : Option Dict :=
  let st := subs.foldl (fun st sub => enter sub st) (load s)
  match st.frames with
  | [] => none
  | f :: _ => match f.held with
    | .dict => some (st.heap f.sub)
    | _ => none

end Verif.SubSession
