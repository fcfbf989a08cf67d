import Verif.Basic

/-!
# Pages made from dictionaries

`Jinja2Template.get_template_response` with its renderer (`/repo/lilya/templating/jinja.py` 38-110, 228-254),
`prepare_response` (`/repo/lilya/templating/base.py` 29-49) and `TemplateResponse` (`/repo/lilya/responses.py`
1330-1358), over histories of requests whose handlers pass dictionaries of their own or one that is shared.
-/

namespace Verif.Pages

open Verif

/-- What a template may be given: data, or a request. -/
inductive Val where
  | data (n : Nat)
  | request (r : Nat)
  deriving DecidableEq

/-- A dictionary, by what it has for each name. -/
abbrev Dict := Str → Option Val

/-- A context processor: the dictionary it returns for a request.  Simplification: it depends on the request only. -/
abbrev Processor := Nat → Dict

/-- `context.update(more)`. -/
def update (context more : Dict) : Dict := fun k =>
  match more k with
  | some v => some v
  | none => context k

/-- The name `request`. -/
def requestKey : Str := "request".toList

/-- `context.setdefault("request", request)` (`/repo/lilya/templating/base.py` 39). -/
def setRequest (r : Nat) (context : Dict) : Dict := fun k =>
  match context k with
  | some v => some v
  | none => if k = requestKey then some (.request r) else none

/-- What becomes of the dictionary of the caller (`/repo/lilya/templating/jinja.py` 59-65): all of it is done to the
dictionary itself. -/
def prepare (procs : List Processor) (r : Nat) (context : Dict) : Dict :=
  setRequest r (procs.foldl (fun c p => update c (p r)) context)

/-- A response: its request, its dictionary, and the context its page was rendered with, unless that is still to come
(`render_async`, for an asynchronous environment, renders when the response is sent). -/
structure Response where
  req : Nat
  dict : Nat
  page : Option Dict

/-- The dictionaries, the responses made, and the pages sent, with the number of the response. -/
structure State where
  dicts : Nat → Dict
  made : List Response
  sent : List (Nat × Dict)

/-- A handler makes a response for a request with a dictionary, or a response is sent. -/
inductive Action where
  | make (r d : Nat)
  | send (i : Nat)

/-- One step; `late` if the environment is asynchronous (`/repo/lilya/templating/jinja.py` 252).  Simplification: the
template exists. -/
def step (late : Bool) (procs : List Processor) (st : State) : Action → State
  | .make r d =>
    { st with
      dicts := fun e => if e = d then prepare procs r (st.dicts d) else st.dicts e
      made := st.made ++ [⟨r, d, if late then none else some (prepare procs r (st.dicts d))⟩] }
  | .send i =>
    match st.made[i]? with
    | none => st
    | some resp => { st with sent := st.sent ++ [(i, resp.page.getD (st.dicts resp.dict))] }

/-- A history from dictionaries as the application made them. -/
def run (late : Bool) (procs : List Processor) (dicts : Nat → Dict) (h : List Action) : State :=
  h.foldl (step late procs) ⟨dicts, [], []⟩

/-- The parameters of `get_template_response` in order (`/repo/lilya/templating/jinja.py` 80-88). -/
def parameters : List Str :=
  ["request".toList, "name".toList, "context".toList, "status_code".toList, "headers".toList, "media_type".toList,
    "background".toList]

/-- `_parse_args` (`/repo/lilya/templating/jinja.py` 68-88): each parameter from its place or else its name. -/
def parse {A : Type} (args : List A) (kwargs : Str → Option A) : List (Option A) :=
  parameters.mapIdx fun i name => if i < args.length then args[i]? else kwargs name

end Verif.Pages
