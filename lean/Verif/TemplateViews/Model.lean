import Verif.Csrf.Model

/-!
# Controllers that render templates

Model of `TemplateController`, `ListController` and `FormController`
(/repo/lilya/templating/controllers.py) and of the way from a context to a response
(/repo/lilya/templating/jinja.py 38-66, /repo/lilya/templating/base.py 26-49).  A dictionary is the
function that looks a name up; its order is not modelled.  Functions of the application (context
processors, `get_queryset`, overrides, `secrets.token_hex`) may change a state, of any type `S`.  What
the template does with its context is not modelled.
-/

namespace Verif.TemplateViews

open Verif

/-- The values in a context: the request, the controller, a CSRF token, form data, a text (the message
of an exception), the empty dictionary of errors, and any other object. -/
inductive Val where
  | request
  | controller
  | token (t : Str)
  | fields (d : List (Str × Str))
  | text (s : Str)
  | noErrors
  | obj (n : Nat)
deriving DecidableEq, Repr

/-- A dictionary from names to values. -/
abbrev Ctx := Str → Option Val

/-- `{}`. -/
def empty : Ctx := fun _ => none

/-- `d[k] = v`. -/
def put (d : Ctx) (k : Str) (v : Val) : Ctx := fun x => if x = k then some v else d x

/-- `d.update(e)`. -/
def update (d e : Ctx) : Ctx := fun x => (e x).or (d x)

/-- `d.setdefault(k, v)`. -/
def setdefault (d : Ctx) (k : Str) (v : Val) : Ctx := if (d k).isSome then d else put d k v

/-- `del d[k]`, if it is there. -/
def delete (d : Ctx) (k : Str) : Ctx := fun x => if x = k then none else d x

/-- A result, `ImproperlyConfigured`, or another exception. -/
inductive Res (α : Type) where
  | ok (a : α)
  | improper
  | raised
deriving DecidableEq, Repr

/-- A computation that may change the state of the application. -/
abbrev Act (S α : Type) := S → Res α × S

/-- One computation after another; an exception ends both. -/
def andThen {S α β : Type} (m : Act S α) (f : α → Act S β) : Act S β := fun s =>
  match m s with
  | (.ok a, s') => f a s'
  | (.improper, s') => (.improper, s')
  | (.raised, s') => (.raised, s')

/-- The name under which the request is found (/repo/lilya/templating/controllers.py 170). -/
def requestKey : Str := "request".toList

/-! ## Context processors -/

/-- What a context processor gives. -/
inductive Made where
  | dict (d : Ctx)
  | other
  | raised

/-- A parameter of a context processor; `required` when it has no default and is neither `*args` nor
`**kwargs` (/repo/lilya/templating/controllers.py 193-196). -/
structure Param where
  name : Str
  required : Bool

/-- A context processor, `async` or not, already imported (/repo/lilya/templating/controllers.py 131-141);
it is called with keyword arguments. -/
structure Proc (S : Type) where
  params : List Param
  call : List (Str × Val) → S → Made × S

/-- The loop over `sig.parameters` (/repo/lilya/templating/controllers.py 186-199): the keyword arguments;
`none` is `ImproperlyConfigured`. -/
def callArgs (avail : Ctx) : List Param → Option (List (Str × Val))
  | [] => some []
  | p :: ps =>
    match avail p.name with
    | some v => (callArgs avail ps).map ((p.name, v) :: ·)
    | none => if p.required then none else callArgs avail ps

/-- The loop over the processors (/repo/lilya/templating/controllers.py 185-212). -/
def runProcs {S : Type} (avail : Ctx) : List (Proc S) → Ctx → Act S Ctx
  | [], c, s => (.ok c, s)
  | p :: ps, c, s =>
    match callArgs avail p.params with
    | none => (.improper, s)
    | some kw =>
      match p.call kw s with
      | (.dict d, s') => runProcs avail ps (update c d) s'
      | (.other, s') => (.improper, s')
      | (.raised, s') => (.raised, s')

/-! ## Controllers -/

/-- What a controller looks at in a request. -/
structure Request where
  method : Str
  cookies : List (Str × Str)

/-- A controller class.  `secret` is `settings.secret_key`, `random` is `secrets.token_hex(32)`.  `extend`
is what overrides of `get_context_data` make of the context of `BaseTemplateController` (`plainExtend`,
`listExtend`, `formExtend` or those of the application).  `engine` are the context processors of the
`Jinja2Template`, which get the request and give a dictionary. -/
structure Controller (S : Type) where
  csrf : Bool
  csrfName : Str
  secret : Str
  random : S → Str × S
  procs : List (Proc S)
  extend : Ctx → Act S Ctx
  engine : List (S → Made × S)

/-- `TemplateController` has no override of its own (/repo/lilya/templating/controllers.py 256-273). -/
def plainExtend {S : Type} : Ctx → Act S Ctx := fun c s => (.ok c, s)

/-- `ListController.get_context_data` (/repo/lilya/templating/controllers.py 318-334); `queryset` is
`get_queryset`. -/
def listExtend {S : Type} (name : Str) (queryset : S → Val × S) : Ctx → Act S Ctx := fun c s =>
  (.ok (put c name (queryset s).1), (queryset s).2)

/-- `FormController.get_context_data` (/repo/lilya/templating/controllers.py 402-420); `initial` is
`get_initial`. -/
def formExtend {S : Type} (initial : List (Str × Str)) : Ctx → Act S Ctx := fun c s =>
  (.ok (setdefault (put c "form".toList (.fields initial)) "errors".toList .noErrors), s)

/-- `get_or_set_csrf_token` without a response, as in `get_csrf_token`
(/repo/lilya/contrib/security/csrf.py 115-147, /repo/lilya/templating/controllers.py 143-151): the cookie
`csrftoken`, or else a new token, which no cookie carries. -/
def csrfToken {S : Type} (hmac : Str → Str → Str) (c : Controller S) (r : Request) (s : S) : Str × S :=
  match aget r.cookies "csrftoken".toList with
  | some t => if t = [] then (Csrf.generate hmac c.secret (c.random s).1, (c.random s).2) else (t, s)
  | none => (Csrf.generate hmac c.secret (c.random s).1, (c.random s).2)

/-- The methods with a token (/repo/lilya/templating/controllers.py 171); methods are in upper case. -/
def tokenMethods : List Str := ["GET".toList, "HEAD".toList, "QUERY".toList]

/-- The context before the keyword arguments (/repo/lilya/templating/controllers.py 170-172). -/
def firstContext {S : Type} (hmac : Str → Str → Str) (c : Controller S) (r : Request) (s : S) : Ctx × S :=
  if c.csrf = true ∧ r.method ∈ tokenMethods then
    (put (put empty requestKey .request) c.csrfName (.token (csrfToken hmac c r s).1), (csrfToken hmac c r s).2)
  else (put empty requestKey .request, s)

/-- `available_args` (/repo/lilya/templating/controllers.py 179-183). -/
def available (kw : Ctx) : Ctx :=
  update (put (put empty requestKey .request) "controller".toList .controller) kw

/-- `BaseTemplateController.get_context_data` (/repo/lilya/templating/controllers.py 153-212).  `kw` has no
`request`: the call would be a `TypeError`. -/
def baseContext {S : Type} (hmac : Str → Str → Str) (c : Controller S) (r : Request) (kw : Ctx) : Act S Ctx := fun s =>
  runProcs (available kw) c.procs (update (firstContext hmac c r s).1 kw) (firstContext hmac c r s).2

/-- `self.get_context_data`. -/
def contextData {S : Type} (hmac : Str → Str → Str) (c : Controller S) (r : Request) (kw : Ctx) : Act S Ctx :=
  andThen (baseContext hmac c r kw) c.extend

/-- The processors of the template engine (/repo/lilya/templating/jinja.py 58-60); what is no dictionary
is an exception in `update`. -/
def runEngine {S : Type} : List (S → Made × S) → Ctx → Act S Ctx
  | [], c, s => (.ok c, s)
  | p :: ps, c, s =>
    match p s with
    | (.dict d, s') => runEngine ps (update c d) s'
    | (_, s') => (.raised, s')

/-- `render_template` (/repo/lilya/templating/controllers.py 214-253) with `get_template_response`: the
context of the response, which has status 200 (/repo/lilya/templating/base.py 26-49).  The template is
there. -/
def render {S : Type} (hmac : Str → Str → Str) (c : Controller S) (r : Request) (context : Ctx) : Act S Ctx :=
  andThen (contextData hmac c r (delete context requestKey)) fun merged =>
    andThen (runEngine c.engine (update merged (delete context requestKey))) fun ctx s =>
      (.ok (setdefault ctx requestKey .request), s)

/-! ## Forms -/

/-- What a validator is called with: the controller itself (when it is a function in the class), the form
class, and the data. -/
inductive Arg where
  | self
  | formClass
  | data (d : List (Str × Str))
deriving DecidableEq, Repr

/-- A `validator`: set as a function in the class body it is a method, set on the instance (or as a static
method) it is not.  `call` gives the form, or the message of an exception. -/
structure Validator where
  inClass : Bool
  call : List Arg → Except Str Nat

/-- A `FormController` (/repo/lilya/templating/controllers.py 337-370).  `formClass` is the constructor
of `form_class`, with the data as keyword arguments; forms are numbers. -/
structure FormView (S : Type) where
  view : Controller S
  formClass : Option (List (Str × Str) → Except Str Nat)
  validator : Option Validator
  successUrl : Option Str

/-- `dict(form)`: the first value of every name that is not in `seen`. -/
def firstValues (seen : List Str) : List (Str × Str) → List (Str × Str)
  | [] => []
  | (k, v) :: rest => if k ∈ seen then firstValues seen rest else (k, v) :: firstValues (k :: seen) rest

/-- `dict(form)` (/repo/lilya/templating/controllers.py 452). -/
def asDict (form : List (Str × Str)) : List (Str × Str) := firstValues [] form

/-- `validate_form` (/repo/lilya/templating/controllers.py 467-487); `if self.validator` is an attribute
lookup, which makes a function of the class a method. -/
def validate (validator : Option Validator) (formClass : List (Str × Str) → Except Str Nat)
    (data : List (Str × Str)) : Except Str Nat :=
  match validator with
  | some v => v.call ((if v.inClass then [.self] else []) ++ [.formClass, .data data])
  | none => formClass data

/-- The response to a submission: a page with its context, or a redirect. -/
inductive Answer where
  | page (ctx : Ctx)
  | redirect (url : Str) (status : Nat)

/-- `FormController.get` (/repo/lilya/templating/controllers.py 422-435); `kw` are the arguments of the
handler, such as path parameters. -/
def formGet {S : Type} (hmac : Str → Str → Str) (f : FormView S) (r : Request) (kw : Ctx) : Act S Ctx :=
  andThen (contextData hmac f.view r kw) (render hmac f.view r)

/-- `FormController.form_valid` (/repo/lilya/templating/controllers.py 489-508). -/
def formValid {S : Type} (f : FormView S) : Act S Answer := fun s =>
  match f.successUrl with
  | none => (.improper, s)
  | some url => if url = [] then (.improper, s) else (.ok (.redirect url 303), s)

/-- `FormController.form_invalid` (/repo/lilya/templating/controllers.py 510-531); `super()` passes over
all overrides of `get_context_data`, which run in `render_template`. -/
def formInvalid {S : Type} (hmac : Str → Str → Str) (f : FormView S) (r : Request) (errors : Str)
    (data : List (Str × Str)) (kw : Ctx) : Act S Answer :=
  andThen (baseContext hmac f.view r kw) fun ctx =>
    andThen (render hmac f.view r (put (put ctx "form".toList (.fields data)) "errors".toList (.text errors)))
      fun page s => (.ok (.page page), s)

/-- `FormController.post`, `patch` and `put` (/repo/lilya/templating/controllers.py 437-465), with the
default hooks; `form` are the fields of the body in order (files are not modelled). -/
def formPost {S : Type} (hmac : Str → Str → Str) (f : FormView S) (r : Request) (form : List (Str × Str))
    (kw : Ctx) : Act S Answer := fun s =>
  match f.formClass with
  | none => (.improper, s)
  | some cls =>
    match validate f.validator cls (asDict form) with
    | .error e => formInvalid hmac f r e (asDict form) kw s
    | .ok _ => formValid f s

end Verif.TemplateViews
