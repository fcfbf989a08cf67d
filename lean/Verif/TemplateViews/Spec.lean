import Verif.TemplateViews.Model

/-!
# What a template should be given
-/

namespace Verif.TemplateViews.Spec

open Verif

/-- The first of some dictionaries that has the name decides. -/
def layers : List Ctx → Ctx
  | [] => fun _ => none
  | d :: ds => fun k => (d k).or (layers ds k)

/-- A single binding. -/
def only (k : Str) (v : Val) : Ctx := fun x => if x = k then some v else none

/-- What a context processor can ask for by name: what was passed for this page, the request and the
controller. -/
def offered (explicit : Ctx) : Ctx :=
  layers [explicit, only "controller".toList .controller, only "request".toList .request]

/-- The arguments for parameters: those that have a value. -/
def byName (avail : Ctx) (ps : List Param) : List (Str × Val) :=
  ps.filterMap fun p => (avail p.name).map fun v => (p.name, v)

/-- All parameters without a default are on offer. -/
def Served (avail : Ctx) (ps : List Param) : Prop :=
  ∀ p ∈ ps, p.required = true → avail p.name ≠ none

/-- Processors run one after another, from one state to another, and give dictionaries. -/
inductive Ran {S : Type} (avail : Ctx) : List (Proc S) → S → List Ctx → S → Prop where
  | done (s) : Ran avail [] s [] s
  | next {p : Proc S} {ps s d s' ds s''} (served : Served avail p.params)
      (called : p.call (byName avail p.params) s = (.dict d, s')) (rest : Ran avail ps s' ds s'') :
      Ran avail (p :: ps) s (d :: ds) s''

/-- The processors of the template engine likewise. -/
inductive Engine {S : Type} : List (S → Made × S) → S → List Ctx → S → Prop where
  | done (s) : Engine [] s [] s
  | next {p : S → Made × S} {ps s d s' ds s''} (called : p s = (.dict d, s')) (rest : Engine ps s' ds s'') :
      Engine (p :: ps) s (d :: ds) s''

/-- The request needs no token to be accepted, and is answered by a page with a form. -/
def Safe (method : Str) : Prop := method = "GET".toList ∨ method = "HEAD".toList ∨ method = "QUERY".toList

/-- What every page has: the request, and, where the controller says so and the method is safe, a CSRF
token, which is the cookie of the request or else a new signed token. -/
inductive Ground {S : Type} (hmac : Str → Str → Str) (c : Controller S) (r : Request) (s : S) : List Ctx → S → Prop where
  | plain (h : c.csrf = false ∨ ¬ Safe r.method) : Ground hmac c r s [only "request".toList .request] s
  | cookie (t : Str) (h : c.csrf = true) (hm : Safe r.method) (hc : aget r.cookies "csrftoken".toList = some t)
      (ht : t ≠ []) : Ground hmac c r s [only c.csrfName (.token t), only "request".toList .request] s
  | fresh (rnd : Str) (s' : S) (h : c.csrf = true) (hm : Safe r.method)
      (hc : ∀ t, aget r.cookies "csrftoken".toList = some t → t = []) (hr : c.random s = (rnd, s')) :
      Ground hmac c r s
        [only c.csrfName (.token (rnd ++ hmac c.secret rnd)), only "request".toList .request] s'

/-- A page that a template controller makes: on top what the template engine adds, then what was passed
for this page, then what the context processors give, later ones before earlier ones, then `below`. -/
def page (engine : List Ctx) (explicit : Ctx) (given : List Ctx) (below : List Ctx) : Ctx :=
  layers (engine.reverse ++ explicit :: given.reverse ++ below)

/-- The template engine adds nothing under a name. -/
def Silent {S : Type} (engine : List (S → Made × S)) (k : Str) : Prop :=
  ∀ p ∈ engine, ∀ s d s', p s = (.dict d, s') → d k = none

/-- What is passed for a page; the request is not passed. -/
def without (d : Ctx) (k : Str) : Ctx := fun x => if x = k then none else d x

/-- The first value of every name in a form. -/
def FirstOf (form data : List (Str × Str)) : Prop :=
  (data.map Prod.fst).Nodup ∧
  ∀ k v, (k, v) ∈ data ↔ ∃ pre post, form = pre ++ (k, v) :: post ∧ ∀ p ∈ pre, p.1 ≠ k

end Verif.TemplateViews.Spec
