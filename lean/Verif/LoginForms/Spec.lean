import Verif.LoginForms.Model
import Verif.CsrfFlow.Spec
import Verif.SessionFlow.Spec

/-!
# A browser with a session that opens pages and submits forms

The browser is that of `Verif.SessionFlow.Spec`: it keeps both cookies, each with its end, and sends those that belong
to a request.
-/

namespace Verif.LoginForms.Spec

open Verif Verif.LoginForms
open Verif.SessionFlow.Spec (Kept Visit sent view take put Below)

/-- What happens: a request is made; its response starts after the handler has done something to the session. -/
inductive Act where
  | start (i : Nat) (v : Visit) (r : Csrf.Request)
  | finish (i : Nat) (now : Nat) (f : Session.Sess → Session.Sess) (r : Reply)

/-- The browser and the application: the cookies, the requests without response, the sessions that handlers have seen,
the tokens in the pages, and the requests that were refused. -/
structure World where
  jar : List Kept
  waiting : Nat → Option Pending
  log : List (Nat × Session.Sess)
  tabs : List (Option Str)
  refused : List Nat

/-- The CSRF cookie in a request. -/
def cookie (a : App) (order : List Kept → List Kept) (b : List Kept) (v : Visit) : Option Str :=
  aget (Cookies.cookies (sent order b v)) a.csrf.name

/-- The request as it arrives, with the cookie of the browser. -/
def arriving (a : App) (order : List Kept → List Kept) (b : List Kept) (v : Visit) (r : Csrf.Request) : Csrf.Request :=
  { r with cookie := cookie a order b v }

/-- One action. -/
def step (a : App) (o : Outer) (c : SetCookie.Spec.Client) (order : List Kept → List Kept) (w : World) : Act → World
  | .start i v r =>
    match a.admits (arriving a order w.jar v r) with
    | none => { w with refused := w.refused ++ [i] }
    | some safe =>
      { w with
        waiting := put w.waiting i
          (some ⟨cookie a order w.jar v, safe, (view a.sess order w.jar v).1, (view a.sess order w.jar v).2⟩)
        log := w.log ++ [(i, (view a.sess order w.jar v).1)] }
  | .finish i now f r =>
    match w.waiting i with
    | none => w
    | some p =>
      { w with
        jar := (a.fields o now p (f p.seen) r).foldl (take c now) w.jar
        waiting := put w.waiting i none
        tabs := w.tabs ++ [(a.page p r).1] }

/-- A history. -/
def run (a : App) (o : Outer) (c : SetCookie.Spec.Client) (order : List Kept → List Kept) (w : World)
    (as : List Act) : World := as.foldl (step a o c order) w

/-- What a history is for sessions alone: the requests that were admitted, and the responses. -/
def admitted (a : App) (o : Outer) (c : SetCookie.Spec.Client) (order : List Kept → List Kept) :
    World → List Act → List SessionFlow.Spec.Act
  | _, [] => []
  | w, .start i v r :: as =>
    (if (a.admits (arriving a order w.jar v r)).isSome then [.start i v] else []) ++
      admitted a o c order (step a o c order w (.start i v r)) as
  | w, .finish i now f r :: as => .finish i now f :: admitted a o c order (step a o c order w (.finish i now f r)) as

/-- Both middlewares are configured sensibly, for a client; the cookies have different names and are kept in the places
`k` and `k'`. -/
structure Sound (a : App) (c : SetCookie.Spec.Client) (k k' : SetCookie.Spec.Key) : Prop where
  date : SessionFlow.Spec.ReadsDate c
  sane : SessionFlow.Spec.Sane a.sess
  timed : SessionFlow.Spec.Timed a.sess
  home : SessionFlow.Spec.home c a.sess = some k
  csrf : CsrfFlow.Spec.Sound a.csrf c k'
  hex : CsrfFlow.Spec.HexDigest a.hmac
  apart : a.sess.name ≠ a.csrf.name

/-- The cookies of a browser are well formed, and none has the name of one of the two cookies elsewhere. -/
def Tidy (a : App) (k k' : SetCookie.Spec.Key) (b : List Kept) : Prop :=
  SessionFlow.Spec.Tidy a.sess k b ∧ ∀ x ∈ b, x.key.1 = a.csrf.name → x.key = k'

/-- A browser without waiting requests. -/
def fresh (b : List Kept) : World := ⟨b, fun _ => none, [], [], []⟩

/-- The time of an action. -/
def Act.time : Act → Nat
  | .start _ v _ => v.time
  | .finish _ now _ _ => now

/-- Time does not go backwards. -/
def InOrder : Nat → List Act → Prop
  | _, [] => True
  | t, a :: as => t ≤ a.time ∧ InOrder a.time as

/-- All requests are ones that the cookie of the session can go with. -/
def AllWithin (a : App) (k : SetCookie.Spec.Key) (as : List Act) : Prop :=
  ∀ x ∈ as, ∀ i v r, x = .start i v r → SessionFlow.Spec.Within a.sess k v

/-- A request that the CSRF cookie can go with. -/
def Reaches (a : App) (k' : SetCookie.Spec.Key) (v : Visit) : Prop :=
  Below k'.2.2 v.path ∧ (a.csrf.secure = true → v.https = true)

/-- All requests are ones that the CSRF cookie can go with. -/
def AllReach (a : App) (k' : SetCookie.Spec.Key) (as : List Act) : Prop :=
  ∀ x ∈ as, ∀ i v r, x = .start i v r → Reaches a k' v

/-- A token that the middleware signs. -/
def Signed (a : App) (t : Str) : Prop := ∃ rnd, CsrfFlow.Spec.Random rnd ∧ t = Csrf.generate a.hmac a.csrf.conf.secret
    rnd

/-- The browser has exactly this value as its CSRF cookie, until it is closed, and made its waiting requests with it. -/
def Holds (a : App) (k' : SetCookie.Spec.Key) (t : Str) (w : World) : Prop :=
  (w.jar.filter fun x => x.key = k') = [⟨k', t, none, a.csrf.secure⟩] ∧
    ∀ i p, w.waiting i = some p → p.cookie = some t

/-- The browser has no CSRF cookie, and made its waiting requests without. -/
def Lacks (k' : SetCookie.Spec.Key) (w : World) : Prop :=
  (∀ x ∈ w.jar, x.key ≠ k') ∧ ∀ i p, w.waiting i = some p → p.cookie = none

/-- Closing a browser: cookies without an end are gone. -/
def closed (b : List Kept) : List Kept := b.filter fun x => x.ends.isSome

end Verif.LoginForms.Spec
