import Verif.SessionFlow.Model
import Verif.Session.Spec
import Verif.SetCookie.Spec

/-!
# A browser with sessions

The browser keeps cookies as in RFC 6265: fields are read as in `SetCookie.Spec`, every cookie has an end, and cookies
are sent with requests below their path.  Simplification: all requests go to one host, and the attribute `SameSite`
does not matter because no request comes from another site.
-/

namespace Verif.SessionFlow.Spec

open Verif Verif.Session Verif.SessionFlow

/-- A kept cookie: name, domain and path; value; end; only for https. -/
structure Kept where
  key : SetCookie.Spec.Key
  value : Str
  ends : Option Int
  secure : Bool
  deriving DecidableEq

/-- The end of a cookie that arrives: by its age, else by its date. -/
def endOf (c : SetCookie.Spec.Client) (s : SetCookie.Spec.Seen) : Option Int :=
  match (s.get "max-age".toList).bind SetCookie.Spec.seconds with
  | some n => some (c.now + n)
  | none => (s.get "expires".toList).bind c.dateOf

/-- The cookies after a field has arrived at a time. -/
def take (c : SetCookie.Spec.Client) (now : Nat) (b : List Kept) (field : Str) : List Kept :=
  match SetCookie.Spec.seen field with
  | none => b
  | some s =>
    match SetCookie.Spec.place { c with now := now } s with
    | none => b
    | some k =>
      if SetCookie.Spec.Expired { c with now := now } s then b.filter fun x => x.key ≠ k
      else (b.filter fun x => x.key ≠ k) ++
        [⟨k, s.value, endOf { c with now := now } s, (s.get "secure".toList).isSome⟩]

/-- A path is a path of a cookie or below it. -/
def Below (cookie path : Str) : Prop :=
  path = cookie ∨ (cookie <+: path ∧ (cookie.getLast? = some '/' ∨ (path.drop cookie.length).head? = some '/'))

instance (cookie path : Str) : Decidable (Below cookie path) := by unfold Below; infer_instance

/-- A request: its time, its path and whether it goes over https. -/
structure Visit where
  time : Nat
  path : Str
  https : Bool

/-- A cookie goes with a request. -/
def Goes (v : Visit) (x : Kept) : Prop :=
  Below x.key.2.2 v.path ∧ (∀ e, x.ends = some e → v.time ≤ e) ∧ (x.secure = true → v.https = true)

instance (v : Visit) (x : Kept) : Decidable (Goes v x) := by
  unfold Goes
  cases x.ends with
  | none => exact decidable_of_iff (Below x.key.2.2 v.path ∧ (x.secure = true → v.https = true)) (by simp)
  | some e =>
    exact decidable_of_iff (Below x.key.2.2 v.path ∧ (v.time : Int) ≤ e ∧ (x.secure = true → v.https = true)) (by simp)

/-- The `Cookie` headers of a request; `order` is the order in which the browser sends cookies. -/
def sent (order : List Kept → List Kept) (b : List Kept) (v : Visit) : List Str :=
  headerOf ((order (b.filter fun x => Goes v x)).map fun x => (x.key.1, x.value))

/-- The session with which the application starts, and whether there was none. -/
def view (s : Site) (order : List Kept → List Kept) (b : List Kept) (v : Visit) : Sess × Bool :=
  opened s.conf v.time (Cookies.cookies (sent order b v))

/-- What happens: a request is made; the response to it starts, after the application has done something to the
session. -/
inductive Act where
  | start (i : Nat) (v : Visit)
  | finish (i : Nat) (now : Nat) (f : Sess → Sess)

/-- A browser and an application: the cookies, the requests without response with their session, and the sessions
seen by requests so far. -/
structure World where
  jar : List Kept
  waiting : Nat → Option (Sess × Bool)
  log : List (Nat × Sess)

/-- A function changed in one place. -/
def put {α : Type} (f : Nat → Option α) (i : Nat) (x : Option α) : Nat → Option α := fun j => if j = i then x else f j

/-- One action. -/
def step (s : Site) (c : SetCookie.Spec.Client) (order : List Kept → List Kept) (w : World) : Act → World
  | .start i v =>
    ⟨w.jar, put w.waiting i (some (view s order w.jar v)), w.log ++ [(i, (view s order w.jar v).1)]⟩
  | .finish i now f =>
    match w.waiting i with
    | none => w
    | some (seen, wasEmpty) =>
      ⟨(s.respond now wasEmpty [] (f seen)).foldl (take c now) w.jar, put w.waiting i none, w.log⟩

/-- A history. -/
def run (s : Site) (c : SetCookie.Spec.Client) (order : List Kept → List Kept) (w : World) (as : List Act) : World :=
  as.foldl (step s c order) w

/-- The time is within the age. -/
def Fresh (s : Site) (t t' : Nat) : Prop := ∀ n, s.maxAge = some n → (t' : Int) ≤ t + n

instance (s : Site) (t t' : Nat) : Decidable (Fresh s t t') := by
  unfold Fresh
  cases s.maxAge with
  | none => exact .isTrue (by simp)
  | some n => exact decidable_of_iff ((t' : Int) ≤ t + n) (by simp)

/-- What a user of sessions may think of: one session, with the time at which it was last written. -/
structure Store where
  session : Option (Nat × Sess)
  waiting : Nat → Option Sess
  log : List (Nat × Sess)

/-- The session in the store at a time. -/
def Store.at (s : Site) (m : Store) (now : Nat) : Sess :=
  match m.session with
  | some (t, sess) => if Fresh s t now then sess else []
  | none => []

/-- A request takes a copy of the session; a response writes its copy, also when it has not been changed.  A response
without a session removes the session if its request had one. -/
def Store.step (s : Site) (m : Store) : Act → Store
  | .start i v => ⟨m.session, put m.waiting i (some (m.at s v.time)), m.log ++ [(i, m.at s v.time)]⟩
  | .finish i now f =>
    match m.waiting i with
    | none => m
    | some seen =>
      ⟨if f seen ≠ [] then some (now, f seen) else if seen ≠ [] then none else m.session,
        put m.waiting i none, m.log⟩

/-- A history of the store. -/
def Store.run (s : Site) (m : Store) (as : List Act) : Store := as.foldl (Store.step s) m

/-- The signer: what is signed is accepted from then on within the age and rejected afterwards; the text has no
characters that have a meaning in cookies. -/
structure Timed (s : Site) : Prop where
  accepts : ∀ t t' x, t ≤ t' → Fresh s t t' → s.signer.unsign t' (s.signer.sign t x) = some x
  rejects : ∀ t t' x, ¬ Fresh s t t' → s.signer.unsign t' (s.signer.sign t x) = none
  clean : ∀ t x, ∀ ch ∈ s.signer.sign t x, ch ≠ '"' ∧ ch ≠ '\\' ∧ ch ≠ ';' ∧ ch ≠ '%'

/-- Where the cookie of the session is kept, as configured. -/
def home (c : SetCookie.Spec.Client) (s : Site) : Option SetCookie.Spec.Key :=
  match s.domain.filter (· ≠ []) with
  | none => some (s.name, c.host, SetCookie.Spec.pathOf c (some s.path))
  | some d =>
    if SetCookie.Spec.InDomain c.host (SetCookie.Spec.domainOf d) then
      some (s.name, SetCookie.Spec.domainOf d, SetCookie.Spec.pathOf c (some s.path))
    else none

/-- A name, a path, a domain and a `same_site` that can stand in a field. -/
def Sane (s : Site) : Prop :=
  Cookies.Spec.Legal s.name ∧ SetCookie.Spec.Clean s.path ∧ SetCookie.Spec.Clean s.sameSite ∧
    (∀ d, s.domain = some d → SetCookie.Spec.Clean d) ∧ (∀ n, s.maxAge = some n → 0 ≤ n)

/-- A client that can read the date at the beginning of 1970. -/
def ReadsDate (c : SetCookie.Spec.Client) : Prop := c.dateOf "Thu, 01 Jan 1970 00:00:00 GMT".toList = some 0

/-- The cookies of a browser: well formed, and none with the name of the session elsewhere. -/
def Tidy (s : Site) (k : SetCookie.Spec.Key) (b : List Kept) : Prop :=
  ∀ x ∈ b, (x.key.1 = s.name → x.key = k) ∧ Cookies.Spec.Trimmed x.key.1 ∧ Cookies.Spec.Trimmed x.value ∧
    ';' ∉ x.key.1 ∧ '=' ∉ x.key.1 ∧ ';' ∉ x.value

/-- The browser sends all cookies that go with a request, in some order. -/
def Orders (order : List Kept → List Kept) : Prop := ∀ l, (order l).Perm l

/-- A request that the cookie of the session can go with. -/
def Within (s : Site) (k : SetCookie.Spec.Key) (v : Visit) : Prop :=
  Below k.2.2 v.path ∧ (s.httpsOnly = true → v.https = true)

/-- The time of an action. -/
def Act.time : Act → Nat
  | .start _ v => v.time
  | .finish _ now _ => now

/-- Time does not go backwards. -/
def InOrder : Nat → List Act → Prop
  | _, [] => True
  | t, a :: as => t ≤ a.time ∧ InOrder a.time as

/-- All requests are ones that the cookie can go with. -/
def AllWithin (s : Site) (k : SetCookie.Spec.Key) (as : List Act) : Prop :=
  ∀ a ∈ as, ∀ i v, a = .start i v → Within s k v

/-- A browser without a session and without requests. -/
def fresh (b : List Kept) : World := ⟨b, fun _ => none, []⟩

/-- The store at the beginning. -/
def empty : Store := ⟨none, fun _ => none, []⟩

/-- Longer paths first, the order of RFC 6265. -/
def longest : List Kept → List Kept
  | [] => []
  | x :: xs => insert x (longest xs)
where
  insert (x : Kept) : List Kept → List Kept
    | [] => [x]
    | y :: ys => if x.key.2.2.length < y.key.2.2.length then y :: insert x ys else x :: y :: ys

/-- Only requests that began here end here, and they leave the session as they have seen it. -/
def Readers (as : List Act) : Prop :=
  ∀ pre i now g post, as = pre ++ .finish i now g :: post → (∀ x, g x = x) ∧ ∃ v, .start i v ∈ pre

/-- All actions are within the age after a time. -/
def Soon (s : Site) (t : Nat) (as : List Act) : Prop := ∀ a ∈ as, Fresh s t a.time

end Verif.SessionFlow.Spec
