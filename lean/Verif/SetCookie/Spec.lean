import Verif.SetCookie.Model
import Verif.Cookies.Spec
import Verif.Responses.Spec

/-!
# A client that stores cookies

The algorithm of RFC 6265, 5.2 and 5.3, by which a client takes a cookie from a field and stores it.
-/

namespace Verif.SetCookie.Spec

open Verif Verif.SetCookie

/-- Spaces and tabs at both ends are dropped. -/
def trim (s : Str) : Str := strip (fun c => c = ' ' || c = '\t') s

/-- A name and a value around the first equals sign; no value without one. -/
def pair (s : Str) : Str × Str :=
  (trim (s.takeWhile (· ≠ '=')), trim ((s.dropWhile (· ≠ '=')).tail))

/-- A cookie as seen in a field: attributes with names in lower case. -/
structure Seen where
  name : Str
  value : Str
  attrs : List (Str × Str)
  deriving DecidableEq

/-- The cookie of a field; ignored without an equals sign or without a name. -/
def seen (field : Str) : Option Seen :=
  match splitOn ';' field with
  | [] => none
  | nv :: avs =>
    if '=' ∈ nv ∧ (pair nv).1 ≠ [] then
      some ⟨(pair nv).1, (pair nv).2, avs.map fun av => (lower (pair av).1, (pair av).2)⟩
    else none

/-- The last attribute of a name. -/
def Seen.get (s : Seen) (k : Str) : Option Str := ((s.attrs.filter fun kv => kv.1 = k).getLast?).map (·.2)

/-- The number of seconds of `Max-Age`, if it is one. -/
def seconds (v : Str) : Option Int :=
  match v with
  | [] => none
  | c :: t =>
    if c = '-' then
      if (∀ d ∈ t, '0' ≤ d ∧ d ≤ '9') then some (-(t.foldl (fun n d => 10 * n + (d.toNat - 48)) 0 : Nat)) else none
    else if (∀ d ∈ c :: t, '0' ≤ d ∧ d ≤ '9') then
      some ((c :: t).foldl (fun n d => 10 * n + (d.toNat - 48)) 0 : Nat)
    else none

/-- A client: the host of the request, the default path of its URL, a reader of dates, and the time. -/
structure Client where
  host : Str
  path : Str
  dateOf : Str → Option Int
  now : Int

/-- Whether the cookie has expired when it arrives: by its age, else by its date. -/
def Expired (c : Client) (s : Seen) : Prop :=
  match (s.get "max-age".toList).bind seconds with
  | some n => n ≤ 0
  | none => match (s.get "expires".toList).bind c.dateOf with
    | some t => t ≤ c.now
    | none => False

instance (c : Client) (s : Seen) : Decidable (Expired c s) := by
  unfold Expired; split <;> (try split) <;> infer_instance

/-- What identifies a stored cookie: name, domain, path. -/
abbrev Key := Str × Str × Str

/-- The domain without a leading dot, in lower case. -/
def domainOf (d : Str) : Str := lower (match d with | '.' :: t => t | d => d)

/-- A host belongs to a domain when it is it or ends with it after a dot. -/
def InDomain (host d : Str) : Prop := host = d ∨ ∃ p, host = p ++ '.' :: d

instance (host d : Str) : Decidable (InDomain host d) :=
  decidable_of_iff (host = d ∨ ('.' :: d) <:+ host) (by
    unfold InDomain
    constructor
    · rintro (h | ⟨p, h⟩)
      · exact .inl h
      · exact .inr ⟨p, h.symm⟩
    · rintro (h | ⟨p, h⟩)
      · exact .inl h
      · exact .inr ⟨p, h.symm⟩)

/-- The path of a cookie: the one it names if that starts with a slash. -/
def pathOf (c : Client) (p : Option Str) : Str :=
  match p with
  | some ('/' :: t) => '/' :: t
  | _ => c.path

/-- Where a cookie is stored; `none` when the client refuses it, being outside its domain. -/
def place (c : Client) (s : Seen) : Option Key :=
  match s.get "domain".toList with
  | none => some (s.name, c.host, pathOf c (s.get "path".toList))
  | some d =>
    if d = [] then some (s.name, c.host, pathOf c (s.get "path".toList))
    else if InDomain c.host (domainOf d) then some (s.name, domainOf d, pathOf c (s.get "path".toList))
    else none

/-- The cookies a client has. -/
abbrev Jar := Key → Option Str

/-- The jar after a field was received. -/
def receive (c : Client) (jar : Jar) (field : Str) : Jar :=
  match seen field with
  | none => jar
  | some s =>
    match place c s with
    | none => jar
    | some k => fun k' => if k' = k then (if Expired c s then none else some s.value) else jar k'

/-- A text without semicolons and without white space at its ends. -/
def Clean (s : Str) : Prop := ';' ∉ s ∧ Cookies.Spec.Trimmed s

/-- The texts among the options are clean. -/
def CleanOpts (date : Int → Str) (o : Opts) : Prop :=
  (∀ s, o.path = some s → Clean s) ∧ (∀ s, o.domain = some s → Clean s) ∧
    (∀ e, o.expires = some e → Clean (expiresText date e))

/-- Names that a cookie may have: legal ones that are not names of attributes. -/
def Name (key : Str) : Prop :=
  Cookies.Spec.Legal key ∧ lower key ∉ ["expires".toList, "path".toList, "comment".toList, "domain".toList,
    "max-age".toList, "secure".toList, "httponly".toList, "version".toList, "samesite".toList]

/-- Allowed values of `samesite`. -/
def SameSite (s : Option Str) : Prop :=
  ∀ v, s = some v → lower v = "strict".toList ∨ lower v = "lax".toList ∨ lower v = "none".toList

/-- An option that is not empty. -/
def given (v : Option Str) : Option Str := v.filter (· ≠ [])

/-- Where the caller wants the cookie: under its name, in the domain and below the path given. -/
def wanted (c : Client) (key : Str) (o : Opts) : Option Key :=
  match given o.domain with
  | none => some (key, c.host, pathOf c (given o.path))
  | some d => if InDomain c.host (domainOf d) then some (key, domainOf d, pathOf c (given o.path)) else none

/-- Whether the options make the cookie one that has expired already. -/
def Ended (date : Int → Str) (c : Client) (o : Opts) : Prop :=
  match o.maxAge with
  | some n => n ≤ 0
  | none => match (given (o.expires.map (expiresText date))).bind c.dateOf with
    | some t => t ≤ c.now
    | none => False

instance (date : Int → Str) (c : Client) (o : Opts) : Decidable (Ended date c o) := by
  unfold Ended; split <;> (try split) <;> infer_instance

/-- What a jar becomes when the cookie is set: changed in one place at most. -/
def stored (date : Int → Str) (c : Client) (jar : Jar) (key value : Str) (o : Opts) : Jar := fun k =>
  if wanted c key o = some k then (if Ended date c o then none else some value) else jar k

end Verif.SetCookie.Spec
