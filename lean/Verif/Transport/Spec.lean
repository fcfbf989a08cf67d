import Verif.Transport.Model
import Verif.Hosts.Spec
import Verif.SecurityHeaders.Spec

/-!
# Specification for C161: a browser with strict transport security (RFC 6797)
-/

namespace Verif.Transport.Spec

open Verif Verif.Hosts Verif.Hosts.Spec

/-- Blanks. -/
def blank (c : Char) : Bool := c = ' ' || c = '\t'

/-- The directives of the header: names in small letters, and values. -/
def directives (v : Str) : List (Str × Str) :=
  (splitOn ';' v).map fun d =>
    (lower (strip blank (d.takeWhile (· ≠ '='))), strip (fun c => blank c || c = '"') ((d.dropWhile (· ≠ '=')).drop 1))

/-- The header: the time in seconds, and whether subdomains are meant (RFC 6797, 6.1). -/
def read (v : Str) : Option (Nat × Bool) :=
  match (directives v).find? fun d => d.1 = "max-age".toList with
  | some (_, n) =>
    if n ≠ [] ∧ n.all Char.isDigit then
      some (number n, (directives v).any fun d => d.1 = "includesubdomains".toList)
    else none
  | none => none

/-- A host that the browser knows. -/
structure Known where
  host : Str
  until' : Nat
  sub : Bool

/-- The browser asks the host over TLS only (8.2, 8.3). -/
def Covered (known : List Known) (time : Nat) (host : Str) : Prop :=
  ∃ k ∈ known, time ≤ k.until' ∧ (k.host = host ∨ (k.sub = true ∧ ∃ s, host = s ++ '.' :: k.host))

/-- What the browser learns from an answer that came over TLS: of several fields the first counts, and a time of zero
means to forget (8.1). -/
def learn (known : List Known) (time : Nat) (host : Str) (headers : List (Str × Str)) : List Known :=
  match (SecurityHeaders.Spec.values headers "strict-transport-security".toList).head?.bind read with
  | none => known
  | some (0, _) => known.filter fun k => k.host ≠ host
  | some (m, sub) => ⟨host, time + m, sub⟩ :: known.filter fun k => k.host ≠ host

/-- A request of the browser. -/
def request (secure : Bool) (host path query : Str) : Url.ReqUrl :=
  ⟨if secure then "https".toList else "http".toList, some host, none, path, query⟩

/-- One step in the life of a browser: somebody opens an address of the application, written with `https` or with
`http`,
whose handler sets some headers; or an answer of another host comes over TLS. -/
inductive Step where
  | visit (time : Nat) (secure : Bool) (path query : Str) (headers : List (Str × Str))
  | other (time : Nat) (host : Str) (headers : List (Str × Str))

/-- What the browser sends for a step, the requests over TLS marked with `true`, and what it knows then.  Redirects are
followed; what comes over plain connections is not learned from. -/
inductive Does (ip6 : Str → Bool) (a : App) (host : Str) : List Known → Step → List Bool → List Known → Prop where
  | tls (known : List Known) (time : Nat) (secure : Bool) (path query : Str) (headers out : List (Str × Str))
      (hs : secure = true ∨ Covered known time host)
      (ha : answer ip6 a (request true host path query) headers = .page out) :
      Does ip6 a host known (.visit time secure path query headers) [true] (learn known time host out)
  | sent (known : List Known) (time : Nat) (path query loc : Str) (headers hs out : List (Str × Str))
      (hn : ¬ Covered known time host)
      (hr : answer ip6 a (request false host path query) headers = .redirect loc hs)
      (hl : Addresses loc "https".toList host path query)
      (ha : answer ip6 a (request true host path query) headers = .page out) :
      Does ip6 a host known (.visit time false path query headers) [false, true] (learn known time host out)
  | other (known : List Known) (time : Nat) (g : Str) (headers : List (Str × Str)) :
      Does ip6 a host known (.other time g headers) [] (learn known time g headers)

/-- A history. -/
inductive Lives (ip6 : Str → Bool) (a : App) (host : Str) : List Known → List Step → List Bool → List Known → Prop where
  | nil (known : List Known) : Lives ip6 a host known [] [] known
  | cons (k1 k2 k3 : List Known) (s : Step) (ss : List Step) (l1 l2 : List Bool) :
      Does ip6 a host k1 s l1 k2 → Lives ip6 a host k2 ss l2 k3 → Lives ip6 a host k1 (s :: ss) (l1 ++ l2) k3

/-- The step is plain: the address is, the handler says nothing of strict transport, and others are others. -/
def Plain (host : Str) : Step → Prop
  | .visit _ _ path query headers => PlainPath path ∧ PlainQuery query ∧
      SecurityHeaders.Spec.values headers "strict-transport-security".toList = []
  | .other _ g _ => g ≠ host

/-- From each visit to the next no more than `m` seconds pass; `last` is the time of the last one. -/
def Within (m : Nat) : Nat → List Step → Prop
  | _, [] => True
  | last, .visit time _ _ _ _ :: rest => time ≤ last + m ∧ Within m time rest
  | last, .other _ _ _ :: rest => Within m last rest

/-- The same, where the first visit is at any time. -/
def Regular (m : Nat) : List Step → Prop
  | [] => True
  | .visit time _ _ _ _ :: rest => Within m time rest
  | .other _ _ _ :: rest => Regular m rest

end Verif.Transport.Spec
