import Verif.CsrfFlow.Model
import Verif.Csrf.Spec
import Verif.SetCookie.Spec

/-!
# A browser that opens pages and submits forms

The browser keeps cookies as in RFC 6265 (`SetCookie.Spec`), sends the cookie of the protection with every request, and
submits the token of a page.  Simplification: it sends no other cookies.
-/

namespace Verif.CsrfFlow.Spec

open Verif Verif.CsrfFlow

/-- The options of the cookie, as a caller of `set_cookie` would give them. -/
def options (s : Site) : SetCookie.Opts where
  path := some s.path
  domain := s.domain
  secure := s.secure
  httponly := s.httponly
  maxAge := none
  expires := none
  samesite := some s.samesite

/-- A configuration that makes sense for a client: an allowed name and `samesite`, clean texts, and a domain of the
client; the cookie is kept in the place `k`. -/
def Sound (s : Site) (c : SetCookie.Spec.Client) (k : SetCookie.Spec.Key) : Prop :=
  SetCookie.Spec.Name s.name ∧ SetCookie.Spec.SameSite (some s.samesite) ∧ SetCookie.Spec.Clean s.path ∧
    (∀ d, s.domain = some d → SetCookie.Spec.Clean d) ∧ SetCookie.Spec.wanted c s.name (options s) = some k

/-- A text of digits and the letters `a` to `f`. -/
def Hex (t : Str) : Prop := ∀ c ∈ t, (48 ≤ c.toNat ∧ c.toNat ≤ 57) ∨ (97 ≤ c.toNat ∧ c.toNat ≤ 102)

/-- What HMAC-SHA256 gives as a hexadecimal text. -/
def HexDigest (hmac : Str → Str → Str) : Prop := ∀ k m, (hmac k m).length = 64 ∧ Hex (hmac k m)

/-- What `token_hex(32)` gives. -/
def Random (r : Str) : Prop := r.length = 64 ∧ Hex r

/-- A browser: its cookies, and the tokens in the pages that it has open, oldest first. -/
structure Browser where
  jar : SetCookie.Spec.Jar
  tabs : List (Option Str)

/-- The value of the cookie in a request. -/
def sent (s : Site) (k : SetCookie.Spec.Key) (jar : SetCookie.Spec.Jar) : Option Str :=
  (jar k).bind fun v => aget (Cookies.parse (s.name ++ '=' :: v)) s.name

/-- Pages are opened at the same time: all requests carry the cookie of the moment, and the responses arrive in
order. -/
def openAll (hmac : Str → Str → Str) (date : Int → Str) (s : Site) (c : SetCookie.Spec.Client) (k : SetCookie.Spec.Key)
    (b : Browser) (vs : List Visit) : Browser where
  jar := (vs.flatMap fun v => (respond hmac date s (sent s k b.jar) v).2).foldl (SetCookie.Spec.receive c) b.jar
  tabs := b.tabs ++ vs.map fun v => (respond hmac date s (sent s k b.jar) v).1

/-- A history: groups of pages, one group after the other. -/
def history (hmac : Str → Str → Str) (date : Int → Str) (s : Site) (c : SetCookie.Spec.Client) (k : SetCookie.Spec.Key)
    (b : Browser) (h : List (List Visit)) : Browser := h.foldl (openAll hmac date s c k) b

/-- The other cookies of a page do not touch the cookie of the protection. -/
def Apart (c : SetCookie.Spec.Client) (k : SetCookie.Spec.Key) (v : Visit) : Prop :=
  ∀ f ∈ v.extra, ∀ jar, SetCookie.Spec.receive c jar f k = jar k

/-- A request of the browser with an unsafe method that submits a token: in the header, or as the first field of an
urlencoded form of allowed size. -/
def Submits (s : Site) (r : Csrf.Request) (token : Str) : Prop :=
  ¬ Csrf.Spec.SafeMethod s.conf r.method ∧
    (r.header = some token ∨
      (r.header = none ∧ Csrf.Spec.Occurs "application/x-www-form-urlencoded".toList (lower r.contentType) ∧
        ∃ others, (∀ kv ∈ (s.conf.field, token) :: others, (∀ x ∈ kv.1, x.toNat < 256) ∧ ∀ x ∈ kv.2, x.toNat < 256) ∧
          Csrf.Spec.Body r.messages (Url.urlencode ((s.conf.field, token) :: others)) ∧
          (Url.urlencode ((s.conf.field, token) :: others)).length ≤ s.conf.maxBody))

/-- The request reaches the application. -/
def Passes (hmac : Str → Str → Str) (s : Site) (r : Csrf.Request) : Prop :=
  ∃ recv w, Csrf.serve hmac s.conf r = .app recv w

end Verif.CsrfFlow.Spec
