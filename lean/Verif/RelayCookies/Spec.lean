import Verif.Basic

/-!
# How a client reads a `Set-Cookie` header (RFC 6265, 5.2)
-/

namespace Verif.RelayCookies.Spec

/-- The pieces between semicolons, without surrounding blanks. -/
def pieces (cookie : Str) : List Str := (splitOn ';' cookie).map (strip isSpace)

/-- The first piece: the cookie's name and value. -/
def pair (cookie : Str) : Str := (pieces cookie).headD []

/-- The other pieces: the attributes.  Empty ones mean nothing. -/
def attributes (cookie : Str) : List Str := (pieces cookie).tail.filter (fun a => a ≠ [])

/-- The name of an attribute: before the first `=`, without blanks, in lower case. -/
def attrName (a : Str) : Str := lower (strip isSpace (a.takeWhile (fun c => c ≠ '=')))

/-- The value of an attribute: after the first `=`, without blanks. -/
def attrValue (a : Str) : Str := strip isSpace ((a.dropWhile (fun c => c ≠ '=')).drop 1)

/-- A `Domain` attribute. -/
def IsDomain (a : Str) : Prop := attrName a = "domain".toList

instance (a : Str) : Decidable (IsDomain a) := inferInstanceAs (Decidable (_ = _))

/-- The `Domain` attribute is written in the usual way: with `=` right after the name. -/
def Usual (a : Str) : Prop := lower (a.take 7) = "domain=".toList

/-- The cookie has a name, which is not `domain`, and its `Domain` attributes are written in
the usual way. -/
def PlainCookie (cookie : Str) : Prop :=
  pair cookie ≠ [] ∧ attrName (pair cookie) ≠ "domain".toList ∧
  ∀ a ∈ attributes cookie, IsDomain a → Usual a

/-- A domain that can be written in a cookie: not empty, without semicolon and surrounding
blanks. -/
def PlainDomain (d : Str) : Prop := d ≠ [] ∧ ';' ∉ d ∧ strip isSpace d = d

end Verif.RelayCookies.Spec
