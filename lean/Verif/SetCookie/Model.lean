import Verif.Cookies.Model
import Verif.Responses.Model

/-!
# Setting and deleting cookies

Model of `Response.set_cookie` and `Response.delete_cookie` (/repo/lilya/responses.py 240-326) with the
text that `http.cookies` makes.  Simplifications: a date given as `datetime` is given as its text; the
text that `http.cookies` makes for a number of seconds from now is a parameter.
-/

namespace Verif.SetCookie

open Verif Verif.Responses

/-- The value of `expires`: a text (or a `datetime`), or seconds from now. -/
inductive Expires where
  | text (s : Str)
  | seconds (n : Int)
  deriving DecidableEq

/-- The options of `set_cookie` (/repo/lilya/responses.py 240-252). -/
structure Opts where
  path : Option Str
  domain : Option Str
  secure : Bool
  httponly : Bool
  maxAge : Option Int
  expires : Option Expires
  samesite : Option Str
  deriving DecidableEq

/-- `http.cookies.Morsel._reserved`. -/
def reserved : List Str :=
  ["expires".toList, "path".toList, "comment".toList, "domain".toList, "max-age".toList, "secure".toList,
   "httponly".toList, "version".toList, "samesite".toList]

/-- `"%d" % n`. -/
def intText (n : Int) : Str := if n < 0 then '-' :: Path.natToDec n.natAbs else Path.natToDec n.natAbs

/-- An attribute with a value in `Morsel.OutputString`: an empty value is left out. -/
def attr (name : Str) (v : Option Str) : List Str :=
  match v with
  | some [] => []
  | some (c :: t) => [name ++ '=' :: (c :: t)]
  | none => []

/-- An attribute without a value. -/
def flag (name : Str) (b : Bool) : List Str := if b then [name] else []

/-- The text of `expires`; `date` gives the date a number of seconds from now. -/
def expiresText (date : Int → Str) : Expires → Str
  | .text s => s
  | .seconds n => date n

/-- The attributes in the order of `sorted(self.items())` in `Morsel.OutputString`, set as in
/repo/lilya/responses.py 272-293. -/
def attrs (date : Int → Str) (o : Opts) : List Str :=
  attr "Domain".toList o.domain ++ attr "expires".toList (o.expires.map (expiresText date)) ++
  flag "HttpOnly".toList o.httponly ++ attr "Max-Age".toList (o.maxAge.map intText) ++
  attr "Path".toList o.path ++ attr "SameSite".toList o.samesite ++ flag "Secure".toList o.secure

/-- Whether `samesite` is one of the three values (/repo/lilya/responses.py 287-292). -/
def samesiteOk (s : Option Str) : Bool :=
  match s with
  | none => true
  | some s => lower s ∈ ["strict".toList, "lax".toList, "none".toList]

/-- The value of the field made by `set_cookie` (/repo/lilya/responses.py 270-294); `none` when
`http.cookies` refuses the name or the assertion fails. -/
def cookieValue (date : Int → Str) (key value : Str) (o : Opts) : Option Str :=
  if lower key ∈ reserved then none
  else if key = [] ∨ ¬ key.all Cookies.legal then none
  else if ¬ samesiteOk o.samesite then none
  else
    some (strip isSpace (' ' :: joinWith "; ".toList ((key ++ '=' :: Cookies.quote value) :: attrs date o)))

/-- `set_cookie` on the headers of a response (/repo/lilya/responses.py 240-295). -/
def setCookie (date : Int → Str) (hs : Headers) (key value : Str) (o : Opts) : Option Headers :=
  (cookieValue date key value o).map fun v => MultiDict.add hs "set-cookie".toList v

/-- `delete_cookie` (/repo/lilya/responses.py 297-326): the age and the date given are not used. -/
def deleteCookie (date : Int → Str) (hs : Headers) (key : Str) (o : Opts) : Option Headers :=
  setCookie date hs key [] { o with maxAge := some 0, expires := some (.seconds 0) }

end Verif.SetCookie
