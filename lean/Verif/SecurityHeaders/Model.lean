import Verif.MultiDict.Model

/-!
# Headers that the security middlewares add

Model of `SecurityMiddleware` and `parse_content_policy` (/repo/lilya/middleware/security.py) and of
`XFrameOptionsMiddleware` (/repo/lilya/middleware/clickjacking.py).
-/

namespace Verif.SecurityHeaders

open Verif

/-- Python `s.split()`: the pieces between white space. -/
def words (s : Str) : List Str :=
  (splitOn ' ' (s.map fun c => if isSpace c then ' ' else c)).filter (· ≠ [])

/-- One part of a policy text (security.py 38-43): the dictionary with the section set. -/
def addPart (d : List (Str × Str)) (part : Str) : List (Str × Str) :=
  match words (strip isSpace part) with
  | [] => d
  | section_ :: content => aset d section_ (joinWith [' '] content)

/-- The dictionary that a policy text is parsed to (security.py 36-44). -/
def parseText (policy : Str) : List (Str × Str) := (splitOn ';' policy).foldl addPart []

/-- The value of a section in a policy dictionary: one text, or a list of texts. -/
inductive Value where
  | text (s : Str)
  | list (l : List Str)

/-- The text that a value is written as (security.py 49-50). -/
def Value.render : Value → Str
  | .text s => s
  | .list l => joinWith [' '] l

/-- The policy text (security.py 47-54). -/
def renderPolicy (d : List (Str × Value)) : Str :=
  joinWith "; ".toList (d.map fun kv => kv.1 ++ ' ' :: kv.2.render)

/-- `parse_content_policy` for a text. -/
def contentPolicy (policy : Str) : Str := renderPolicy ((parseText policy).map fun kv => (kv.1, .text kv.2))

/-- The arguments of `SecurityMiddleware` (security.py 62-96); the policy is the text made in the constructor. -/
structure Config where
  policy : Str
  opener : Str
  referrer : Str
  transport : Str
  typeOptions : Str
  frame : Str
  xss : Str

/-- The fields that are added, in order (security.py 127-135). -/
def Config.fields (c : Config) : List (Str × Str) :=
  [("Content-Security-Policy".toList, c.policy), ("Cross-Origin-Opener-Policy".toList, c.opener),
   ("Referrer-Policy".toList, c.referrer), ("Strict-Transport-Security".toList, c.transport),
   ("X-Content-Type-Options".toList, c.typeOptions), ("X-Frame-Options".toList, c.frame),
   ("X-XSS-Protection".toList, c.xss)]

/-- A message to the server: the start of a response with its type and headers, or anything else. -/
inductive Msg where
  | start (type : Str) (headers : List (Str × Str))
  | other (n : Nat)
  deriving DecidableEq

/-- `SecurityMiddleware.process_response` (security.py 113-137) on what the application sends. -/
def Config.process (c : Config) : Msg → Msg
  | .start t hs =>
    if t = "http.response.start".toList then
      .start t (c.fields.foldl (fun hs kv => MultiDict.add hs kv.1 kv.2) hs)
    else .start t hs
  | m => m

/-- `XFrameOptionsMiddleware.get_xframe_options` (clickjacking.py 53-63); `none` is a setting that is no text.
Simplification: upper case for ASCII letters only. -/
def frameOption (setting : Option Str) : Str :=
  match setting with
  | some s => s.map Char.toUpper
  | none => "DENY".toList

/-- `XFrameOptionsMiddleware.process_response` (clickjacking.py 33-51). -/
def frameProcess (setting : Option Str) : Msg → Msg
  | .start t hs =>
    if t = "http.response.start".toList ∧ MultiDict.get lower hs "X-Frame-Options".toList = none then
      .start t (MultiDict.add hs "X-Frame-Options".toList (frameOption setting))
    else .start t hs
  | m => m

end Verif.SecurityHeaders
