import Verif.ApiDocs.Model

/-!
# What C103 speaks about

How a browser reads the places where values stand.
-/

namespace Verif.ApiDocs.Spec

open Verif Verif.ApiDocs

/-- The content of a title: all up to `</title`. -/
def readTitle : Str → Str
  | [] => []
  | c :: s => if startsWith (c :: s) "</title".toList then [] else c :: readTitle s

/-- An attribute in double quotes, before character references are replaced. -/
def readAttribute : Str → Str
  | [] => []
  | c :: s => if c = '"' then [] else c :: readAttribute s

/-- A text of a script in single quotes, with what follows it: `none` for a text that is not closed, or with a line
break.  A backslash takes the next character along. -/
def readScript : Str → Option (Str × Str)
  | [] => none
  | '\\' :: c :: s => (readScript s).map fun r => (c :: r.1, r.2)
  | c :: s =>
    if c = '\'' then some ([], s)
    else if c = '\n' ∨ c = '\r' then none
    else (readScript s).map fun r => (c :: r.1, r.2)

/-- A character that stands for itself in every place: none of `< & ' " \` and no line break. -/
def Harmless (c : Char) : Prop :=
  c ≠ '<' ∧ c ≠ '&' ∧ c ≠ '\'' ∧ c ≠ '"' ∧ c ≠ '\\' ∧ c ≠ '\n' ∧ c ≠ '\r'

/-- What a browser takes a value for. -/
def read (s : Slot) : Option Str :=
  match s.place with
  | .title => some (readTitle s.text)
  | .attribute => some (readAttribute s.text)
  | .script => (readScript s.text).map (·.1)

/-- The URL under which a page is configured. -/
def urlOf (c : Config) : Page → Option Str
  | .document => c.openapiUrl
  | .swagger => c.docsUrl
  | .oauth2 => c.oauth2Url
  | .redoc => c.redocUrl
  | .stoplight => c.stoplightUrl
  | .rapidoc => c.rapidocUrl

/-- A page that is wanted: its URL is there, and so is the URL of the document, which the pages need. -/
def Wanted (c : Config) (p : Page) : Prop :=
  (∃ u, urlOf c p = some u ∧ u ≠ []) ∧ (p = .oauth2 ∨ ∃ u, c.openapiUrl = some u ∧ u ≠ [])

end Verif.ApiDocs.Spec
