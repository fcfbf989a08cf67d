import Verif.HostRouting.Model
import Verif.Path.Spec

/-!
# What a host pattern stands for
-/

namespace Verif.HostRouting.Spec

open Verif Path Path.Spec

/-- A port as it is written after a host: nothing, or a colon and digits. -/
def Port (s : Str) : Prop := s = [] ∨ ∃ d, s = ':' :: d ∧ ∀ c ∈ d, Digit c

/-- A pattern as people write it: well formed, and without colons outside the parameters. -/
def HostPattern (t : Tmpl) : Prop :=
  WellFormed t ∧ ':' ∉ t.head ∧ ∀ p ∈ t.parts, ':' ∉ p.lit

/-- Values that a parameter of a kind does not take. -/
def Unfit : Conv → Val → Prop
  | .str, .text s => s = [] ∨ '/' ∈ s
  | .path, .text _ => False
  | .int, .nat _ => False
  | .float, .obj .float _ => False
  | .uuid, .obj .uuid _ => False
  | .datetime, .obj .datetime _ => False
  | _, _ => True

/-- Every parameter but the last is followed by a dot. -/
def Dotted : List Part → Prop
  | [] => True
  | [_] => True
  | p :: q :: ps => (∃ l, p.lit = '.' :: l) ∧ Dotted (q :: ps)

/-- Values from which the host name does not become ambiguous: there is at most one parameter, or the parameters are
divided by dots and the values have none. -/
def Clear (t : Tmpl) (txt : Str → Str) : Prop :=
  t.parts.length ≤ 1 ∨ (Dotted t.parts ∧ ∀ p ∈ t.parts, '.' ∉ txt p.name)

/-- The `Host` field of a request. -/
def hostField (headers : MultiDict.Items Str) (s : Str) : Prop :=
  MultiDict.getall lower headers "host".toList = [s]

end Verif.HostRouting.Spec
