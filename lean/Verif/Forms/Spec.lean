import Verif.Forms.Model

/-!
# Specification of URL-encoded forms
-/

namespace Verif.Forms.Spec

open Verif Verif.Url

/-- `e` encodes the text `s`: each byte stands for itself, or is escaped as `%xx`; a space may be `+`.
The characters `%`, `+`, `&` and `=` do not stand for themselves. -/
inductive Encodes : Str → Str → Prop where
  | nil : Encodes [] []
  | plain (c : Char) (s e : Str) (hc : c ≠ '%' ∧ c ≠ '+' ∧ c ≠ '&' ∧ c ≠ '=') (h : Encodes s e) :
      Encodes (c :: s) (c :: e)
  | space (s e : Str) (h : Encodes s e) : Encodes (' ' :: s) ('+' :: e)
  | escape (x y : Nat) (a b : Char) (s e : Str) (ha : hexVal a = some x) (hb : hexVal b = some y)
      (h : Encodes s e) : Encodes (Char.ofNat (16 * x + y) :: s) ('%' :: a :: b :: e)

/-- The body encodes a list of fields: `name=value` pairs joined by `&`. -/
inductive EncodesForm : List (Str × Str) → List Str → Prop where
  | nil : EncodesForm [] []
  | cons (n v en ev : Str) (ps : List (Str × Str)) (es : List Str) (hn : Encodes n en) (hv : Encodes v ev)
      (h : EncodesForm ps es) : EncodesForm ((n, v) :: ps) ((en ++ '=' :: ev) :: es)

/-- The raw fields of a body: the pieces between `&`, without an empty last piece. -/
def rawFields (body : Str) : List Str :=
  let pieces := splitOn '&' body
  if pieces.getLast? = some [] then pieces.dropLast else pieces

/-- The field that is read for a raw field: cut at the first `=`, each part decoded as the code does. -/
def item (raw : Str) : Str × Str :=
  (unquotePlus (unquote (partition '=' raw).1), unquotePlus (unquote ((partition '=' raw).2.getD [])))

end Verif.Forms.Spec
