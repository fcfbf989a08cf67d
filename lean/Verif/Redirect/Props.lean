import Verif.Redirect.Lemmas

/-!
# C58: the location of a redirect
-/

namespace Verif.Redirect

open Verif Verif.Responses Spec

/-- C58: a redirect is one start message with its status and one empty body message; the only location
field is that of the URL, whatever location the caller gives. -/
theorem C58_location (status : Nat) (url : Str) (caller : Headers) :
    ∃ hs v, (redirect status url caller).call = [.start status hs, .body []] ∧
      fields hs "location".toList = [v] ∧ v = Url.location url := by
  refine ⟨_, _, rfl, ?_, rfl⟩
  have hl : lower "location".toList = "location".toList := by decide
  rw [fields_getall _ _ hl]
  show MultiDict.getall lower (MultiDict.setitem lower _ "location".toList (Url.location url)) _ = _
  rw [MultiDict.getall_setitem, if_pos rfl]

example : (redirect 303 "/a b".toList [("Location".toList, "x".toList)]).call =
    [.start 303 [("location".toList, "/a%20b".toList), ("content-length".toList, "0".toList)], .body []] := by
  decide +kernel

/-- C58: it is made of characters of URIs only, for any URL: no line break, space or quote can be put
into the header. -/
theorem C58_chars (url : Str) (h : Bytes url) : ∀ c ∈ Url.location url, c ∈ uriChars :=
  location_chars url h

example : Bytes "/a\r\nSet-Cookie: x=1".toList ∧
    Url.location "/a\r\nSet-Cookie: x=1".toList = "/a%0D%0ASet-Cookie:%20x=1".toList := by
  refine ⟨by unfold Bytes; decide, by decide +kernel⟩

/-- C58: a URL made of such characters is sent as it is; in particular escapes are not escaped again. -/
theorem C58_same (url : Str) (h : ∀ c ∈ url, c ∈ uriChars) : Url.location url = url :=
  location_of_uri url h

example : ∀ c ∈ "https://h/%20?q=a+b#f".toList, c ∈ uriChars := by decide

/-- C58: quoting a location again changes nothing. -/
theorem C58_idempotent (url : Str) (h : Bytes url) : Url.location (Url.location url) = Url.location url :=
  location_of_uri _ (location_chars url h)

/-- C58: the location stands for the same bytes as the URL. -/
theorem C58_decoded (url : Str) (h : Bytes url) : decoded (Url.location url) = decoded url :=
  decoded_location url.length url (Nat.le_refl _) h

example : Bytes "/%e9 %zz%4".toList ∧ decoded "/%41 %zz%4".toList = "/A %zz%4".toList ∧
    Url.location "/%41 %zz%4".toList = "/%41%20%zz%4".toList := by
  refine ⟨by unfold Bytes; decide, by decide +kernel, by decide +kernel⟩

end Verif.Redirect
