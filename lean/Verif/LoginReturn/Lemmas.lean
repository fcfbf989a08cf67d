import Verif.LoginReturn.Spec
import Verif.TrustedLinks.Lemmas
import Verif.SignedLinks.Lemmas
import Verif.Redirect.Props

/-!
# Lemmas for C155
-/

namespace Verif.LoginReturn

open Verif Spec Verif.Url Verif.Hosts.Spec Verif.AbsoluteUrl.Spec

theorem header_made {sc : AbsoluteUrl.Sc} {secure : Bool} {h t : Str} (o : Ordinary sc secure h t) :
    Made sc secure (h ++ t) := by
  have key : ∀ l : List (Str × Str), aget l "host".toList = some (h ++ t) →
      ∃ b a, l = b ++ ("host".toList, h ++ t) :: a ∧ ∀ kv ∈ b, kv.1 ≠ "host".toList := by
    intro l
    induction l with
    | nil => intro e; cases e
    | cons kv l ih =>
      intro e
      rw [aget] at e
      by_cases hk : kv.1 = "host".toList
      · rw [if_pos hk] at e
        refine ⟨[], l, ?_, fun _ hm => by cases hm⟩
        rw [← hk, ← Option.some.inj e]
        rfl
      · rw [if_neg hk] at e
        obtain ⟨b, a, rfl, hb⟩ := ih e
        refine ⟨kv :: b, a, rfl, fun x hx => ?_⟩
        rcases List.mem_cons.1 hx with rfl | hx
        · exact hk
        · exact hb x hx
  obtain ⟨b, a, e, hb⟩ := key _ o.header
  exact .header b a e hb o.host o.port

theorem plainQuery_bytes {q : Str} (hq : PlainQuery q) : Bytes q := by
  intro c hc
  rcases hq c hc with h | h | h | h
  · have := Char.le_def.1 h.2
    exact Nat.lt_of_le_of_lt this (by decide)
  · have := Char.le_def.1 h.2
    exact Nat.lt_of_le_of_lt this (by decide)
  · have := Char.le_def.1 h.2
    exact Nat.lt_of_le_of_lt this (by decide)
  · have all : ∀ d ∈ "_.-~%!$&'()*+,;=:@/?".toList, d.toNat < 256 := by decide
    exact all c h

theorem text_bytes {s h t p q : Str} (hs : Scheme s) (hh : PlainHost h) (ht : PortText t) (hp : PlainPath p)
    (hq : PlainQuery q) : Bytes (s ++ "://".toList ++ (h ++ t) ++ p ++ tail '?' q) := by
  have hlit : Bytes "://".toList := by unfold Bytes; decide
  refine SignedLinks.bytes_append (SignedLinks.bytes_append (SignedLinks.bytes_append
    (SignedLinks.bytes_append ?_ hlit) ?_) ?_) ?_
  · intro c hc
    have := SignedUrl.schemeChar_lt (hs.2.1 c hc)
    omega
  · intro c hc
    rcases Hosts.authority_chars hh ht c hc with h | rfl
    · have := SignedUrl.alwaysSafe_lt c h
      omega
    · decide
  · intro c hc
    exact (hp.2 c hc).1
  · unfold tail
    split
    · exact fun c hc => by cases hc
    · intro c hc
      rcases List.mem_cons.1 hc with rfl | hc
      · decide
      · exact plainQuery_bytes hq c hc

/-- The parts of a location. -/
theorem location_split (ip6 : Str → Bool) {s h t p q : Str} (hs : Scheme s) (hh : PlainHost h) (ht : PortText t)
    (hp : PlainPath p) (hq : PlainQuery q) :
    ∃ p', urlsplit ip6 (location (s ++ "://".toList ++ (h ++ t) ++ p ++ tail '?' q)) = some ⟨s, h ++ t, p', q, []⟩ ∧
      Addresses.percentDecode p' = p := by
  obtain ⟨p', e, hp1, hp2, hp3, hp4⟩ := Hosts.location_addresses hs hh ht hp hq
  refine ⟨p', ?_, hp4⟩
  have eq : queryPart q = tail '?' q := rfl
  rw [eq] at e
  obtain ⟨h1, h2, _, _⟩ := Hosts.authority_plain hh ht
  obtain ⟨h5, h6, _⟩ := Hosts.plainQuery_facts hq
  have hc : Clean p' := by
    intro c hm
    have hin : c ∈ location (s ++ "://".toList ++ (h ++ t) ++ p ++ tail '?' q) := by
      rw [e]
      exact List.mem_append_left _ (List.mem_append_right _ hm)
    have hu := Redirect.C58_chars _ (text_bytes hs hh ht hp hq) c hin
    refine ⟨?_, ?_, ?_⟩ <;> (rintro rfl; revert hu; decide)
  rw [e]
  exact urlsplit_eq ip6 hs h1 ⟨.inr hp1, hp2, hp3⟩ h5 h2 hc h6

/-- The URL of a request. -/
theorem request_url (ip6 : Str → Bool) {sc : AbsoluteUrl.Sc} {secure : Bool} {h t : Str} (o : Ordinary sc secure h t) :
    ∃ u, AbsoluteUrl.ofScope ip6 sc = .ok u ∧
      u.text = AbsoluteUrl.Spec.scheme false secure ++ "://".toList ++ (h ++ t) ++ sc.path ++ tail '?' sc.query := by
  have hu := AbsoluteUrl.scopeText_made o.scheme (header_made o)
  obtain ⟨n, k, e⟩ := AbsoluteUrl.ofText_plain ip6 (AbsoluteUrl.scheme_ok false secure) o.host o.port o.path o.query
  unfold AbsoluteUrl.ofScope
  rw [hu]
  exact ⟨_, e, rfl⟩

end Verif.LoginReturn
