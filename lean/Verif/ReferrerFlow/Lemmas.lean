import Verif.ReferrerFlow.Spec
import Verif.Referrer.Props
import Verif.SecurityHeaders.Props

/-!
# Lemmas for C158
-/

namespace Verif.ReferrerFlow

open Verif Spec Verif.Hosts.Spec Verif.Referrer.Spec

theorem text_refers {p : Place} (g : p.Good) : RefersTo p.text p.host := by
  refine ⟨p.scheme, [], p.port, p.path, p.query, ?_, .inl rfl, g.host, g.port, g.chars, g.query, ?_⟩
  · unfold Place.scheme
    cases p.secure
    · exact .inl rfl
    · exact .inr rfl
  · rfl

theorem origin_refers {p : Place} (g : p.Good) : RefersTo p.originText p.host := by
  refine ⟨p.scheme, [], p.port, "/".toList, [], ?_, .inl rfl, g.host, g.port, ⟨.inr ⟨[], by decide⟩, by decide⟩,
    (fun _ h => absurd h List.not_mem_nil), ?_⟩
  · unfold Place.scheme
    cases p.secure
    · exact .inl rfl
    · exact .inr rfl
  · show _ = _ ++ queryPart []
    unfold Place.originText queryPart
    rw [if_pos rfl, List.append_nil]
    rfl

/-- What a browser sends leads back to the page. -/
theorem referer_refers {policy : Policy} {p q : Place} (g : p.Good) {r : Str} (h : referer policy p q = some r) :
    RefersTo r p.host := by
  have ht : ∀ {x}, some p.text = some x → RefersTo x p.host := fun e => Option.some.inj e ▸ text_refers g
  have ho : ∀ {x}, some p.originText = some x → RefersTo x p.host := fun e => Option.some.inj e ▸ origin_refers g
  unfold referer at h
  cases policy <;> simp only at h
  · cases h
  · split at h
    · cases h
    · exact ht h
  · split at h
    · exact ht h
    · cases h
  · exact ho h
  · split at h
    · cases h
    · exact ho h
  · split at h
    · exact ht h
    · exact ho h
  · split at h
    · exact ht h
    · split at h
      · cases h
      · exact ho h
  · exact ht h

theorem host_name {q : Place} (g : q.Good) : HostName (q.host ++ q.port) q.host := by
  refine ⟨?_, ?_⟩
  · intro hc
    rcases g.host.2 ':' hc with h | h | h | h
    all_goals revert h; decide
  · rcases g.port with h | ⟨d, h, _⟩
    · exact .inl (by rw [h, List.append_nil])
    · exact .inr ⟨d, by rw [h]⟩

/-- The outcome for a header that was sent. -/
theorem visit_sent (ip6 : Str → Bool) (a : App) (hv : a.referrers.valid = true) (hs : "*".toList ∉ a.referrers.allowed)
    {p q : Place} (gp : p.Good) (gq : q.Good) {policy : Policy} {r : Str} (h : referer policy p q = some r) :
    ∃ trusted, (trusted = true ↔ Trusted a.referrers.allowed a.referrers.sameOrigin p.host q.host) ∧
      visit ip6 a (q.host ++ q.port) (some r) =
        if trusted = false ∧ a.referrers.block = true then .reject else .pass (some trusted) :=
  Referrer.C64_referrer_partial ip6 a.referrers hv hs (some (q.host ++ q.port)) q.host r p.host (host_name gq)
    (referer_refers gp h)

end Verif.ReferrerFlow
