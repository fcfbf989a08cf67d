import Verif.Transport.Spec
import Verif.Hosts.Props
import Verif.SecurityHeaders.Props

/-!
# Lemmas for C161
-/

namespace Verif.Transport

open Verif Spec Verif.Hosts Verif.Hosts.Spec

theorem secured_values (c : SecurityHeaders.Config) (headers : List (Str × Str))
    (h : SecurityHeaders.Spec.values headers "strict-transport-security".toList = []) :
    SecurityHeaders.Spec.values (secured c headers) "strict-transport-security".toList = [c.transport] := by
  obtain ⟨added, h1, _, _, _, _, h2, _⟩ := SecurityHeaders.C65_headers_partial c headers
  unfold secured
  simp only [h1]
  rw [SecurityHeaders.values_append, h, h2]
  rfl

/-- A request over TLS gets the page. -/
theorem answer_tls (ip6 : Str → Bool) (a : App) (host path query : Str) (headers : List (Str × Str)) :
    answer ip6 a (request true host path query) headers = .page (secured a.security headers) := by
  unfold answer
  rw [C09_secure ip6 true (request true host path query) (.inl rfl)]

/-- What is learned of the host itself. -/
theorem learn_own (known : List Known) (time : Nat) (host : Str) (c : SecurityHeaders.Config)
    (headers : List (Str × Str)) (m : Nat) (sub : Bool) (hm : read c.transport = some (m + 1, sub))
    (h : SecurityHeaders.Spec.values headers "strict-transport-security".toList = []) :
    ⟨host, time + (m + 1), sub⟩ ∈ learn known time host (secured c headers) := by
  unfold learn
  rw [secured_values c headers h]
  simp only [List.head?_cons, Option.bind_some, hm]
  exact List.mem_cons_self

/-- What is learned of others leaves the host alone. -/
theorem learn_other (known : List Known) (time : Nat) (g : Str) (headers : List (Str × Str)) (k : Known)
    (hk : k ∈ known) (hg : g ≠ k.host) : k ∈ learn known time g headers := by
  have hf : k ∈ known.filter fun k => k.host ≠ g := List.mem_filter.2 ⟨hk, by simpa using Ne.symm hg⟩
  unfold learn
  split
  · exact hk
  · exact hf
  · exact List.mem_cons_of_mem _ hf

/-- The host is known for a time after the last visit. -/
def Held (host : Str) (m : Nat) (known : List Known) (last : Nat) : Prop :=
  ∃ k ∈ known, k.host = host ∧ last + m ≤ k.until'

/-- Once the host is known, all requests go over TLS. -/
theorem lives_held (ip6 : Str → Bool) (a : App) (host : Str) (m : Nat) (sub : Bool)
    (hm : read a.security.transport = some (m + 1, sub)) {k1 k2 : List Known} {ss : List Step} {l : List Bool}
    (h : Lives ip6 a host k1 ss l k2) (hp : ∀ s ∈ ss, Plain host s) (last : Nat) (hw : Within (m + 1) last ss)
    (hh : Held host (m + 1) k1 last) : ∀ b ∈ l, b = true := by
  induction h generalizing last with
  | nil => exact fun b hb => absurd hb List.not_mem_nil
  | cons k1 k2 k3 s ss l1 l2 hd _ ih =>
    have hp1 := hp s List.mem_cons_self
    have hp2 : ∀ s ∈ ss, Plain host s := fun x hx => hp x (List.mem_cons_of_mem _ hx)
    intro b hb
    obtain ⟨k, hk, e, hu⟩ := hh
    cases hd with
    | tls time secure path query headers out hs ha =>
      have hw : time ≤ last + (m + 1) ∧ Within (m + 1) time ss := hw
      rw [answer_tls] at ha
      cases ha
      rcases List.mem_append.1 hb with hb | hb
      · exact List.mem_singleton.1 hb
      · exact ih hp2 time hw.2 ⟨_, learn_own k1 time host a.security headers m sub hm hp1.2.2, rfl, Nat.le_refl _⟩ b hb
    | sent time path query loc headers hs out hn hr hl ha =>
      have hw : time ≤ last + (m + 1) ∧ Within (m + 1) time ss := hw
      exact absurd ⟨k, hk, Nat.le_trans hw.1 hu, .inl e⟩ hn
    | other time g headers =>
      have hg : g ≠ host := hp1
      exact ih hp2 last hw ⟨k, learn_other k1 time g headers k hk (by rw [e]; exact hg), e, hu⟩ b
        (by simpa using hb)

end Verif.Transport
