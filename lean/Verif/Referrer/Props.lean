import Verif.Referrer.Lemmas

/-!
# C64: the referrer flag says whether the referring host is trusted

Full statement: for every request, `referrer_is_trusted` is set to whether the address in `Referer` has a host that
is on the list (as itself or below a `*.` domain), or is of the same origin as the request when that is allowed, or
is absent and `""` is on the list; with `*` every referrer is trusted.  Untrusted requests are answered 400 when
blocking is on, and reach the application otherwise.
-/

namespace Verif.Referrer

open Verif Url Spec Hosts Hosts.Spec

/-- **C64, configuration.**  A list is taken when its entries are `*`, hosts or `*.` and a host. -/
theorem C64_config (c : Config) : c.valid = true ↔ Acceptable c.allowed :=
  valid_acceptable ⟨c.allowed, false, c.block⟩

example : (⟨["a.b".toList, "*.c".toList, []], true, false⟩ : Config).valid = true ∧
    (⟨["*c".toList], true, false⟩ : Config).valid = false := by decide

/-- **C64, the flag.**  For an address with a host name, whatever stands before and after the host. -/
theorem C64_referrer_partial (ip6 : Str → Bool) (c : Config) (hv : c.valid = true) (hs : "*".toList ∉ c.allowed)
    (host : Option Str) (target referrer h : Str) (ht : HostName (host.getD []) target) (hr : RefersTo referrer h) :
    ∃ trusted, (trusted = true ↔ Trusted c.allowed c.sameOrigin h target) ∧
      call ip6 c true host (some referrer) =
        if trusted = false ∧ c.block = true then .reject else .pass (some trusted) := by
  refine ⟨judgeHost c (lower h) target, ?_, ?_⟩
  · have hw : WellFormed c.allowed := (valid_wellFormed ⟨c.allowed, false, c.block⟩ hs).mp hv
    exact judgeHost_iff c hw (lower h) target
  · have hh : hostOf host = target := by
      have := (hostName_iff (host.getD []) target).mp ht
      rw [← this]
      rfl
    unfold call
    rw [if_neg (fun h => by cases h), Option.getD_some, hh, validate_refers ip6 c hs referrer h target hr]
    simp only [and_comm]

/-- A trick that the theorem covers: the trusted name stands in the user part, the path and the query. -/
example : RefersTo "https://good.com:1@Evil.com:8443/good.com?x=.good.com".toList "Evil.com".toList ∧
    call (fun _ => true) ⟨["good.com".toList, "*.good.com".toList], true, true⟩ true (some "good.com:80".toList)
      (some "https://good.com:1@Evil.com:8443/good.com?x=.good.com".toList) = .reject ∧
    call (fun _ => true) ⟨["good.com".toList, "*.good.com".toList], true, true⟩ true (some "good.com:80".toList)
      (some "https://WWW.good.com/".toList) = .pass (some true) := by
  refine ⟨⟨"https".toList, "good.com:1@".toList, ":8443".toList, "/good.com".toList, "x=.good.com".toList, .inr rfl,
    .inr ⟨"good.com:1".toList, rfl, by decide⟩, ⟨by decide, by decide⟩,
    .inr ⟨"8443".toList, rfl, by decide, by decide, by decide⟩, ⟨.inr ⟨_, rfl⟩, by decide⟩,
    by unfold QueryText; decide, rfl⟩, ?_, ?_⟩
  · decide +kernel
  · decide +kernel

/-- **C64, no referrer.**  Trusted exactly when `""` is on the list. -/
theorem C64_absent (ip6 : Str → Bool) (c : Config) (hs : "*".toList ∉ c.allowed) (host referer : Option Str)
    (hr : referer.getD [] = []) :
    call ip6 c true host referer = if [] ∈ c.allowed then .pass (some true) else
      if c.block = true then .reject else .pass (some false) := by
  unfold call validate
  rw [if_neg (fun h => by cases h), hr, if_neg hs, if_pos rfl]
  by_cases h : [] ∈ c.allowed
  · rw [if_pos h]
    simp [h]
  · rw [if_neg h]
    simp [h]

example : call (fun _ => true) ⟨[[]], true, true⟩ true none none = .pass (some true) ∧
    call (fun _ => true) ⟨[], true, true⟩ true none none = .reject := by decide +kernel

/-- **C64, any referrer.**  With `*` every request is trusted, and scopes that are not connections are left alone. -/
theorem C64_any (ip6 : Str → Bool) (c : Config) (host referer : Option Str) :
    ("*".toList ∈ c.allowed → call ip6 c true host referer = .pass (some true)) ∧
    call ip6 c false host referer = .pass none := by
  constructor
  · intro h
    unfold call validate
    rw [if_neg (fun h => by cases h), if_pos h]
    simp
  · unfold call
    rw [if_pos rfl]

/-- **C64, blocking.**  A blocked request never reaches the application untrusted, and without blocking every
request that has an answer reaches it. -/
theorem C64_block (ip6 : Str → Bool) (c : Config) (host referer : Option Str) :
    (c.block = true → call ip6 c true host referer ≠ .pass (some false)) ∧
    (c.block = false → call ip6 c true host referer ≠ .reject) := by
  unfold call
  rw [if_neg (fun h => by cases h)]
  cases validate ip6 c (referer.getD []) (hostOf host) with
  | none => exact ⟨(fun _ h => by cases h), (fun _ h => by cases h)⟩
  | some t =>
    simp only
    constructor
    · intro hb
      cases t <;> simp [hb]
    · intro hb
      cases t <;> simp [hb]

example : call (fun _ => true) ⟨["a".toList], true, false⟩ true none (some "http://b/".toList) = .pass (some false) := by
  decide +kernel

/-- **C64, no host.**  A referrer without a host (a path) is not trusted. -/
theorem C64_hostless (ip6 : Str → Bool) (c : Config) (hs : "*".toList ∉ c.allowed) (host : Option Str) (rest : Str)
    (h : rest.head? ≠ some '/') (hc : ∀ x ∈ rest, x ≠ '\t' ∧ x ≠ '\r' ∧ x ≠ '\n') :
    call ip6 c true host (some ('/' :: rest)) = if c.block = true then .reject else .pass (some false) := by
  obtain ⟨u, h1, h2⟩ := mkURL_path ip6 rest h hc
  unfold call validate
  rw [if_neg (fun h => by cases h), if_neg hs, if_neg (fun h => by cases h)]
  simp only [Option.getD_some, h1, h2, and_true]

example : "a/b?c".toList.head? ≠ some '/' ∧ ∀ x ∈ "a/b?c".toList, x ≠ '\t' ∧ x ≠ '\r' ∧ x ≠ '\n' := by decide

/-- **C64, order.**  The order in which the set of patterns is iterated does not matter. -/
theorem C64_order (ip6 : Str → Bool) (a b : List Str) (h : ∀ x, x ∈ a ↔ x ∈ b) (same block conn : Bool)
    (host referer : Option Str) :
    call ip6 ⟨a, same, block⟩ conn host referer = call ip6 ⟨b, same, block⟩ conn host referer := by
  have hany : ∀ f : Str → Bool, a.any f = b.any f := by
    intro f
    rw [Bool.eq_iff_iff, List.any_eq_true, List.any_eq_true]
    exact ⟨fun ⟨x, hx, hf⟩ => ⟨x, (h x).mp hx, hf⟩, fun ⟨x, hx, hf⟩ => ⟨x, (h x).mpr hx, hf⟩⟩
  unfold call validate judgeHost
  simp only [h, hany]

/-- **False of addresses with an IPv6 host**: `[::…]` is read as the host `""`, so that they are trusted where requests
without a referrer are, although no host was listed. -/
theorem C64_ipv6_false :
    call (fun _ => true) ⟨[[]], false, true⟩ true (some "example.com".toList) (some "http://[::ffff:6.6.6.6]/".toList) =
      .pass (some true) := by decide +kernel

/-- **False of requests without a host**: the same referrers are of the same origin as a request whose `Host` is
absent or empty. -/
theorem C64_no_host_false :
    call (fun _ => true) ⟨[], true, true⟩ true none (some "http://[::ffff:6.6.6.6]/".toList) = .pass (some true) := by
  decide +kernel

/-- **False of the same origin**: another scheme or port is another origin (RFC 6454), yet it is trusted. -/
theorem C64_origin_false :
    call (fun _ => true) ⟨[], true, true⟩ true (some "example.com".toList) (some "http://example.com:8080/".toList) =
      .pass (some true) := by decide +kernel

/-- **False of letter case**: the host of the request and the patterns are not brought to lower case, the referrer
is; the same origin is not recognised. -/
theorem C64_case_false :
    call (fun _ => true) ⟨[], true, true⟩ true (some "Example.com".toList) (some "https://Example.com/".toList) = .reject ∧
    call (fun _ => true) ⟨["Example.com".toList], true, true⟩ true none (some "https://Example.com/".toList) = .reject := by
  decide +kernel

/-- **False of referrers that are no addresses**: they raise instead of being untrusted. -/
theorem C64_raises_false (ip6 : Str → Bool) :
    call ip6 ⟨["a".toList], true, true⟩ true none (some "http://[".toList) = .raised ∧
    call ip6 ⟨["a".toList], true, true⟩ true none (some "http://a:x/".toList) = .raised := by
  constructor
  · rfl
  · rfl

end Verif.Referrer
