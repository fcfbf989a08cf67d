import Verif.ReferrerFlow.Lemmas

/-!
# C158: browsers and the check of referrers
-/

namespace Verif.ReferrerFlow.Props

open Verif Verif.ReferrerFlow.Spec Verif.Hosts.Spec Verif.Referrer.Spec

/-- **C158**, the policy: a page behind the security middleware has the policy that was configured, whatever the handler
has set. -/
theorem C158_policy (a : App) (c : SecurityHeaders.Config) (hc : a.security = some c) (p : Policy)
    (hp : c.referrer = p.name) (headers : List (Str × Str)) : policyOf (headersOf a headers) = p := by
  obtain ⟨added, h1, _, _, _, h2, _⟩ := SecurityHeaders.C65_headers_partial c headers
  unfold headersOf
  rw [hc]
  simp only [h1]
  unfold policyOf
  rw [SecurityHeaders.values_append, h2, List.flatMap_append, List.map_append, List.filterMap_append, hp]
  have e : ((([p.name].flatMap (splitOn ',')).map (strip fun c => c = ' ' || c = '\t')).filterMap read) = [p] := by
    cases p <;> decide +kernel
  rw [e, List.getLastD_eq_getLast?, List.getLast?_concat]
  rfl

/-- **C158**, own links: from a page of the application to the application, under every policy but one, the request
passes and is marked as trusted. -/
theorem C158_own_partial (ip6 : Str → Bool) (a : App) (hv : a.referrers.valid = true) (ho : a.referrers.sameOrigin =
    true)
    (page to' : Place) (gp : page.Good) (gt : to'.Good) (same : Same page to') (policy : Policy)
    (hp : policy ≠ .noReferrer) :
    visit ip6 a (to'.host ++ to'.port) (referer policy page to') = .pass (some true) := by
  by_cases hs : "*".toList ∈ a.referrers.allowed
  · exact (Referrer.C64_any ip6 a.referrers _ _).1 hs
  · have hd : down page to' = false := by
      unfold down
      rw [same.1]
      cases to'.secure <;> rfl
    have hr : ∃ r, referer policy page to' = some r := by
      unfold referer
      cases policy <;> simp only [hd, if_pos same, Bool.false_eq_true, if_false]
      · exact absurd rfl hp
      all_goals exact ⟨_, rfl⟩
    obtain ⟨r, hr⟩ := hr
    obtain ⟨trusted, h1, h2⟩ := visit_sent ip6 a hv hs gp gt hr
    have ht : trusted = true := h1.2 (.inl ⟨ho, by rw [gp.small]; exact same.2.1⟩)
    rw [hr, h2, ht, if_neg (fun h => by cases h.1)]

/-- **C158**, foreign pages: whatever policy a page on a host that is not trusted has, its requests are refused, or
marked
as not trusted.

The full statement has all lists; with the empty entry, which the documentation recommends, it fails
(`C158_empty_false`). -/
theorem C158_foreign_partial (ip6 : Str → Bool) (a : App) (hv : a.referrers.valid = true)
    (hs : "*".toList ∉ a.referrers.allowed) (he : [] ∉ a.referrers.allowed) (page to' : Place) (gp : page.Good)
    (gt : to'.Good) (foreign : ¬ Trusted a.referrers.allowed a.referrers.sameOrigin page.host to'.host)
    (policy : Policy) :
    visit ip6 a (to'.host ++ to'.port) (referer policy page to') =
      if a.referrers.block then .reject else .pass (some false) := by
  cases hr : referer policy page to' with
  | none =>
    have := Referrer.C64_absent ip6 a.referrers hs (some (to'.host ++ to'.port)) none rfl
    rw [if_neg he] at this
    exact this
  | some r =>
    obtain ⟨trusted, h1, h2⟩ := visit_sent ip6 a hv hs gp gt hr
    have ht : trusted = false := by
      cases trusted with
      | false => rfl
      | true => exact absurd (h1.1 rfl) foreign
    rw [h2, ht]
    simp only [true_and]

/-- **C158**, pages on the list: their requests are trusted exactly if their policy lets the browser name them. -/
theorem C158_listed_partial (ip6 : Str → Bool) (a : App) (hv : a.referrers.valid = true)
    (hs : "*".toList ∉ a.referrers.allowed) (he : [] ∉ a.referrers.allowed) (page to' : Place) (gp : page.Good)
    (gt : to'.Good) (listed : Listed a.referrers.allowed page.host) (other : page.host ≠ to'.host) (policy : Policy) :
    visit ip6 a (to'.host ++ to'.port) (referer policy page to') = .pass (some true) ↔
      (page.secure = true → to'.secure = true ∨ policy ∈ [.origin, .originWhenCross, .unsafeUrl]) ∧
      policy ≠ .noReferrer ∧ policy ≠ .sameOrigin := by
  have hcross : ¬ Same page to' := fun h => other h.2.1
  have key : visit ip6 a (to'.host ++ to'.port) (referer policy page to') = .pass (some true) ↔
      referer policy page to' ≠ none := by
    cases hr : referer policy page to' with
    | none =>
      have := Referrer.C64_absent ip6 a.referrers hs (some (to'.host ++ to'.port)) none rfl
      rw [if_neg he] at this
      unfold visit
      rw [this]
      cases a.referrers.block <;> simp
    | some r =>
      obtain ⟨trusted, h1, h2⟩ := visit_sent ip6 a hv hs gp gt hr
      have ht : trusted = true := h1.2 (.inr (by rw [gp.small]; exact listed))
      rw [h2, ht]
      simp
  rw [key]
  unfold referer down
  cases hps : page.secure <;> cases hts : to'.secure <;> cases policy <;> simp [hcross]

/-! ## Examples -/

/-- The application at `https://ex.org`, which trusts the pages below `good.com`. -/
def app : App :=
  ⟨some ⟨"default-src 'self'".toList, "same-origin".toList, "same-origin".toList, [], [], [], []⟩,
    ⟨["good.com".toList, "*.good.com".toList], true, true⟩⟩

/-- Addresses. -/
def place (secure : Bool) (host port path query : String) : Place :=
  ⟨secure, host.toList, port.toList, path.toList, query.toList⟩

theorem good_home : (place true "ex.org" ":8443" "/a" "q=1").Good :=
  ⟨⟨by decide, by decide⟩, by decide, .inr ⟨"8443".toList, by decide, by decide, by decide, by decide⟩,
    ⟨"a".toList, by decide⟩, ⟨.inr ⟨"a".toList, by decide⟩, by decide⟩, by unfold QueryText; decide⟩

theorem good_partner : (place true "www.good.com" "" "/x" "").Good :=
  ⟨⟨by decide, by decide⟩, by decide, .inl rfl, ⟨"x".toList, by decide⟩, ⟨.inr ⟨"x".toList, by decide⟩, by decide⟩,
    by unfold QueryText; decide⟩

theorem good_evil : (place true "evil.com" "" "/ex.org" "").Good :=
  ⟨⟨by decide, by decide⟩, by decide, .inl rfl, ⟨"ex.org".toList, by decide⟩,
    ⟨.inr ⟨"ex.org".toList, by decide⟩, by decide⟩, by unfold QueryText; decide⟩

theorem foreign : ¬ Trusted app.referrers.allowed true "evil.com".toList "ex.org".toList := by
  rintro (⟨_, h⟩ | h | ⟨d, h, sub, e⟩)
  · exact absurd h (by decide)
  · exact absurd h (by decide)
  · have hd : d = "good.com".toList := by
      have h : '*' :: '.' :: d ∈ ["good.com".toList, "*.good.com".toList] := h
      rcases List.mem_cons.1 h with h | h
      · exact absurd (List.cons.inj (show '*' :: '.' :: d = 'g' :: "ood.com".toList from h)).1 (by decide)
      · have h := List.mem_singleton.1 h
        exact (List.cons.inj (List.cons.inj (show '*' :: '.' :: d = '*' :: '.' :: "good.com".toList from h)).2).2
    subst hd
    have := congrArg List.length e
    have e1 : (lower "evil.com".toList).length = 8 := by decide
    have e2 : "good.com".toList.length = 8 := by decide
    rw [e1, List.length_append, List.length_cons, e2] at this
    omega

example (headers : List (Str × Str)) : policyOf (headersOf app headers) = .sameOrigin :=
  C158_policy app _ rfl .sameOrigin rfl headers

example : visit (fun _ => false) app "ex.org:8443".toList (some "https://ex.org:8443/a?q=1".toList) = .pass (some
    true) :=
  C158_own_partial _ app (by decide) rfl _ _ good_home good_home ⟨rfl, rfl, rfl⟩ .sameOrigin (by decide)

example (policy : Policy) : visit (fun _ => false) app "ex.org:8443".toList
    (referer policy (place true "evil.com" "" "/ex.org" "") (place true "ex.org" ":8443" "/a" "q=1")) = .reject :=
  C158_foreign_partial _ app (by decide) (by decide) (by decide) _ _ good_evil good_home foreign policy

example : visit (fun _ => false) app "ex.org:8443".toList (some "https://www.good.com/".toList) = .pass (some true) :=
  (C158_listed_partial (fun _ => false) app (by decide) (by decide) (by decide) _ _ good_partner good_home
    (.inr ⟨"good.com".toList, by decide, "www".toList, by decide⟩) (by decide) .strictOriginWhenCross).2
    ⟨fun _ => .inl rfl, by decide, by decide⟩

/-! ## Where it fails -/

/-- With the empty entry that the documentation recommends for an interface, any page can hide where it is: a foreign
page with the policy `no-referrer` is trusted. -/
theorem C158_empty_false : ∃ (a : App) (page to' : Place) (policy : Policy), a.referrers.valid = true ∧ page.Good ∧
    to'.Good ∧ a.referrers.block = true ∧ a.referrers.allowed = ["example.com".toList, "*.example.com".toList, []] ∧
    ¬ Trusted a.referrers.allowed a.referrers.sameOrigin page.host to'.host ∧
    visit (fun _ => false) a (to'.host ++ to'.port) (referer policy page to') = .pass (some true) := by
  refine ⟨⟨none, ⟨["example.com".toList, "*.example.com".toList, []], true, true⟩⟩, place true "evil.com" "" "/ex.org"
      "",
    place true "ex.org" ":8443" "/a" "q=1", .noReferrer, by decide, good_evil, good_home, rfl, rfl, ?_, by
          decide +kernel⟩
  rintro (⟨_, h⟩ | h | ⟨d, h, sub, e⟩)
  · exact absurd h (by decide)
  · exact absurd h (by decide)
  · have hd : d = "example.com".toList := by
      have h : '*' :: '.' :: d ∈ ["example.com".toList, "*.example.com".toList, []] := h
      rcases List.mem_cons.1 h with h | h
      · exact absurd (List.cons.inj (show '*' :: '.' :: d = 'e' :: "xample.com".toList from h)).1 (by decide)
      · rcases List.mem_cons.1 h with h | h
        · exact (List.cons.inj (List.cons.inj (show '*' :: '.' :: d = '*' :: '.' :: "example.com".toList from h)).2).2
        · cases List.mem_singleton.1 h
    subst hd
    have := congrArg List.length e
    have e1 : (lower (place true "evil.com" "" "/ex.org" "").host).length = 8 := by decide
    have e2 : "example.com".toList.length = 11 := by decide
    rw [e1, List.length_append, List.length_cons, e2] at this
    omega

/-- A trusted site that has the security middleware with its default policy is not recognised: its browsers do not say
where they come from. -/
theorem C158_partner_false : ∃ (a partner : App) (c : SecurityHeaders.Config) (page to' : Place), page.Good ∧ to'.Good ∧
    partner.security = some c ∧ c.referrer = "same-origin".toList ∧ Listed a.referrers.allowed page.host ∧
    visit (fun _ => false) a (to'.host ++ to'.port) (referer (policyOf (headersOf partner [])) page to') = .reject :=
  ⟨app, app, _, place true "www.good.com" "" "/x" "", place true "ex.org" ":8443" "/a" "q=1", good_partner, good_home,
      rfl,
    rfl, .inr ⟨"good.com".toList, by decide, "www".toList, by decide⟩, by decide +kernel⟩

/-- Who types the address, or has it as a bookmark, is refused. -/
theorem C158_typed_false : visit (fun _ => false) app "ex.org".toList none = .reject := by decide +kernel

/-- With the policy `no-referrer` for its own pages, an application refuses its own links. -/
theorem C158_none_false : ∃ (a : App) (page : Place), page.Good ∧ a.referrers.sameOrigin = true ∧
    visit (fun _ => false) a (page.host ++ page.port) (referer (policyOf (headersOf a [])) page page) = .reject :=
  ⟨⟨some ⟨[], [], "no-referrer".toList, [], [], [], []⟩, ⟨[], true, true⟩⟩, place true "ex.org" ":8443" "/a" "q=1",
    good_home, rfl, by decide +kernel⟩

/-- Another port of the same host is another origin, and its pages are trusted as if they were of the same. -/
theorem C158_port_false : ∃ (a : App) (page to' : Place), page.Good ∧ to'.Good ∧ ¬ Same page to' ∧
    a.referrers.allowed = [] ∧ a.referrers.block = true ∧
    visit (fun _ => false) a (to'.host ++ to'.port) (referer .strictOriginWhenCross page to') = .pass (some true) :=
  ⟨⟨none, ⟨[], true, true⟩⟩, place true "ex.org" ":8443" "/a" "q=1", place true "ex.org" "" "/x" "", good_home,
    ⟨⟨by decide, by decide⟩, by decide, .inl rfl, ⟨"x".toList, by decide⟩, ⟨.inr ⟨"x".toList, by decide⟩, by decide⟩,
      by unfold QueryText; decide⟩, by decide, rfl, rfl, by decide +kernel⟩

end Verif.ReferrerFlow.Props
