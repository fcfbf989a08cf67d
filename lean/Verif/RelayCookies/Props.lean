import Verif.RelayCookies.Lemmas

/-!
# C38: cookie domain rewriting changes only the Domain attribute
-/

namespace Verif.RelayCookies

open Spec

/-- **C38, a domain.**  When the callback returns a domain, the rewritten cookie has the same name
and value, all other attributes in their order, at least one `Domain` attribute, and every
`Domain` attribute it has is that domain.  (For cookies whose name is not `domain` and whose
`Domain` attributes have no blank before `=`; see the theorems below for the others.) -/
theorem C38_domain_partial (cookie d : Str) (hc : PlainCookie cookie) (hd : PlainDomain d) :
    pair (rewriteCookie (some d) cookie) = pair cookie ∧
    (attributes (rewriteCookie (some d) cookie)).filter (fun a => ¬ IsDomain a)
      = (attributes cookie).filter (fun a => ¬ IsDomain a) ∧
    (∀ a ∈ attributes (rewriteCookie (some d) cookie), IsDomain a → attrValue a = d) ∧
    (∃ a ∈ attributes (rewriteCookie (some d) cookie), IsDomain a) := by
  have hrec := (recognises cookie hc).2
  have hclean : ∀ a ∈ newAttributes d (attributes cookie), Clean a ∧ a ≠ [] := by
    intro a ha
    rcases mem_newAttributes d _ a ha with ⟨rfl, _⟩ | ⟨h, _⟩
    · exact ⟨domainPart_clean d hd, (fun hh => by cases hh)⟩
    · exact attributes_clean cookie a h
  rw [rewriteCookie_eq cookie d hc]
  obtain ⟨h1, h2⟩ := read_back (pair cookie) _ (pair_clean cookie) hclean
  rw [h1, h2]
  refine ⟨rfl, filter_newAttributes d _ hrec, ?_, ?_⟩
  · intro a ha hdom
    rcases mem_newAttributes d _ a ha with ⟨rfl, _⟩ | ⟨h, hn⟩
    · rw [(domainPart_facts d).2]; exact hd.2.2
    · have := (hrec a h).mpr hdom
      rw [hn] at this; cases this
  · by_cases hany : (attributes cookie).any isDomainPart = true
    · obtain ⟨a, ha, hda⟩ := List.any_eq_true.mp hany
      refine ⟨domainPart d, ?_, usual_isDomain _ (domainPart_facts d).1⟩
      refine List.mem_append.mpr (Or.inl (List.mem_filterMap.mpr ⟨a, ha, ?_⟩))
      unfold rewritePart
      rw [if_pos hda, if_pos hd.1]
    · refine ⟨domainPart d, ?_, usual_isDomain _ (domainPart_facts d).1⟩
      refine List.mem_append.mpr (Or.inr ?_)
      rw [if_pos ⟨by rw [Bool.not_eq_true] at hany; rw [hany]; rfl, hd.1⟩]
      exact List.mem_cons_self

/-- **C38, the empty string.**  When the callback returns the empty string, the rewritten cookie
has the same name and value, no `Domain` attribute, and all other attributes in order. -/
theorem C38_drop_partial (cookie : Str) (hc : PlainCookie cookie) :
    pair (rewriteCookie (some []) cookie) = pair cookie ∧
    attributes (rewriteCookie (some []) cookie)
      = (attributes cookie).filter (fun a => ¬ IsDomain a) := by
  have hrec := (recognises cookie hc).2
  have hclean : ∀ a ∈ newAttributes [] (attributes cookie), Clean a ∧ a ≠ [] := by
    intro a ha
    rcases mem_newAttributes [] _ a ha with ⟨_, h⟩ | ⟨h, _⟩
    · exact absurd rfl h
    · exact attributes_clean cookie a h
  rw [rewriteCookie_eq cookie [] hc]
  obtain ⟨h1, h2⟩ := read_back (pair cookie) _ (pair_clean cookie) hclean
  rw [h1, h2]
  refine ⟨rfl, ?_⟩
  rw [← filter_newAttributes [] _ hrec, eq_comm, List.filter_eq_self]
  intro a ha
  rcases mem_newAttributes [] _ a ha with ⟨_, h⟩ | ⟨h, hn⟩
  · exact absurd rfl h
  · refine decide_eq_true (fun hdom => ?_)
    have := (hrec a h).mpr hdom
    rw [hn] at this; cases this

/-- **C38, nothing.**  When the callback returns nothing the cookie is unchanged. -/
theorem C38_unchanged (cookie : Str) : rewriteCookie none cookie = cookie := rfl

/-- A cookie with a domain, rewritten, dropped, and one without a domain. -/
example :
    PlainCookie "sid=abc; Path=/; DOMAIN=auth.local;Secure".toList ∧
    PlainDomain "example.com".toList ∧
    rewriteCookie (some "example.com".toList) "sid=abc; Path=/; DOMAIN=auth.local;Secure".toList
      = "sid=abc; Path=/; Domain=example.com; Secure".toList ∧
    rewriteCookie (some []) "sid=abc; Path=/; DOMAIN=auth.local;Secure".toList
      = "sid=abc; Path=/; Secure".toList ∧
    rewriteCookie (some "example.com".toList) "sid=abc; Path=/".toList
      = "sid=abc; Path=/; Domain=example.com".toList := by
  refine ⟨?_, ?_, by decide +kernel, by decide +kernel, by decide +kernel⟩
  · refine ⟨by decide +kernel, by decide +kernel, ?_⟩
    have : ∀ a ∈ attributes "sid=abc; Path=/; DOMAIN=auth.local;Secure".toList,
        ¬ IsDomain a ∨ lower (a.take 7) = "domain=".toList := by decide +kernel
    intro a ha hd
    rcases this a ha with h | h
    · exact absurd hd h
    · exact h
  · exact ⟨by decide, by decide, by decide⟩

/-- **C38 is false of a cookie named `domain`**: its name and value are taken for the attribute. -/
theorem C38_name_false :
    rewriteCookie (some "example.com".toList) "domain=abc; Path=/".toList
      = "Domain=example.com; Path=/".toList ∧
    rewriteCookie (some []) "domain=abc; Path=/".toList = "Path=/".toList := by
  constructor <;> decide +kernel

/-- **C38 is false of a `Domain` attribute with a blank before `=`**, which clients accept: it
is not removed. -/
theorem C38_blank_false :
    let r := rewriteCookie (some []) "sid=abc; Domain =auth.local".toList
    r = "sid=abc; Domain =auth.local".toList ∧
    ∃ a ∈ attributes r, IsDomain a ∧ attrValue a = "auth.local".toList := by
  refine ⟨by decide +kernel, "Domain =auth.local".toList, by decide +kernel, by decide +kernel,
    by decide +kernel⟩

/-- **All cookies of a response.**  With a callback, every `set-cookie` header of the upstream is
passed on exactly once, rewritten, in order and after the other headers, which are unchanged. -/
theorem C38_response (callback : Str → Option Str) (headers : List (Str × Str)) :
    rewriteResponse callback
        ((headers.filter (fun kv => lower kv.1 = "set-cookie".toList)).map Prod.snd) headers
      = headers.filter (fun kv => lower kv.1 ≠ "set-cookie".toList)
        ++ (headers.filter (fun kv => lower kv.1 = "set-cookie".toList)).map
            (fun kv => ("set-cookie".toList, rewriteCookie (callback kv.2) kv.2)) := by
  unfold rewriteResponse
  split
  · rename_i h
    have hnil : headers.filter (fun kv => lower kv.1 = "set-cookie".toList) = [] :=
      List.map_eq_nil_iff.mp h
    rw [hnil, List.map_nil, List.append_nil, eq_comm, List.filter_eq_self]
    intro kv hkv
    rw [List.filter_eq_nil_iff] at hnil
    exact decide_eq_true (fun e => hnil kv hkv (decide_eq_true e))
  · rw [List.map_map]; rfl

example :
    rewriteResponse (fun _ => some []) ["a=1; Domain=x".toList, "b=2".toList]
        [("Set-Cookie".toList, "a=1; Domain=x".toList), ("etag".toList, "e".toList),
         ("set-cookie".toList, "b=2".toList)]
      = [("etag".toList, "e".toList), ("set-cookie".toList, "a=1".toList),
         ("set-cookie".toList, "b=2".toList)] := by decide +kernel

end Verif.RelayCookies
