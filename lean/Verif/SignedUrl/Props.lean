import Verif.SignedUrl.Lemmas

/-!
# C32: signed URLs verify exactly when untouched and unexpired

Full statement: a URL signed by a signer verifies with the same signer until its expiry time and never
afterwards; a URL with a changed path, changed or added query parameter, or signed with another key does
not verify.

This holds for URLs that have no non-blank `sig` parameter of their own, and for the path and the values that
the query parameters have when the last non-blank one counts.  It is false for the parameters of the last
path segment, for blank parameters and for repeated parameters.
-/

namespace Verif.SignedUrl

open Verif Verif.Url Spec

/-- The clock of the witnesses. -/
def demoNow : Time := ⟨1000, 5⟩

/-- The witnesses' IPv6 check, which is never needed. -/
def noIp6 (_ : Str) : Bool := false

/-- A URL signed at one time and checked at another verifies exactly until its expiry. -/
theorem C32_sign_verify_partial {ip6 : Str → Bool} {mac : Str → Str → Str} {key url signed : Str} {now : Time}
    {d : Int} {u : Split} (hm : MacText mac) (hu : urlsplit ip6 url = some u) (hr : Regular u) (hb : Bytes url)
    (hsig : lastValue "sig".toList u.query = none) (hs : sign ip6 mac key now url d = some signed) (later : Time) :
    verify ip6 mac key later signed = some (!later.after (now.sec + d)) := by
  obtain ⟨p, e, hp, he, hbq, hps⟩ := sign_parts hm hu hr hb hs
  obtain ⟨he1, he2, he3⟩ := showInt_facts he
  have hq : p.query = u.query := by
    unfold urlparse at hp
    rw [hu, Option.map_some] at hp
    injection hp with hp
    rw [← hp]
    split <;> rfl
  unfold verify
  rw [hps, Option.bind_some]
  dsimp only
  obtain ⟨-, hd⟩ := readDict_signed (s := mac key (toSign p.path (signedParams p.query e))) hbq he2 he1
    (mac_bytes hm key (toSign p.path (signedParams p.query e))).1 (hm _ _).1
  have hno : "sig".toList ∉ (signedParams p.query e).map (·.1) := by
    rw [← Environ.aget_none_iff]
    unfold signedParams
    rw [aget_aset_ne _ _ _ _ (by decide), aget_readDict, hq, hsig]
  rw [hd, aget_aset_self, adel_aset _ _ _ hno]
  dsimp only
  rw [if_neg (hm _ _).1]
  have hexp : aget (signedParams p.query e) "expires".toList = some e := by
    unfold signedParams; rw [aget_aset_self]
  rw [hexp, Option.getD_some, he3]
  dsimp only
  cases ha : later.after (now.sec + d) with
  | true => rw [if_pos rfl]; rfl
  | false =>
    rw [if_neg (by simp)]
    unfold compareDigest
    rw [if_pos (mac_bytes hm _ _).2]
    simp

example : MacText demoMac ∧ urlsplit noIp6 "https://h/a?b=1#f".toList =
      some ⟨"https".toList, "h".toList, "/a".toList, "b=1".toList, "f".toList⟩ ∧
    Regular ⟨"https".toList, "h".toList, "/a".toList, "b=1".toList, "f".toList⟩ ∧
    lastValue "sig".toList "b=1".toList = none ∧
    (sign noIp6 demoMac "k".toList demoNow "https://h/a?b=1#f".toList 60).bind
      (verify noIp6 demoMac "k".toList ⟨1060, 0⟩) = some true ∧
    (sign noIp6 demoMac "k".toList demoNow "https://h/a?b=1#f".toList 60).bind
      (verify noIp6 demoMac "k".toList ⟨1060, 1⟩) = some false :=
  ⟨demoMac_text, by decide +kernel, .inl ⟨by decide, by decide⟩, by decide +kernel, by decide +kernel, by decide +kernel⟩

/-- Whatever verifies has a time in its `expires` parameter that has not passed. -/
theorem C32_expired {ip6 : Str → Bool} {mac : Str → Str → Str} {key url : Str} {now : Time} {p : Parsed}
    (hp : urlparse ip6 url = some p) (hv : verify ip6 mac key now url = some true) :
    ∃ e, Ranges.pyInt ((lastValue "expires".toList p.query).getD "0".toList) = some e ∧ now.after e = false := by
  unfold verify at hv
  rw [hp, Option.bind_some] at hv
  dsimp only at hv
  split at hv
  · cases hv
  · split at hv
    · cases hv
    · rw [aget_adel] at hv
      rw [if_neg (by decide), aget_readDict] at hv
      split at hv
      · cases hv
      · rename_i e he
        split at hv
        · cases hv
        · rename_i hn
          exact ⟨e, he, by simpa using hn⟩

/-- The verdict on a URL: true exactly when it has a code, a time that has not passed, and the code is the
one of its path and its other parameters; an exception exactly when only the comparison is left and the
code is not ASCII; false in all other cases. -/
theorem C32_verdict {ip6 : Str → Bool} {mac : Str → Str → Str} {key url : Str} {now : Time} {p : Parsed}
    (hm : MacText mac) (hp : urlparse ip6 url = some p) :
    (verify ip6 mac key now url = some true ↔
      Pending now p ∧ lastValue "sig".toList p.query = some (mac key (verifiedText p))) ∧
    (verify ip6 mac key now url = none ↔
      Pending now p ∧ ∃ sig, lastValue "sig".toList p.query = some sig ∧ ∃ c ∈ sig, 128 ≤ c.toNat) := by
  have hex : aget (adel (readDict p.query) "sig".toList) "expires".toList = lastValue "expires".toList p.query := by
    rw [aget_adel, if_neg (by decide), aget_readDict]
  unfold verify Pending
  rw [hp, Option.bind_some]
  dsimp only
  rw [hex, aget_readDict]
  cases hsig : lastValue "sig".toList p.query with
  | none =>
    simp only
    refine ⟨⟨fun h => by (cases h), ?_⟩, ⟨fun h => by (cases h), ?_⟩⟩
    · rintro ⟨⟨⟨_, h, _⟩, _⟩, _⟩; cases h
    · rintro ⟨⟨⟨_, h, _⟩, _⟩, _⟩; cases h
  | some sig =>
    simp only
    by_cases hs : sig = []
    · rw [if_pos hs]
      refine ⟨⟨fun h => by (cases h), ?_⟩, ⟨fun h => by (cases h), ?_⟩⟩
      · rintro ⟨⟨⟨_, h, h'⟩, _⟩, _⟩; exact absurd ((Option.some.inj h).symm.trans hs) h'
      · rintro ⟨⟨⟨_, h, h'⟩, _⟩, _⟩; exact absurd ((Option.some.inj h).symm.trans hs) h'
    · rw [if_neg hs]
      cases he : Ranges.pyInt ((lastValue "expires".toList p.query).getD "0".toList) with
      | none =>
        simp only
        refine ⟨⟨fun h => by (cases h), ?_⟩, ⟨fun h => by (cases h), ?_⟩⟩
        · rintro ⟨⟨_, _, h, _⟩, _⟩; cases h
        · rintro ⟨⟨_, _, h, _⟩, _⟩; cases h
      | some e =>
        simp only
        cases ha : now.after e with
        | true =>
          rw [if_pos rfl]
          refine ⟨⟨fun h => by (cases h), ?_⟩, ⟨fun h => by (cases h), ?_⟩⟩
          · rintro ⟨⟨_, e', h, h'⟩, _⟩
            rw [← Option.some.inj h, ha] at h'
            cases h'
          · rintro ⟨⟨_, e', h, h'⟩, _⟩
            rw [← Option.some.inj h, ha] at h'
            cases h'
        | false =>
          rw [if_neg Bool.false_ne_true]
          have hpend : (∃ s, some sig = some s ∧ s ≠ []) ∧ ∃ e', some e = some e' ∧ now.after e' = false :=
            ⟨⟨sig, rfl, hs⟩, e, rfl, ha⟩
          have htext : toSign p.path (adel (readDict p.query) "sig".toList) = verifiedText p := rfl
          unfold compareDigest
          rw [htext]
          by_cases hasc : sig.all (fun c => decide (c.toNat < 128)) = true
          · rw [if_pos hasc]
            constructor
            · constructor
              · intro h
                exact ⟨hpend, congrArg some (of_decide_eq_true (Option.some.inj h)).symm⟩
              · rintro ⟨_, h⟩
                rw [Option.some.inj h, decide_eq_true rfl]
            · refine ⟨fun h => by (cases h), ?_⟩
              rintro ⟨_, s, h, c, hc, h'⟩
              have := List.all_eq_true.mp hasc c (by rw [Option.some.inj h]; exact hc)
              simp only [decide_eq_true_eq] at this
              omega
          · rw [if_neg hasc]
            have hbad : ∃ c ∈ sig, 128 ≤ c.toNat := by
              simp only [List.all_eq_true, decide_eq_true_eq] at hasc
              have ⟨c, hc⟩ := Classical.not_forall.mp hasc
              have ⟨h1, h2⟩ := Classical.not_imp.mp hc
              exact ⟨c, h1, by omega⟩
            constructor
            · refine ⟨fun h => by (cases h), ?_⟩
              rintro ⟨_, h⟩
              obtain ⟨c, hc, h'⟩ := hbad
              rw [Option.some.inj h] at hc
              have := alwaysSafe_lt c ((hm key (verifiedText p)).2 c hc)
              omega
            · exact ⟨fun _ => ⟨hpend, sig, rfl, hbad⟩, fun _ => rfl⟩

example : verify noIp6 demoMac "k".toList demoNow "/a?expires=2000".toList = some false ∧
    verify noIp6 demoMac "k".toList demoNow "/a?expires=x&sig=1".toList = some false := by decide +kernel

/-- The signed URL carries the parameters of the original one, the time and the code. -/
theorem C32_signed_parts {ip6 : Str → Bool} {mac : Str → Str → Str} {key url signed : Str} {now : Time}
    {d : Int} {u : Split} {p : Parsed} (hm : MacText mac) (hu : urlsplit ip6 url = some u) (hr : Regular u)
    (hb : Bytes url) (hp : urlparse ip6 url = some p) (hs : sign ip6 mac key now url d = some signed) :
    ∃ ps, urlparse ip6 signed = some ps ∧ ps.scheme = p.scheme ∧ ps.netloc = p.netloc ∧ ps.path = p.path ∧
      ps.params = p.params ∧ ps.fragment = p.fragment ∧
      (lastValue "expires".toList ps.query).bind Ranges.pyInt = some (now.sec + d) ∧
      (∀ k, k ≠ "expires".toList → k ≠ "sig".toList → lastValue k ps.query = lastValue k p.query) := by
  obtain ⟨p', e, hp', he, hbq, hps⟩ := sign_parts hm hu hr hb hs
  rw [hp] at hp'
  injection hp' with hp'
  subst hp'
  obtain ⟨he1, he2, he3⟩ := showInt_facts he
  obtain ⟨-, hd⟩ := readDict_signed (s := mac key (toSign p.path (signedParams p.query e))) hbq he2 he1
    (mac_bytes hm key (toSign p.path (signedParams p.query e))).1 (hm _ _).1
  refine ⟨_, hps, rfl, rfl, rfl, rfl, rfl, ?_, ?_⟩
  · dsimp only
    rw [← aget_readDict, hd, aget_aset_ne _ _ _ _ (by decide)]
    unfold signedParams
    rw [aget_aset_self, Option.bind_some, he3]
  · intro k h1 h2
    dsimp only
    rw [← aget_readDict, ← aget_readDict, hd, aget_aset_ne _ _ _ _ h2]
    unfold signedParams
    rw [aget_aset_ne _ _ _ _ h1]

/-- A URL that verifies with the code of a signed URL has the same key, path and parameters as that, or
the two texts are a collision of the code. -/
theorem C32_tamper_partial {ip6 : Str → Bool} {mac : Str → Str → Str} {key key' url url' signed : Str}
    {now now' : Time} {d : Int} {u : Split} {ps p' : Parsed} (hm : MacText mac)
    (hn : ∀ p e, urlparse ip6 url = some p → showInt (now.sec + d) = some e →
      NoCollision mac key' (verifiedText p') key (signedText p e))
    (hu : urlsplit ip6 url = some u) (hr : Regular u) (hb : Bytes url) (hb' : Bytes url')
    (hs : sign ip6 mac key now url d = some signed) (hps : urlparse ip6 signed = some ps)
    (hp' : urlparse ip6 url' = some p')
    (hsame : lastValue "sig".toList p'.query = lastValue "sig".toList ps.query)
    (hv : verify ip6 mac key' now' url' = some true) :
    key' = key ∧ p'.path = ps.path ∧
      ∀ k, lastValue k p'.query = lastValue k ps.query := by
  obtain ⟨p, e, hp, he, hbq, hps2⟩ := sign_parts hm hu hr hb hs
  rw [hps] at hps2
  injection hps2 with hps2
  obtain ⟨he1, he2, he3⟩ := showInt_facts he
  obtain ⟨-, hd⟩ := readDict_signed (s := mac key (toSign p.path (signedParams p.query e))) hbq he2 he1
    (mac_bytes hm key (toSign p.path (signedParams p.query e))).1 (hm _ _).1
  have hqs : ps.query = urlencode (allParams p.query e (mac key (toSign p.path (signedParams p.query e)))) := by
    rw [hps2]
  have hpath : ps.path = p.path := by rw [hps2]
  have hbq' : Bytes p'.query := by
    unfold urlparse at hp'
    cases hu' : urlsplit ip6 url' with
    | none => rw [hu'] at hp'; cases hp'
    | some u' =>
      rw [hu', Option.map_some] at hp'
      injection hp' with hp'
      have hq' : p'.query = u'.query := by rw [← hp']; split <;> rfl
      rw [hq']
      exact urlsplit_bytes hu' hb'
  have hmac : mac key' (toSign p'.path (adel (readDict p'.query) "sig".toList)) =
      mac key (toSign p.path (signedParams p.query e)) := by
    unfold verify at hv
    rw [hp', Option.bind_some] at hv
    dsimp only at hv
    rw [aget_readDict, hsame, ← aget_readDict, hqs, hd, aget_aset_self] at hv
    dsimp only at hv
    rw [if_neg (hm _ _).1] at hv
    split at hv
    · cases hv
    · split at hv
      · cases hv
      · unfold compareDigest at hv
        rw [if_pos (mac_bytes hm _ _).2] at hv
        simpa using hv
  obtain ⟨hk, hmsg⟩ := hn p e hp he hmac
  unfold verifiedText signedText at hmsg
  change toSign p'.path (adel (readDict p'.query) "sig".toList) = toSign p.path (signedParams p.query e) at hmsg
  have hno' : '?' ∉ p'.path := urlparse_path hp'
  have hno : '?' ∉ p.path := urlparse_path hp
  unfold toSign at hmsg
  have hsplit := congrArg (partition '?') hmsg
  rw [partition_append _ _ _ hno, partition_append _ _ _ hno'] at hsplit
  simp only [Prod.mk.injEq, Option.some.injEq] at hsplit
  obtain ⟨h1, h2⟩ := hsplit
  have hpar : adel (readDict p'.query) "sig".toList = signedParams p.query e := by
    have hb1 : BytePairs (adel (readDict p'.query) "sig".toList) := by
      intro kv hkv
      exact UrlQuery.parseQsl_bytes false _ hbq' kv (readDict_mem _ _ (mem_adel hkv))
    have hb2 := signedParams_bytes hbq he2
    rw [← parseQsl_urlencode true _ hb1 (.inl rfl), h2, parseQsl_urlencode true _ hb2 (.inl rfl)]
  refine ⟨hk, by rw [h1, hpath], ?_⟩
  intro k
  by_cases hks : k = "sig".toList
  · rw [hks]; exact hsame
  · have e1 : lastValue k p'.query = aget (signedParams p.query e) k := by
      rw [← hpar, aget_adel, if_neg hks, aget_readDict]
    rw [e1, hqs, ← aget_readDict, hd, aget_aset_ne _ _ _ _ hks]

example : MacText demoMac ∧ ∀ k' m' k m, NoCollision demoMac k' m' k m :=
  ⟨demoMac_text, fun k' m' k m h => demoMac_inj k' m' k m h⟩

/-- Without the assumption on `sig`: the code of a URL that has a `sig` parameter does not verify. -/
theorem C32_sig_parameter_false :
    (sign noIp6 demoMac "k".toList demoNow "https://h/a?sig=1".toList 60).bind
      (verify noIp6 demoMac "k".toList demoNow) = some false := by decide +kernel

/-- The parameters of the last path segment can be changed. -/
theorem C32_path_parameters_false :
    ∃ signed changed, sign noIp6 demoMac "k".toList demoNow "/file;id=1?a=b".toList 60 = some signed ∧
      (urlparse noIp6 signed).map (fun p => urlunparse { p with params := "id=2".toList }) = some changed ∧
      changed ≠ signed ∧ verify noIp6 demoMac "k".toList demoNow changed = some true := by
  refine ⟨((sign noIp6 demoMac "k".toList demoNow "/file;id=1?a=b".toList 60).getD []),
    (((urlparse noIp6 ((sign noIp6 demoMac "k".toList demoNow "/file;id=1?a=b".toList 60).getD [])).map
      (fun p => urlunparse { p with params := "id=2".toList })).getD []), ?_, ?_, ?_, ?_⟩ <;> decide +kernel

/-- A blank parameter can be added. -/
theorem C32_blank_false :
    ((sign noIp6 demoMac "k".toList demoNow "/a?b=1".toList 60).bind fun signed =>
      verify noIp6 demoMac "k".toList demoNow (signed ++ "&admin=".toList)) = some true := by decide +kernel

/-- An earlier parameter of the same name can be added. -/
theorem C32_repeated_false :
    ((sign noIp6 demoMac "k".toList demoNow "/a?b=1".toList 60).bind fun signed =>
      verify noIp6 demoMac "k".toList demoNow ("/a?b=2&".toList ++ signed.drop 3)) = some true ∧
    ((sign noIp6 demoMac "k".toList demoNow "/a?b=1".toList 60).map (·.take 3)) = some "/a?".toList := by
  decide +kernel

/-- The host can be changed. -/
theorem C32_host_false :
    ((sign noIp6 demoMac "k".toList demoNow "https://h/a?b=1".toList 60).bind fun signed =>
      verify noIp6 demoMac "k".toList demoNow ("https://g".toList ++ signed.drop 9)) = some true ∧
    ((sign noIp6 demoMac "k".toList demoNow "https://h/a?b=1".toList 60).map (·.take 9)) =
      some "https://h".toList := by
  decide +kernel

/-- A code with a byte above 127 makes `verify` raise. -/
theorem C32_raises_false :
    verify noIp6 demoMac "k".toList demoNow "/a?expires=2000&sig=%FF".toList = none := by decide +kernel

end Verif.SignedUrl
