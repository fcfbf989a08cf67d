import Verif.SignedLinks.Lemmas

/-!
# C154: a signed link opens what was signed, in time, and nothing else
-/

namespace Verif.SignedLinks.Props

open Verif Verif.SignedLinks Verif.SignedLinks.Spec Verif.Url Verif.Hosts.Spec Verif.AbsoluteUrl.Spec Verif.SignedUrl
open Verif.SignedUrl.Spec

/-- **C154**, a link that is followed: under whatever host and scheme the request comes, the page opens until the time
of
the link has passed, and is refused from then on.

The full statement has links with any paths; those with escapes fail (`C154_escape_false`). -/
theorem C154_follow_partial (ip6 : Str → Bool) (mac : Str → Str → Str) (key : Str) (hm : MacText mac) (i : Issue)
    (u : Split) (hi : i.Has ip6 u) (hsig : lastValue "sig".toList u.query = none) (link : Str)
    (hl : sign ip6 mac key i.now i.url i.seconds = some link) (hp : '%' ∉ u.path) (sc : AbsoluteUrl.Sc)
    (o : Ordinary sc) (hf : Follows ip6 link sc) (later : Time) :
    visit ip6 mac key later sc = if later.after (i.now.sec + i.seconds) then .refused else .opened := by
  obtain ⟨us, hus, hpath, hquery⟩ := hf
  obtain ⟨e, he, hbq, hsplit⟩ := link_split hm hi hl
  obtain ⟨hu, hr, hb, hsemi⟩ := hi
  rw [hsplit] at hus
  have hus := Option.some.inj hus
  have hps := urlparse_split hsplit hsemi
  have hplain : PlainQuery sc.query := by
    rw [hquery, ← hus]
    exact urlencode_plain _ (allParams_bytes hbq (showInt_facts he).2.1 (mac_bytes hm _ _).1)
  obtain ⟨v, pv, hv, hpv, hv1, hv2, -⟩ := ordinary_url ip6 o hplain
  have hver : verify ip6 mac key later v.text = verify ip6 mac key later link := by
    refine verify_congr hpv hps ?_ ?_
    · rw [hv1, hpath, ← hus]
      exact percentDecode_plain hp
    · rw [hv2, hquery, ← hus]
  unfold visit
  simp only [hv]
  rw [hver, C32_sign_verify_partial hm hu hr hb hsig hl later]
  cases later.after (i.now.sec + i.seconds) <;> rfl

/-- **C154**, what is opened: whatever request is let in, its path, and every parameter as the handler reads it, are
those
of a link that was given out and whose time has not passed.

The full statement is for all requests.  It fails for paths with semicolons (`C154_semicolon_false`), for paths and host
headers that are no plain ones (`C154_path_false`, `C154_host_false`), and for parameters that are repeated or blank
(`C154_repeated_false`, `C154_blank_false`). -/
theorem C154_opened_partial (ip6 : Str → Bool) (mac : Str → Str → Str) (key : Str) (hm : MacText mac)
    (issued : List Issue) (hi : ∀ i ∈ issued, (∃ u, i.Has ip6 u) ∧ ∃ link, sign ip6 mac key i.now i.url i.seconds =
        some link)
    (sc : AbsoluteUrl.Sc) (o : Ordinary sc) (hq : PlainQuery sc.query) (single : Single sc.query)
    (hf : Unforged ip6 mac key issued sc) (now : Time) (hv : visit ip6 mac key now sc = .opened) :
    ∃ i ∈ issued, ∃ u, i.Has ip6 u ∧ sc.path = u.path ∧ now.after (i.now.sec + i.seconds) = false ∧
      ∀ k, k ≠ "expires".toList → k ≠ "sig".toList → param sc k = lastValue k u.query := by
  obtain ⟨v, pv, hv0, hpv, hv1, hv2, hb'⟩ := ordinary_url ip6 o hq
  have hver : verify ip6 mac key now v.text = some true := by
    unfold visit at hv
    simp only [hv0] at hv
    cases h : verify ip6 mac key now v.text with
    | none => rw [h] at hv; cases hv
    | some b =>
      cases b with
      | true => rfl
      | false => rw [h] at hv; cases hv
  have hsig := ((C32_verdict (key := key) (now := now) hm hpv).1.1 hver).2
  obtain ⟨i, him, p, e, hp, he, htext⟩ := hf (verifiedText pv) (by rw [← hv2]; exact hsig)
  obtain ⟨⟨u, hu⟩, link, hl⟩ := hi i him
  refine ⟨i, him, u, hu, ?_⟩
  obtain ⟨e', he', hbq, hsplit⟩ := link_split hm hu hl
  obtain ⟨hu1, hr, hb, hsemi⟩ := hu
  have hps := urlparse_split hsplit hsemi
  have hp1 := urlparse_split hu1 hsemi
  rw [he] at he'
  have he' := Option.some.inj he'
  subst he'
  rw [hp] at hp1
  have hp1 := Option.some.inj hp1
  have hsame : lastValue "sig".toList pv.query = lastValue "sig".toList (urlencode (allParams u.query e
      (mac key (toSign u.path (signedParams u.query e))))) := by
    have hd := (readDict_signed (s := mac key (toSign u.path (signedParams u.query e))) hbq (showInt_facts he).2.1
      (showInt_facts he).1 (mac_bytes hm key (toSign u.path (signedParams u.query e))).1 (hm _ _).1).2
    rw [hsig, htext, hp1, ← aget_readDict (k := "sig".toList), hd, aget_aset_self]
    rfl
  obtain ⟨-, h1, h2⟩ := C32_tamper_partial hm (fun p' e' hp' he' hc => ⟨rfl, by
    rw [hp] at hp'
    rw [he] at he'
    rw [← Option.some.inj hp', ← Option.some.inj he']
    exact htext⟩) hu1 hr hb hb' hl hps hpv hsame hver
  obtain ⟨ps, hps2, -, -, -, -, -, h3, h4⟩ := C32_signed_parts hm hu1 hr hb hp hl
  rw [hps] at hps2
  have hps2 := Option.some.inj hps2
  refine ⟨by rw [← hv1]; exact h1, ?_, ?_⟩
  · obtain ⟨x, hx, hn⟩ := C32_expired hpv hver
    rw [h2 "expires".toList] at hx
    rw [← hps2] at h3
    dsimp only at h3
    generalize lastValue "expires".toList (urlencode (allParams u.query e
      (mac key (toSign u.path (signedParams u.query e))))) = o' at hx h3
    cases o' with
    | none => cases h3
    | some t =>
      rw [Option.getD_some] at hx
      rw [Option.bind_some, hx] at h3
      rw [← Option.some.inj h3]
      exact hn
  · intro k hk1 hk2
    unfold param
    rw [single_values single, ← hv2, h2 k]
    rw [← hps2] at h4
    rw [h4 k hk1 hk2, hp1]

/-- **C154**, a page is never opened without a code, whatever the request. -/
theorem C154_code (ip6 : Str → Bool) (mac : Str → Str → Str) (key : Str) (hm : MacText mac) (now : Time)
    (sc : AbsoluteUrl.Sc) (hv : visit ip6 mac key now sc = .opened) :
    ∃ u p, AbsoluteUrl.ofScope ip6 sc = .ok u ∧ urlparse ip6 u.text = some p ∧
      lastValue "sig".toList p.query = some (mac key (verifiedText p)) := by
  unfold visit at hv
  cases hu : AbsoluteUrl.ofScope ip6 sc with
  | error e => simp only [hu] at hv; cases hv
  | ok u =>
    simp only [hu] at hv
    have hver : verify ip6 mac key now u.text = some true := by
      cases h : verify ip6 mac key now u.text with
      | none => rw [h] at hv; cases hv
      | some b =>
        cases b with
        | true => rfl
        | false => rw [h] at hv; cases hv
    cases hp : urlparse ip6 u.text with
    | none =>
      unfold verify at hver
      rw [hp] at hver
      cases hver
    | some p => exact ⟨u, p, rfl, hp, ((C32_verdict hm hp).1.1 hver).2⟩

/-! ## Examples -/

/-- A link to the file of user 1, for a minute. -/
def plain : Issue := ⟨"https://files.org/media/a?user=1".toList, demoNow, 60⟩

/-- The parts of its URL. -/
def parts : Split := ⟨"https".toList, "files.org".toList, "/media/a".toList, "user=1".toList, []⟩

theorem plain_has : plain.Has noIp6 parts :=
  ⟨by decide +kernel, .inl ⟨by decide, by decide⟩, by decide, by decide⟩

/-- The link that is given out for an issue. -/
def linkOf (i : Issue) : Str := (sign noIp6 demoMac "k".toList i.now i.url i.seconds).getD []

/-- The query of that link. -/
def queryOf (i : Issue) : Str := ((urlsplit noIp6 (linkOf i)).map (·.query)).getD []

/-- A request, behind a proxy that speaks `http` to the server. -/
def request (host path query : Str) : AbsoluteUrl.Sc :=
  ⟨"http".toList, [("host".toList, host)], none, path, query, [], none⟩

theorem ordinary (q : Str) : Ordinary (request "inner:8000".toList "/media/a".toList q) :=
  ⟨⟨false, false, "inner".toList ++ ":8000".toList, rfl, .header [] [] rfl (fun _ h => by cases h)
    ⟨by decide, by decide⟩ (.inr ⟨"8000".toList, by decide, by decide, by decide, by decide⟩)⟩,
    (⟨⟨"media/a".toList, by decide⟩, by decide⟩ : PlainPath "/media/a".toList),
    (by decide : ';' ∉ "/media/a".toList)⟩

theorem plain_link : sign noIp6 demoMac "k".toList plain.now plain.url plain.seconds = some (linkOf plain) := by
  decide +kernel

theorem plain_follows : Follows noIp6 (linkOf plain) (request "inner:8000".toList "/media/a".toList (queryOf plain)) :=
  ⟨{ parts with query := queryOf plain }, by decide +kernel, by decide +kernel, rfl⟩

/-- The link opens the page at its last second. -/
example : visit noIp6 demoMac "k".toList ⟨1060, 0⟩ (request "inner:8000".toList "/media/a".toList (queryOf plain)) =
    .opened :=
  C154_follow_partial noIp6 demoMac _ demoMac_text plain parts plain_has (by decide +kernel) _ plain_link (by decide) _
    (ordinary _) plain_follows ⟨1060, 0⟩

/-- And no longer after it. -/
example : visit noIp6 demoMac "k".toList ⟨1060, 1⟩ (request "inner:8000".toList "/media/a".toList (queryOf plain)) =
    .refused :=
  C154_follow_partial noIp6 demoMac _ demoMac_text plain parts plain_has (by decide +kernel) _ plain_link (by decide) _
    (ordinary _) plain_follows ⟨1060, 1⟩

/-- The assumptions of `C154_opened_partial` are met by the link that was given out. -/
example : Single (queryOf plain) ∧
    Unforged noIp6 demoMac "k".toList [plain] (request "inner:8000".toList "/media/a".toList (queryOf plain)) ∧
    param (request "inner:8000".toList "/media/a".toList (queryOf plain)) "user".toList = some "1".toList := by
  refine ⟨⟨by decide +kernel, by decide +kernel⟩, ?_, by decide +kernel⟩
  intro text ht
  have hc : lastValue "sig".toList (queryOf plain) =
      some (demoMac "k".toList (signedText ⟨"https".toList, "files.org".toList, "/media/a".toList, [],
          "user=1".toList, []⟩
        "1060".toList)) := by decide +kernel
  have ht : lastValue "sig".toList (queryOf plain) = some (demoMac "k".toList text) := ht
  rw [hc] at ht
  refine ⟨plain, List.mem_singleton.2 rfl, _, "1060".toList, ?_, by decide +kernel,
    (demoMac_inj _ _ _ _ (Option.some.inj ht)).2.symm⟩
  decide +kernel

/-- A redirect to a path with a space, which is escaped on the way, opens too. -/
example : (redirect noIp6 demoMac "k".toList demoNow "https://h/a b".toList 60).bind (fun l =>
      (urlsplit noIp6 l).map fun u => (u.path, visit noIp6 demoMac "k".toList demoNow
        (request "h".toList (Addresses.percentDecode u.path) u.query))) =
    some ("/a%20b".toList, .opened) := by decide +kernel

/-! ## Where it fails -/

/-- A link whose path has an escape never opens: what is signed is the escape, and what is checked is the path that the
server has decoded. -/
theorem C154_escape_false : ∃ (link : Str) (sc : AbsoluteUrl.Sc),
    sign noIp6 demoMac "k".toList demoNow "https://h/a%20b".toList 60 = some link ∧ Follows noIp6 link sc ∧
    Ordinary sc ∧ visit noIp6 demoMac "k".toList demoNow sc = .refused := by
  refine ⟨linkOf ⟨"https://h/a%20b".toList, demoNow, 60⟩,
    request "h".toList "/a b".toList (queryOf ⟨"https://h/a%20b".toList, demoNow, 60⟩), by decide +kernel,
    ⟨⟨"https".toList, "h".toList, "/a%20b".toList, queryOf ⟨"https://h/a%20b".toList, demoNow, 60⟩, []⟩,
      by decide +kernel, by decide +kernel, rfl⟩, ?_, by decide +kernel⟩
  exact ⟨⟨false, false, "h".toList ++ [], rfl, .header [] [] rfl (fun _ h => by cases h) ⟨by decide, by decide⟩
    (.inl rfl)⟩, ⟨⟨"a b".toList, by decide⟩, by decide⟩, by decide⟩

/-- Whoever has a link to one page opens every other one, with the link in the host header: the address of the request
is
put together from the host header and the path, and the hash sign hides the path. -/
theorem C154_host_false : ∃ link, sign noIp6 demoMac "k".toList demoNow "/media/a".toList 60 = some link ∧
    visit noIp6 demoMac "k".toList demoNow (request ("h".toList ++ link ++ "#".toList) "/media/b".toList []) = .opened ∧
    visit noIp6 demoMac "k".toList demoNow (request "h".toList "/media/b".toList []) = .refused :=
  ⟨linkOf ⟨"/media/a".toList, demoNow, 60⟩, by decide +kernel, by decide +kernel, by decide +kernel⟩

/-- The same is done with the path alone, under a route that takes any path: question mark and hash sign come escaped,
and
the server decodes them. -/
theorem C154_path_false : ∃ link, sign noIp6 demoMac "k".toList demoNow "/media/a".toList 60 = some link ∧
    visit noIp6 demoMac "k".toList demoNow (request "h".toList (link ++ "#/../b".toList) []) = .opened :=
  ⟨linkOf ⟨"/media/a".toList, demoNow, 60⟩, by decide +kernel, by decide +kernel⟩

/-- A parameter is replaced by putting another one before it: the code covers the last value, and the handler is given
the first. -/
theorem C154_repeated_false : ∃ (link rest : Str),
    sign noIp6 demoMac "k".toList demoNow "/a?user=1".toList 60 = some link ∧ link = "/a?".toList ++ rest ∧
    visit noIp6 demoMac "k".toList demoNow (request "h".toList "/a".toList ("user=2&".toList ++ rest)) = .opened ∧
    param (request "h".toList "/a".toList ("user=2&".toList ++ rest)) "user".toList = some "2".toList :=
  ⟨linkOf ⟨"/a?user=1".toList, demoNow, 60⟩, queryOf ⟨"/a?user=1".toList, demoNow, 60⟩, by decide +kernel,
    by decide +kernel, by decide +kernel, by decide +kernel⟩

/-- A blank parameter is added: the code does not cover it, and the handler is given it. -/
theorem C154_blank_false : ∃ (link rest : Str),
    sign noIp6 demoMac "k".toList demoNow "/a?user=1".toList 60 = some link ∧ link = "/a?".toList ++ rest ∧
    param (request "h".toList "/a".toList rest) "user".toList = some "1".toList ∧
    visit noIp6 demoMac "k".toList demoNow (request "h".toList "/a".toList ("user=&".toList ++ rest)) = .opened ∧
    param (request "h".toList "/a".toList ("user=&".toList ++ rest)) "user".toList = some [] :=
  ⟨linkOf ⟨"/a?user=1".toList, demoNow, 60⟩, queryOf ⟨"/a?user=1".toList, demoNow, 60⟩, by decide +kernel,
    by decide +kernel, by decide +kernel, by decide +kernel, by decide +kernel⟩

/-- What follows a semicolon in the last part of a path is not covered, though it belongs to the path of the request. -/
theorem C154_semicolon_false : ∃ (link rest : Str),
    sign noIp6 demoMac "k".toList demoNow "/file;id=1".toList 60 = some link ∧ link = "/file;id=1?".toList ++ rest ∧
    visit noIp6 demoMac "k".toList demoNow (request "h".toList "/file;id=2".toList rest) = .opened :=
  ⟨linkOf ⟨"/file;id=1".toList, demoNow, 60⟩, queryOf ⟨"/file;id=1".toList, demoNow, 60⟩, by decide +kernel,
    by decide +kernel, by decide +kernel⟩

/-- Anyone can make the check fail with an exception instead of a refusal, by a code that is not ASCII. -/
theorem C154_code_false : Ordinary (request "inner:8000".toList "/media/a".toList "expires=9999&sig=%C3%A9".toList) ∧
    visit noIp6 demoMac "k".toList demoNow
      (request "inner:8000".toList "/media/a".toList "expires=9999&sig=%C3%A9".toList) = .raised :=
  ⟨ordinary _, by decide +kernel⟩

end Verif.SignedLinks.Props
