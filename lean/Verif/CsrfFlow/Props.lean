import Verif.CsrfFlow.Lemmas

/-!
# C140: a browser that opened a page can submit its form

The cookie that protects against forged requests reaches the browser as configured.  A browser that has opened a page
that gives out the token, or whose scripts read it from the cookie, can submit it, whatever it opened before and after
and whatever cookie it had; the token of the page and the cookie agree and pass the check of the middleware.
-/

namespace Verif.CsrfFlow.Props

open Verif Verif.CsrfFlow Verif.CsrfFlow.Spec

/-- A digest for the examples. -/
def mac (k m : Str) : Str := List.replicate 64 (if k.length < 5 then 'a' else if m.head? = some '1' then '3' else '0')

theorem mac_hex : HexDigest mac := by
  intro k m
  refine ⟨by simp [mac], ?_⟩
  intro c hc
  unfold mac at hc
  rw [(List.mem_replicate.1 hc).2]
  split
  · decide
  · split <;> decide

/-- A configuration for the examples. -/
def site : Site := ⟨⟨"secret".toList, [], "csrf_token".toList, 1000⟩, "csrftoken".toList, "/".toList, none, true, false,
  "lax".toList⟩

/-- A client for the examples. -/
def client : SetCookie.Spec.Client := ⟨"example.org".toList, "/shop".toList, fun _ => none, 0⟩

/-- The place of the cookie for the examples. -/
def slot : SetCookie.Spec.Key := ("csrftoken".toList, "example.org".toList, "/".toList)

theorem site_sound : Sound site client slot := by
  refine ⟨⟨⟨by decide, by decide +kernel⟩, by decide +kernel⟩, ?_, ?_, ?_, ?_⟩
  · intro v h
    rw [← Option.some.inj h]
    right; left; decide +kernel
  · refine ⟨by decide, ?_, ?_⟩ <;> (intro c hc; rw [← Option.some.inj hc]; decide)
  · intro d h
    cases h
  · decide +kernel

/-- Random texts for the examples. -/
def ones : Str := List.replicate 64 '1'
/-- Others. -/
def twos : Str := List.replicate 64 '2'

theorem ones_random : Random ones := by
  refine ⟨by decide, ?_⟩
  intro c hc
  rw [(List.mem_replicate.1 hc).2]
  decide

theorem twos_random : Random twos := by
  refine ⟨by decide, ?_⟩
  intro c hc
  rw [(List.mem_replicate.1 hc).2]
  decide

/-- A browser without cookies. -/
def newBrowser : Browser := ⟨fun _ => none, []⟩

/-- **C140** (part that holds; the cookie).  Full statement: a `Cookie` makes the same field as `set_cookie` of a
response with the same arguments.  Missing: an age of zero (`C140_age_false`). -/
theorem C140_field_partial (date : Int → Str) (k : Cookie) (hn : SetCookie.Spec.Name k.key)
    (hs : SetCookie.Spec.SameSite k.samesite) (h0 : k.maxAge ≠ some 0) :
    toHeader date k = SetCookie.cookieValue date k.key (k.value.getD [])
      ⟨k.path, k.domain, k.secure.getD false, k.httponly.getD false, k.maxAge, k.expires.map .seconds, k.samesite⟩ := by
  rw [toHeader_eq date k hn, SetCookie.cookieValue_eq date k.key _ _ hn hs]
  have : k.opts = ⟨k.path, k.domain, k.secure.getD false, k.httponly.getD false, k.maxAge,
      k.expires.map .seconds, k.samesite⟩ := by
    unfold Cookie.opts
    have hm : k.maxAge.filter (· ≠ 0) = k.maxAge := by
      cases hm : k.maxAge with
      | none => rfl
      | some n =>
        have : n ≠ 0 := fun e => h0 (by rw [hm, e])
        simp [this]
    rw [hm]
  rw [this]

example :
    toHeader (fun _ => []) (site.cookie "abc".toList)
      = some "csrftoken=abc; Path=/; SameSite=lax; Secure".toList := by decide +kernel

/-- **C140** fails for a cookie of age zero, which is how a cookie is removed: the field has no age, so that the client
keeps the cookie until it is closed. -/
theorem C140_age_false :
    toHeader (fun _ => []) { key := "sid".toList, value := some "x".toList, maxAge := some 0 }
      = some "sid=x; Path=/; SameSite=lax".toList
    ∧ SetCookie.cookieValue (fun _ => []) "sid".toList "x".toList
        ⟨some "/".toList, none, false, false, some 0, none, some "lax".toList⟩
      = some "sid=x; Max-Age=0; Path=/; SameSite=lax".toList := by
  refine ⟨?_, ?_⟩ <;> decide +kernel

/-- **C140** (part that holds; the first page).  Full statement: the first page that a browser without the cookie opens
leaves it with a signed token, and the token in the page is that one.  Missing: pages that set other cookies
(`C140_extra_false`), and pages that take a token without giving their response (`C140_template_false`). -/
theorem C140_first_partial (hmac : Str → Str → Str) (hh : HexDigest hmac) (date : Int → Str) (s : Site)
    (c : SetCookie.Spec.Client) (k : SetCookie.Spec.Key) (hs : Sound s c k) (b : Browser) (hb : b.jar k = none)
    (v : Visit) (hr : Random v.rnd) (hr' : Random v.rnd')
    (hv : (v.page = .plain ∧ v.extra = []) ∨ (v.page = .helper ∧ v.secret = s.conf.secret)) :
    ∃ rnd, Random rnd
      ∧ (openAll hmac date s c k b [v]).jar k = some (Csrf.generate hmac s.conf.secret rnd)
      ∧ (openAll hmac date s c k b [v]).tabs
        = b.tabs ++ [if v.page = .plain then none else some (Csrf.generate hmac s.conf.secret rnd)] := by
  have hsent : sent s k b.jar = none := by unfold sent; rw [hb]; rfl
  rcases hv with ⟨hp, hx⟩ | ⟨hp, hsec⟩
  · obtain ⟨f, hf, hrec⟩ := field_eq date s c k hs (Csrf.generate hmac s.conf.secret v.rnd')
    have hresp : respond hmac date s none v = (none, [f]) := by
      simp [respond, handle, hp, hx, hf]
    refine ⟨v.rnd', hr', ?_, ?_⟩
    · unfold openAll
      rw [hsent]
      simp only [List.flatMap_cons, List.flatMap_nil, List.append_nil, hresp, List.foldl_cons, List.foldl_nil]
      rw [hrec, if_pos rfl, quote_hex _ (token_ne hmac hh _ _ hr') (hex_token hmac hh _ _ hr')]
    · unfold openAll
      rw [hsent]
      simp only [List.map_cons, List.map_nil, hresp, if_pos hp]
  · obtain ⟨f, hf, hrec⟩ := field_eq date s c k hs (Csrf.generate hmac s.conf.secret v.rnd)
    have hresp : respond hmac date s none v
        = (some (Csrf.generate hmac s.conf.secret v.rnd), v.extra ++ [f]) := by
      simp [respond, handle, hp, hsec, getOrSet, hf]
    refine ⟨v.rnd, hr, ?_, ?_⟩
    · unfold openAll
      rw [hsent]
      simp only [List.flatMap_cons, List.flatMap_nil, List.append_nil, hresp, List.foldl_append, List.foldl_cons,
        List.foldl_nil]
      rw [hrec, if_pos rfl, quote_hex _ (token_ne hmac hh _ _ hr) (hex_token hmac hh _ _ hr)]
    · unfold openAll
      rw [hsent]
      have : ¬ v.page = .plain := by rw [hp]; decide
      simp only [List.map_cons, List.map_nil, hresp, if_neg this]

/-- **C140** (part that holds; a browser with a signed token).  Full statement: as in the title.  Whatever pages such a
browser opens, in whatever groups, its cookie stays, every page with a token has this one, and submitting it in the
header
or in a form passes.  Missing: browsers with a cookie that is not signed (`C140_stale_false`). -/
theorem C140_kept_partial (hmac : Str → Str → Str) (hh : HexDigest hmac) (date : Int → Str) (s : Site)
    (c : SetCookie.Spec.Client) (k : SetCookie.Spec.Key) (hs : Sound s c k) (b : Browser) (rnd : Str) (hr : Random rnd)
    (hb : b.jar k = some (Csrf.generate hmac s.conf.secret rnd)) (h : List (List Visit))
    (ha : ∀ vs ∈ h, ∀ v ∈ vs, Apart c k v) :
    (history hmac date s c k b h).jar k = some (Csrf.generate hmac s.conf.secret rnd)
    ∧ (history hmac date s c k b h).tabs = b.tabs ++ h.flatten.map (fun v =>
        if v.page = .plain then none else some (Csrf.generate hmac s.conf.secret rnd))
    ∧ ∀ r, Submits s r (Csrf.generate hmac s.conf.secret rnd) →
        r.cookie = sent s k (history hmac date s c k b h).jar → Passes hmac s r := by
  have hne := token_ne hmac hh s.conf.secret rnd hr
  have hx := hex_token hmac hh s.conf.secret rnd hr
  have hsent := sent_token s c k hs b.jar _ hne hx hb
  obtain ⟨h1, h2⟩ := history_some hmac date s c k b _ hne hsent h ha
  refine ⟨h1.trans hb, h2, ?_⟩
  intro r hsub hc
  rw [passes_iff hmac s r _ hne hsub, hc, sent_congr s k _ _ h1, hsent]
  exact (Csrf.C13_roundtrip hmac (hexMac_of hmac hh) s.conf.secret rnd hr.1
    (fun x hx => (hex_small x (hr.2 x hx)).2.2)).2

/-- **C140** (part that holds; the whole flow).  A browser without the cookie opens a page that gives out the token
together with its response, and then any pages in any groups; every token in a page that it opened can be submitted. -/
theorem C140_flow_partial (hmac : Str → Str → Str) (hh : HexDigest hmac) (date : Int → Str) (s : Site)
    (c : SetCookie.Spec.Client) (k : SetCookie.Spec.Key) (hs : Sound s c k) (jar : SetCookie.Spec.Jar)
    (hb : jar k = none) (v : Visit) (hr : Random v.rnd) (hr' : Random v.rnd')
    (hv : (v.page = .plain ∧ v.extra = []) ∨ (v.page = .helper ∧ v.secret = s.conf.secret))
    (h : List (List Visit)) (hh' : ∀ vs ∈ h, ∀ w ∈ vs, Apart c k w) (t : Str) (r : Csrf.Request)
    (ht : some t ∈ (history hmac date s c k ⟨jar, []⟩ ([v] :: h)).tabs) (hsub : Submits s r t)
    (hc : r.cookie = sent s k (history hmac date s c k ⟨jar, []⟩ ([v] :: h)).jar) : Passes hmac s r := by
  obtain ⟨rnd, h1, h2, h3⟩ := C140_first_partial hmac hh date s c k hs ⟨jar, []⟩ hb v hr hr' hv
  obtain ⟨-, h5, h6⟩ := C140_kept_partial hmac hh date s c k hs _ rnd h1 h2 h hh'
  have e : history hmac date s c k ⟨jar, []⟩ ([v] :: h)
      = history hmac date s c k (openAll hmac date s c k ⟨jar, []⟩ [v]) h := rfl
  rw [e] at ht hc
  rw [h5, h3] at ht
  have htok : t = Csrf.generate hmac s.conf.secret rnd := by
    rcases List.mem_append.1 ht with ht | ht
    · rcases List.mem_append.1 ht with ht | ht
      · cases ht
      · rw [List.mem_singleton] at ht
        by_cases hp : v.page = .plain
        · rw [if_pos hp] at ht; cases ht
        · rw [if_neg hp] at ht; exact Option.some.inj ht
    · obtain ⟨w, -, hw⟩ := List.mem_map.1 ht
      by_cases hp : w.page = .plain
      · rw [if_pos hp] at hw; cases hw
      · rw [if_neg hp] at hw; exact (Option.some.inj hw).symm
  rw [htok] at hsub
  exact h6 r hsub hc

/-- A page for the examples. -/
def page (p : Page) (rnd : Str) : Visit := ⟨p, "secret".toList, [], rnd, twos⟩

/-- A submission for the examples. -/
def post (jar : SetCookie.Spec.Jar) (t : Str) : Csrf.Request :=
  ⟨"POST".toList, sent site slot jar, none, "application/x-www-form-urlencoded".toList,
    [.body "csrf_token=".toList true, .body (t ++ "&user=me".toList) false]⟩

example :
    Csrf.serve mac site.conf
      (post (history mac (fun _ => []) site client slot newBrowser [[page .helper ones], [page .plain twos, page
          .template twos]]).jar
        (Csrf.generate mac "secret".toList ones))
      = .app (.replay ("csrf_token=".toList ++ Csrf.generate mac "secret".toList ones ++ "&user=me".toList)) false := by
  decide +kernel

/-- **C140** fails for a browser that has a cookie that is not signed with the secret, for example since the secret was
changed: no page ever replaces it, and none of its submissions passes, with whatever token. -/
theorem C140_stale_false (hmac : Str → Str → Str) (hh : HexDigest hmac) (date : Int → Str) (s : Site)
    (c : SetCookie.Spec.Client) (k : SetCookie.Spec.Key) (b : Browser) (x : Str) (hx : x ≠ [])
    (hsent : sent s k b.jar = some x) (hsig : ∀ p, ¬ Csrf.Spec.Signed hmac s.conf.secret p x) (h : List (List Visit))
    (ha : ∀ vs ∈ h, ∀ v ∈ vs, Apart c k v) :
    (history hmac date s c k b h).jar k = b.jar k
    ∧ ∀ r, ¬ Csrf.Spec.SafeMethod s.conf r.method →
        r.cookie = sent s k (history hmac date s c k b h).jar → ¬ Passes hmac s r := by
  obtain ⟨h1, -⟩ := history_some hmac date s c k b x hx hsent h ha
  refine ⟨h1, ?_⟩
  rintro r hm hc ⟨recv, w, hp⟩
  obtain ⟨p, cookie, token, h2, -, h3, -, -⟩ := Csrf.C12_admits hmac (hexMac_of hmac hh) s.conf r recv w hp hm
  rw [hc, sent_congr s k _ _ h1, hsent] at h2
  rw [← Option.some.inj h2] at h3
  exact hsig p h3

example :
    sent site slot (fun k => if k = slot then some (Csrf.generate mac "old".toList ones) else none)
      = some (Csrf.generate mac "old".toList ones)
    ∧ mac "secret".toList ones ≠ mac "old".toList ones := by
  refine ⟨?_, ?_⟩ <;> decide +kernel

theorem unmatched (hmac : Str → Str → Str) (hh : HexDigest hmac) (s : Site) (r : Csrf.Request) (t : Str) (hne : t ≠ [])
    (hsub : Submits s r t) (hc : r.cookie ≠ some t) : ¬ Passes hmac s r := by
  intro hp
  have := (passes_iff hmac s r t hne hsub).1 hp
  obtain ⟨p, x, h1, h2, -⟩ := Csrf.C13_match hmac (hexMac_of hmac hh) s.conf.secret (some t) r.cookie this
  rw [← Option.some.inj h1] at h2
  exact hc h2

/-- **C140** fails for the first page of a `TemplateController`, as in the documentation: the token in the page and the
cookie that the middleware adds are made from different random texts, and the form is rejected. -/
theorem C140_template_false (hmac : Str → Str → Str) (hh : HexDigest hmac) (date : Int → Str) (s : Site)
    (c : SetCookie.Spec.Client) (k : SetCookie.Spec.Key) (hs : Sound s c k) (b : Browser) (hb : b.jar k = none)
    (v : Visit) (hr : Random v.rnd) (hr' : Random v.rnd') (hp : v.page = .template) (hx : v.extra = [])
    (hd : v.rnd ≠ v.rnd') :
    (openAll hmac date s c k b [v]).tabs = b.tabs ++ [some (Csrf.generate hmac v.secret v.rnd)]
    ∧ ∀ r, Submits s r (Csrf.generate hmac v.secret v.rnd) →
        r.cookie = sent s k (openAll hmac date s c k b [v]).jar → ¬ Passes hmac s r := by
  have hsent : sent s k b.jar = none := by unfold sent; rw [hb]; rfl
  obtain ⟨f, hf, hrec⟩ := field_eq date s c k hs (Csrf.generate hmac s.conf.secret v.rnd')
  have hresp : respond hmac date s none v = (some (Csrf.generate hmac v.secret v.rnd), [f]) := by
    simp [respond, handle, hp, hx, hf, getOrSet]
  have hjar : (openAll hmac date s c k b [v]).jar k = some (Csrf.generate hmac s.conf.secret v.rnd') := by
    unfold openAll
    rw [hsent]
    simp only [List.flatMap_cons, List.flatMap_nil, List.append_nil, hresp, List.foldl_cons, List.foldl_nil]
    rw [hrec, if_pos rfl, quote_hex _ (token_ne hmac hh _ _ hr') (hex_token hmac hh _ _ hr')]
  refine ⟨?_, ?_⟩
  · unfold openAll
    rw [hsent]
    simp only [List.map_cons, List.map_nil, hresp]
  · intro r hsub hc
    refine unmatched hmac hh s r _ (token_ne hmac hh _ _ hr) hsub ?_
    rw [hc, sent_token s c k hs _ _ (token_ne hmac hh _ _ hr') (hex_token hmac hh _ _ hr') hjar]
    intro e
    exact hd (token_inj hmac _ _ _ _ hr hr' (Option.some.inj e).symm)

example :
    Csrf.serve mac site.conf
      (post (openAll mac (fun _ => []) site client slot newBrowser [page .template ones]).jar
        (Csrf.generate mac "secret".toList ones)) = .denied := by decide +kernel

/-- **C140** fails for pages that are opened at the same time: each one gives out its own token, the last cookie stays,
and the form of the page before is rejected. -/
theorem C140_tabs_false (hmac : Str → Str → Str) (hh : HexDigest hmac) (date : Int → Str) (s : Site)
    (c : SetCookie.Spec.Client) (k : SetCookie.Spec.Key) (hs : Sound s c k) (b : Browser) (hb : b.jar k = none)
    (v w : Visit) (hr : Random v.rnd) (hr' : Random w.rnd) (hv : v.page = .helper) (hw : w.page = .helper)
    (hd : v.rnd ≠ w.rnd) :
    (openAll hmac date s c k b [v, w]).tabs
      = b.tabs ++ [some (Csrf.generate hmac v.secret v.rnd), some (Csrf.generate hmac w.secret w.rnd)]
    ∧ ∀ r, Submits s r (Csrf.generate hmac v.secret v.rnd) →
        r.cookie = sent s k (openAll hmac date s c k b [v, w]).jar → ¬ Passes hmac s r := by
  have hsent : sent s k b.jar = none := by unfold sent; rw [hb]; rfl
  obtain ⟨f, hf, -⟩ := field_eq date s c k hs (Csrf.generate hmac v.secret v.rnd)
  obtain ⟨g, hg, hrec⟩ := field_eq date s c k hs (Csrf.generate hmac w.secret w.rnd)
  have h1 : respond hmac date s none v = (some (Csrf.generate hmac v.secret v.rnd), v.extra ++ [f]) := by
    simp [respond, handle, hv, getOrSet, hf]
  have h2 : respond hmac date s none w = (some (Csrf.generate hmac w.secret w.rnd), w.extra ++ [g]) := by
    simp [respond, handle, hw, getOrSet, hg]
  have hjar : (openAll hmac date s c k b [v, w]).jar k = some (Csrf.generate hmac w.secret w.rnd) := by
    unfold openAll
    rw [hsent]
    simp only [List.flatMap_cons, List.flatMap_nil, List.append_nil, h1, h2, List.foldl_append, List.foldl_cons,
      List.foldl_nil]
    rw [hrec, if_pos rfl, quote_hex _ (token_ne hmac hh _ _ hr') (hex_token hmac hh _ _ hr')]
  refine ⟨?_, ?_⟩
  · unfold openAll
    rw [hsent]
    simp only [List.map_cons, List.map_nil, h1, h2]
  · intro r hsub hc
    refine unmatched hmac hh s r _ (token_ne hmac hh _ _ hr) hsub ?_
    rw [hc, sent_token s c k hs _ _ (token_ne hmac hh _ _ hr') (hex_token hmac hh _ _ hr') hjar]
    intro e
    exact hd (token_inj hmac _ _ _ _ hr hr' (Option.some.inj e).symm)

example :
    Csrf.serve mac site.conf
      (post (openAll mac (fun _ => []) site client slot newBrowser [page .helper ones, page .helper twos]).jar
        (Csrf.generate mac "secret".toList ones)) = .denied := by decide +kernel

/-- **C140** fails for pages whose responses set any other cookie, such as one of a session: the middleware adds none,
and a browser that opens only such pages can submit nothing. -/
theorem C140_extra_false (hmac : Str → Str → Str) (hh : HexDigest hmac) (date : Int → Str) (s : Site)
    (c : SetCookie.Spec.Client) (k : SetCookie.Spec.Key) (b : Browser) (hb : b.jar k = none) (h : List (List Visit))
    (ha : ∀ vs ∈ h, ∀ v ∈ vs, Apart c k v ∧ v.page ≠ .helper ∧ v.extra ≠ []) :
    (history hmac date s c k b h).jar k = none
    ∧ ∀ r, ¬ Csrf.Spec.SafeMethod s.conf r.method →
        r.cookie = sent s k (history hmac date s c k b h).jar → ¬ Passes hmac s r := by
  have hj : (history hmac date s c k b h).jar k = none := by
    unfold history
    induction h generalizing b with
    | nil => exact hb
    | cons vs h ih =>
      rw [List.foldl_cons]
      refine ih _ ?_ (fun vs' hvs => ha vs' (List.mem_cons_of_mem _ hvs))
      have hsent : sent s k b.jar = none := by unfold sent; rw [hb]; rfl
      unfold openAll
      rw [hsent]
      refine (fold_apart c k _ ?_ _).trans hb
      intro f hf
      obtain ⟨v, hv, hf⟩ := List.mem_flatMap.1 hf
      obtain ⟨h1, h2, h3⟩ := ha vs List.mem_cons_self v hv
      have : (respond hmac date s none v).2 = v.extra := by
        cases hp : v.page with
        | helper => exact absurd hp h2
        | plain => simp [respond, handle, hp, h3]
        | template => simp [respond, handle, hp, h3]
      rw [this] at hf
      exact h1 f hf
  refine ⟨hj, ?_⟩
  rintro r hm hc ⟨recv, w, hp⟩
  obtain ⟨p, cookie, token, h2, -⟩ := Csrf.C12_admits hmac (hexMac_of hmac hh) s.conf r recv w hp hm
  rw [hc] at h2
  unfold sent at h2
  rw [hj] at h2
  cases h2

example :
    (respond mac (fun _ => []) site none { page .plain ones with extra := ["session=x; path=/".toList] }).2
      = ["session=x; path=/".toList]
    ∧ Apart client slot { page .plain ones with extra := ["session=x; path=/".toList] } := by
  refine ⟨by decide +kernel, ?_⟩
  intro f hf jar
  have hf : f ∈ ["session=x; path=/".toList] := hf
  rw [List.mem_singleton.1 hf]
  have h1 : SetCookie.Spec.seen "session=x; path=/".toList
      = some ⟨"session".toList, "x".toList, [("path".toList, "/".toList)]⟩ := by decide +kernel
  have h2 : SetCookie.Spec.place client ⟨"session".toList, "x".toList, [("path".toList, "/".toList)]⟩
      = some ("session".toList, "example.org".toList, "/".toList) := by decide +kernel
  unfold SetCookie.Spec.receive
  rw [h1]
  simp only [h2]
  rw [if_neg (by decide)]

end Verif.CsrfFlow.Props
