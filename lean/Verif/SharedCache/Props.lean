import Verif.SharedCache.Lemmas
import Verif.MultiDict.Props
import Verif.SessionFlow.Props
import Verif.CsrfFlow.Props

/-!
# C148: answers in a shared cache

English: when a shared cache stands in front of the application, a client gets only answers that it can read and that
were meant for it: nobody gets a coding that they have not asked for, the page or the session of somebody else, or a
token that somebody else knows.
-/

namespace Verif.SharedCache.Props

open Verif Verif.MultiDict Verif.MultiDict.Spec Verif.Cors Verif.Cors.Spec Spec
open Verif.CorsCache.Spec (Usable values)

/-! ## Compression -/

/-- Whatever a cache has seen before, a client gets the answer of the application as it is, or, if it has mentioned
gzip, one that decompresses to the content of the application and says so. -/
theorem C148_coding (c : Gzip.Codec) (hc : Gzip.Spec.Faithful c) (min : Nat) (past : List Zipped) (x : Zipped)
    (a : Answer Gzip.Bytes) (h : Gets Zipped.request (Zipped.sent c min) past x a) :
    ∃ y ∈ x :: past, a = ⟨y.headers, content y⟩ ∨
      (TakesGzip x.request ∧ values y.headers "Content-Encoding".toList = [] ∧
        values a.headers "Content-Encoding".toList = ["gzip".toList] ∧ c.inflate a.body = some (content y)) := by
  rcases h with h | ⟨y, hy, h, hr⟩
  · refine ⟨x, List.mem_cons_self, ?_⟩
    rcases sent_cases c hc min x a h with e | ⟨h1, h2, h3, h4, _, _⟩
    · exact .inl e
    · exact .inr ⟨h1, h2, h3, h4⟩
  · refine ⟨y, List.mem_cons_of_mem _ hy, ?_⟩
    rcases sent_cases c hc min y a h with e | ⟨h1, h2, h3, h4, h5, _⟩
    · exact .inl e
    · refine .inr ⟨?_, h2, h3, h4⟩
      have hv : Varies a.headers "Accept-Encoding".toList := by
        rw [varies_congr _ _ _ h5]
        exact (MultiDict.C22_new_present y.headers _ _ (by decide) ⟨"Accept-Encoding".toList, by decide, by decide⟩).1
      exact takes_same _ _ (hr.1.2.2.2 _ hv) h1

/-- If the application writes at most one `Vary` line, a cache reuses its answers behind the middleware only where it
may reuse them without the middleware. -/
theorem C148_vary_partial (c : Gzip.Codec) (hc : Gzip.Spec.Faithful c) (min : Nat) (past : List Zipped) (x : Zipped)
    (a : Answer Gzip.Bytes) (hone : ∀ y ∈ past, (values y.headers "Vary".toList).length ≤ 1)
    (h : Gets Zipped.request (Zipped.sent c min) past x a) :
    x.sent c min = some a ∨ ∃ y ∈ past, y.sent c min = some a ∧ Reusable y.request y.headers x.request := by
  rcases h with h | ⟨y, hy, h, hr⟩
  · exact .inl h
  · refine .inr ⟨y, hy, h, ?_⟩
    rcases sent_cases c hc min y a h with e | ⟨_, _, _, _, h5, h6⟩
    · rw [e] at hr
      exact hr
    · have hl : (y.headers.filter fun kv => lower kv.1 = "vary".toList).length ≤ 1 := by
        have h1 := hone y hy
        unfold values at h1
        rw [List.length_map, show lower "Vary".toList = "vary".toList by decide] at h1
        exact h1
      have hv : ∀ n, Varies y.headers n → Varies a.headers n := by
        intro n hn
        rw [varies_congr _ _ _ h5]
        exact (MultiDict.C22_vary_partial y.headers _ hl n).2 (.inl hn)
      refine ⟨⟨hr.1.1, hr.1.2.1, fun hs => hr.1.2.2.1 (hv _ hs), fun n hn => hr.1.2.2.2 n (hv n hn)⟩, ?_⟩
      rw [← forbids_congr _ _ h6]
      exact hr.2

/-- A request with these lines. -/
def ask (hs : List (Str × Str)) : Request := ⟨"GET".toList, hs⟩

/-- Gzip is mentioned. -/
def zip : Str × Str := ("Accept-Encoding".toList, "br, gzip".toList)

/-- An answer in the language of the client. -/
def page (hs : List (Str × Str)) (vary : List (Str × Str)) (text : Gzip.Bytes) : Zipped := ⟨ask hs, vary, [], text⟩

theorem varies_only (hs : List (Str × Str)) (v : Str) (ws : List Str) (h : getall lower hs "vary".toList = [v])
    (hw : (splitOn ',' v).map (strip isSpace) = ws) (n : Str) (hn : Varies hs n) : n ∈ ws := by
  rw [varies_getall, h] at hn
  obtain ⟨_, x, hx, t, ht, e⟩ := hn
  have hx := List.mem_singleton.1 hx
  subst hx
  rw [← hw, ← e]
  exact List.mem_map_of_mem ht

/-- A cache may reuse a compressed answer for another request that mentions gzip in the same way. -/
example : Gets Zipped.request (Zipped.sent Gzip.toy 0)
    [page [zip] [("Vary".toList, "Accept-Language".toList)] [1, 2]]
    (page [zip, ("X".toList, "y".toList)] [("Vary".toList, "Accept-Language".toList)] [3])
    ⟨[("vary".toList, "Accept-Language, Accept-Encoding".toList), ("Content-Encoding".toList, "gzip".toList),
      ("Content-Length".toList, "4".toList)], [31, 1, 2, 0]⟩ := by
  refine .inr ⟨_, List.mem_cons_self, by decide +kernel, ⟨rfl, rfl, ?_, ?_⟩, by unfold Forbids; decide +kernel⟩
  · intro hn
    have := varies_only _ "Accept-Language, Accept-Encoding".toList ["Accept-Language".toList, "Accept-Encoding".toList]
      (by decide +kernel) (by decide +kernel) _ hn
    revert this
    decide
  · intro n hn
    have := varies_only _ "Accept-Language, Accept-Encoding".toList ["Accept-Language".toList, "Accept-Encoding".toList]
      (by decide +kernel) (by decide +kernel) _ hn
    simp only [List.mem_cons, List.not_mem_nil, or_false] at this
    rcases this with rfl | rfl <;> decide +kernel

/-- With two `Vary` lines it is false: compression drops the second, and a client gets a page in the language of
another, which the answer of the application does not allow. -/
theorem C148_vary_false :
    ∃ (x y : Zipped) (a : Answer Gzip.Bytes), values y.headers "Vary".toList =
        ["Accept".toList, "Accept-Language".toList] ∧
      field x.request.headers "Accept-Language".toList = some "pt".toList ∧
      field y.request.headers "Accept-Language".toList = some "en".toList ∧
      Gets Zipped.request (Zipped.sent Gzip.toy 0) [y] x a ∧ x.sent Gzip.toy 0 ≠ some a ∧
      ¬ Reusable y.request y.headers x.request := by
  refine ⟨page [zip, ("Accept-Language".toList, "pt".toList)] [] [1],
    page [zip, ("Accept-Language".toList, "en".toList)]
      [("Vary".toList, "Accept".toList), ("Vary".toList, "Accept-Language".toList)] [2],
    ⟨[("vary".toList, "Accept, Accept-Encoding".toList), ("Content-Encoding".toList, "gzip".toList),
      ("Content-Length".toList, "3".toList)], [31, 2, 0]⟩, by decide +kernel, by decide +kernel, by decide +kernel,
    .inr ⟨_, List.mem_cons_self, by decide +kernel, ⟨rfl, rfl, ?_, ?_⟩, by unfold Forbids; decide +kernel⟩,
    by decide +kernel, ?_⟩
  · intro hn
    have := varies_only _ "Accept, Accept-Encoding".toList ["Accept".toList, "Accept-Encoding".toList]
      (by decide +kernel) (by decide +kernel) _ hn
    revert this
    decide
  · intro n hn
    have := varies_only _ "Accept, Accept-Encoding".toList ["Accept".toList, "Accept-Encoding".toList]
      (by decide +kernel) (by decide +kernel) _ hn
    simp only [List.mem_cons, List.not_mem_nil, or_false] at this
    rcases this with rfl | rfl <;> decide +kernel
  · rintro ⟨⟨_, _, _, h⟩, _⟩
    have := h "Accept-Language".toList ⟨by decide, ("Vary".toList, "Accept-Language".toList),
      List.mem_cons_of_mem _ List.mem_cons_self, by decide, "Accept-Language".toList, by decide, by decide⟩
    revert this
    decide +kernel

/-! ## Sessions -/

/-- If the application says `Vary: Cookie` in its answers, a client gets only answers that it would have got with its
own cookies at the time. -/
theorem C148_session_partial (s : SessionFlow.Site) (past : List Logged) (x : Logged) (a : Answer Str)
    (hx : OneCookieLine x.request) (hp : ∀ y ∈ past, OneCookieLine y.request)
    (hv : ∀ y ∈ past, ∀ sess, Varies (y.app sess).1.headers "Cookie".toList)
    (h : Gets Logged.request (fun y => some (y.sent s)) past x a) :
    ∃ y ∈ x :: past, a = Logged.sent s { y with request := x.request } := by
  rcases h with h | ⟨y, hy, h, hr⟩
  · exact ⟨x, List.mem_cons_self, (Option.some.inj h).symm⟩
  · refine ⟨y, List.mem_cons_of_mem _ hy, ?_⟩
    have ha := (Option.some.inj h).symm
    have hc := same_cookies y.request x.request (hp y hy) hx (hr.1.2.2.2 _ (by
      rw [ha]
      exact ((cookies_kept _ _).1 _).2 (hv y hy _)))
    rw [ha]
    unfold Logged.sent
    rw [hc]

/-- If the application says `Cache-Control: private` or `no-store`, a client gets only the answer to its own
request. -/
theorem C148_session_private (s : SessionFlow.Site) (past : List Logged) (x : Logged) (a : Answer Str)
    (hv : ∀ y ∈ past, ∀ sess, Forbids (y.app sess).1.headers)
    (h : Gets Logged.request (fun y => some (y.sent s)) past x a) : a = x.sent s := by
  rcases h with h | ⟨y, hy, h, hr⟩
  · exact (Option.some.inj h).symm
  · refine absurd ?_ hr.2
    rw [← Option.some.inj h]
    exact (cookies_kept _ _).2.2 (hv y hy _)

/-- What is sent: the answer of the application alone if it sets the cookie of the session itself; otherwise the
session is added if there is one, and it is ended if the application has emptied it. -/
theorem C148_session_field (s : SessionFlow.Site) (x : Logged) (o : Session.Sess × Bool) (a : Answer Str)
    (left : Session.Sess) (ho : Session.opened s.conf x.time (cookiesOf x.request) = o) (ha : x.app o.1 = (a, left)) :
    ((∃ v, s.name ++ '=' :: v ∈ values a.headers "Set-Cookie".toList) → x.sent s = a) ∧
    ((¬ ∃ v, s.name ++ '=' :: v ∈ values a.headers "Set-Cookie".toList) →
      (left ≠ [] → x.sent s = ⟨a.headers ++ [("set-cookie".toList, s.field x.time left)], a.body⟩) ∧
      (left = [] → o.2 = false → x.sent s = ⟨a.headers ++ [("set-cookie".toList, s.ending)], a.body⟩) ∧
      (left = [] → o.2 = true → x.sent s = a)) := by
  have hv : values a.headers "Set-Cookie".toList = getall lower a.headers "set-cookie".toList := by
    have hl : lower "Set-Cookie".toList = lower "set-cookie".toList := by decide +kernel
    unfold values getall
    rw [hl]
    clear ha ho
    induction a.headers with
    | nil => rfl
    | cons kv h ih =>
      rw [List.filter_cons, List.filterMap_cons]
      by_cases hk : lower kv.1 = lower "set-cookie".toList
      · simp only [hk, decide_true, if_true, List.map_cons, ih]
      · simp only [hk, decide_false, if_false, Bool.false_eq_true, ih]
  have key : ∀ extra, s.respond x.time o.2 (getall lower a.headers "set-cookie".toList) left =
      getall lower a.headers "set-cookie".toList ++ extra →
      x.sent s = ⟨a.headers ++ extra.map fun f => ("set-cookie".toList, f), a.body⟩ := by
    intro extra h
    unfold Logged.sent
    simp only [ho, ha]
    rw [h, List.drop_left]
  have hself : (⟨a.headers ++ ([] : List Str).map fun f => ("set-cookie".toList, f), a.body⟩ : Answer Str) = a := by
    rw [List.map_nil, List.append_nil]
  rw [hv]
  obtain ⟨h1, h2⟩ := SessionFlow.Props.C142_already s x.time o.2 (getall lower a.headers "set-cookie".toList) left
  refine ⟨fun h => (key [] (by rw [h1 h, List.append_nil])).trans hself, fun h => ⟨fun hl => ?_, fun hl hw => ?_,
    fun hl hw => ?_⟩⟩
  · exact key [_] ((h2 h).1 hl)
  · exact key [_] ((h2 h).2.1 hl hw)
  · exact (key [] (by rw [(h2 h).2.2 hl hw, List.append_nil])).trans hself

/-- A site with sessions. -/
def shop : SessionFlow.Site := SessionFlow.site 'x' (some 60) "/" true

/-- The session of a user. -/
def alice : Session.Sess := [("u".toList, some "a".toList)]

/-- A request of that user, with the cookie of the session. -/
def theirs : Request := ask [("Cookie".toList, "session=\"".toList ++ shop.signer.sign 0 alice ++ "\"".toList)]

/-- A page that greets the user of the session and leaves the session as it is. -/
def greet (hs : List (Str × Str)) (sess : Session.Sess) : Answer Str × Session.Sess :=
  (⟨hs, if sess = alice then "Hi a".toList else "Hi".toList⟩, sess)

/-- A page for which every visitor gets a session with a number of its own. -/
def number (hs : List (Str × Str)) (n : Str) (sess : Session.Sess) : Answer Str × Session.Sess :=
  (⟨hs, "cart".toList⟩, if sess = [] then [("cart".toList, some n)] else sess)

example : (⟨0, theirs, greet [("Set-Cookie".toList, "session=own".toList)]⟩ : Logged).sent shop =
    ⟨[("Set-Cookie".toList, "session=own".toList)], "Hi a".toList⟩ := by decide +kernel

example : (⟨0, theirs, greet [("Set-Cookie".toList, "sessions=own".toList)]⟩ : Logged).sent shop =
    ⟨[("Set-Cookie".toList, "sessions=own".toList), ("set-cookie".toList, shop.field 0 alice)], "Hi a".toList⟩ := by
  decide +kernel

/-- The session that a browser without cookies has after an answer. -/
def after (a : Answer Str) (now : Nat) : Session.Sess :=
  (SessionFlow.Spec.view shop id
    ((values a.headers "Set-Cookie".toList).foldl (SessionFlow.Spec.take SessionFlow.client now) [])
    ⟨now, "/".toList, true⟩).1

example : ∃ x y : Logged, OneCookieLine x.request ∧ OneCookieLine y.request ∧ x.request = y.request ∧
    (∀ sess, Varies (y.app sess).1.headers "Cookie".toList) ∧
    Gets Logged.request (fun y => some (y.sent shop)) [y] x (y.sent shop) := by
  refine ⟨⟨2, theirs, greet [("Vary".toList, "Cookie".toList)]⟩, ⟨1, theirs, greet [("Vary".toList, "Cookie".toList)]⟩,
    by unfold OneCookieLine; decide +kernel, by unfold OneCookieLine; decide +kernel, rfl, fun sess => ?_,
    .inr ⟨_, List.mem_cons_self, rfl, ⟨rfl, rfl, ?_, fun n _ => rfl⟩, by unfold Forbids; decide +kernel⟩⟩
  · exact ⟨by decide, ("Vary".toList, "Cookie".toList), List.mem_cons_self, by decide, "Cookie".toList, by decide,
      by decide⟩
  · intro hn
    have := varies_only _ "Cookie".toList ["Cookie".toList] (by decide +kernel) (by decide +kernel) _ hn
    revert this
    decide

example : Forbids [("cache-control".toList, "max-age=60, Private".toList)] ∧
    ¬ Forbids [("cache-control".toList, "max-age=60".toList)] := by
  unfold Forbids
  refine ⟨?_, ?_⟩ <;> decide +kernel

/-- The middleware says neither: a visitor without cookies gets the page of a user, and with it their session. -/
theorem C148_session_false :
    ∃ x y : Logged, values x.request.headers "Cookie".toList = [] ∧ y.request = theirs ∧
      y.app = greet [("Cache-Control".toList, "max-age=60".toList)] ∧ x.app = y.app ∧
      Gets Logged.request (fun y => some (y.sent shop)) [y] x (y.sent shop) ∧
      (y.sent shop).body = "Hi a".toList ∧ (x.sent shop).body = "Hi".toList ∧ after (y.sent shop) 2 = alice := by
  refine ⟨⟨2, ask [], greet [("Cache-Control".toList, "max-age=60".toList)]⟩,
    ⟨1, theirs, greet [("Cache-Control".toList, "max-age=60".toList)]⟩, rfl, rfl, rfl, rfl,
    .inr ⟨_, List.mem_cons_self, rfl, ⟨rfl, rfl, ?_, ?_⟩, by unfold Forbids; decide +kernel⟩,
    by decide +kernel, by decide +kernel, by decide +kernel⟩
  · exact CorsCache.noVary _ (by decide +kernel) _
  · intro n hn
    exact absurd hn (CorsCache.noVary _ (by decide +kernel) n)

/-- `Vary: Cookie` keeps users apart, but not new visitors: two visitors without cookies get one session. -/
theorem C148_first_false :
    ∃ x y : Logged, values x.request.headers "Cookie".toList = [] ∧ values y.request.headers "Cookie".toList = [] ∧
      x.app = number [("Vary".toList, "Cookie".toList)] "2".toList ∧
      y.app = number [("Vary".toList, "Cookie".toList)] "1".toList ∧
      Gets Logged.request (fun y => some (y.sent shop)) [y] x (y.sent shop) ∧
      after (x.sent shop) 2 = [("cart".toList, some "2".toList)] ∧
      after (y.sent shop) 2 = [("cart".toList, some "1".toList)] := by
  refine ⟨⟨2, ask [], number [("Vary".toList, "Cookie".toList)] "2".toList⟩,
    ⟨1, ask [], number [("Vary".toList, "Cookie".toList)] "1".toList⟩, rfl, rfl, rfl, rfl,
    .inr ⟨_, List.mem_cons_self, rfl, ⟨rfl, rfl, ?_, fun n _ => rfl⟩, by unfold Forbids; decide +kernel⟩,
    by decide +kernel, by decide +kernel⟩
  intro hn
  have := varies_only _ "Cookie".toList ["Cookie".toList] (by decide +kernel) (by decide +kernel) _ hn
  revert this
  decide

/-! ## Tokens -/

/-- If the application says `Vary: Cookie`, a client gets only answers that it would have got with its own cookies,
with the random text of some visit: one who has a token already gets no other. -/
theorem C148_token_partial (hmac : Str → Str → Str) (date : Int → Str) (s : CsrfFlow.Site) (past : List Guarded)
    (x : Guarded) (a : Answer Str) (hx : OneCookieLine x.request) (hp : ∀ y ∈ past, OneCookieLine y.request)
    (hv : ∀ y ∈ past, Varies y.app.headers "Cookie".toList)
    (h : Gets Guarded.request (fun y => some (y.sent hmac date s)) past x a) :
    ∃ y ∈ x :: past, a = Guarded.sent hmac date s { y with request := x.request } ∧
      (∀ t, aget (cookiesOf x.request) s.name = some t → a = y.app) := by
  have own : ∀ y : Guarded, ∀ t, aget (cookiesOf x.request) s.name = some t →
      Guarded.sent hmac date s { y with request := x.request } = y.app := by
    intro y t ht
    unfold Guarded.sent Csrf.issued
    simp only [ht, if_neg (show ¬ (some t = none ∧ _) from fun e => nomatch e.1)]
  rcases h with h | ⟨y, hy, h, hr⟩
  · have ha := (Option.some.inj h).symm
    exact ⟨x, List.mem_cons_self, ha, fun t ht => ha.trans (own x t ht)⟩
  · refine ⟨y, List.mem_cons_of_mem _ hy, ?_⟩
    have ha := (Option.some.inj h).symm
    have hvy : Varies a.headers "Cookie".toList := by
      rw [ha]
      unfold Guarded.sent
      split
      · exact ((cookies_kept _ _).1 _).2 (hv y hy)
      · exact hv y hy
    have hc := same_cookies y.request x.request (hp y hy) hx (hr.1.2.2.2 _ hvy)
    have e : a = Guarded.sent hmac date s { y with request := x.request } := by
      rw [ha]
      unfold Guarded.sent
      rw [hc]
    exact ⟨e, fun t ht => e.trans (own y t ht)⟩

/-- If the application says `Cache-Control: private` or `no-store`, a client gets only the answer to its own
request. -/
theorem C148_token_private (hmac : Str → Str → Str) (date : Int → Str) (s : CsrfFlow.Site) (past : List Guarded)
    (x : Guarded) (a : Answer Str) (hv : ∀ y ∈ past, Forbids y.app.headers)
    (h : Gets Guarded.request (fun y => some (y.sent hmac date s)) past x a) : a = x.sent hmac date s := by
  rcases h with h | ⟨y, hy, h, hr⟩
  · exact (Option.some.inj h).symm
  · refine absurd ?_ hr.2
    rw [← Option.some.inj h]
    unfold Guarded.sent
    split
    · exact (cookies_kept _ _).2.2 (hv y hy)
    · exact hv y hy

example : ∃ x y : Guarded, OneCookieLine x.request ∧ OneCookieLine y.request ∧
    aget (cookiesOf x.request) CsrfFlow.Props.site.name = some "t".toList ∧ Varies y.app.headers "Cookie".toList ∧
    Gets Guarded.request (fun y => some (y.sent CsrfFlow.Props.mac (fun _ => []) CsrfFlow.Props.site)) [y] x y.app := by
  refine ⟨⟨ask [("Cookie".toList, "csrftoken=t".toList)], [], ⟨[("Vary".toList, "Cookie".toList)], "a".toList⟩⟩,
    ⟨ask [("Cookie".toList, "csrftoken=t".toList)], [], ⟨[("Vary".toList, "Cookie".toList)], "b".toList⟩⟩,
    by unfold OneCookieLine; decide +kernel, by unfold OneCookieLine; decide +kernel, by decide +kernel, ?_,
    .inr ⟨_, List.mem_cons_self, by decide +kernel, ⟨rfl, rfl, ?_, fun n _ => rfl⟩, by unfold Forbids; decide +kernel⟩⟩
  · exact ⟨by decide, ("Vary".toList, "Cookie".toList), List.mem_cons_self, by decide, "Cookie".toList, by decide,
      by decide⟩
  · intro hn
    have := varies_only _ "Cookie".toList ["Cookie".toList] (by decide +kernel) (by decide +kernel) _ hn
    revert this
    decide

/-- The cookie of the protection in a browser without cookies after an answer. -/
def token (a : Answer Str) : Option Str :=
  CsrfFlow.Spec.sent CsrfFlow.Props.site CsrfFlow.Props.slot
    ((values a.headers "Set-Cookie".toList).foldl (SetCookie.Spec.receive CsrfFlow.Props.client) fun _ => none)

/-- Also with `Vary: Cookie`, two visitors who have no cookies yet get one token: the first of them can submit it in
the name of the second. -/
theorem C148_token_false :
    ∃ x y : Guarded, values x.request.headers "Cookie".toList = [] ∧ x.rnd ≠ y.rnd ∧
      x.app.headers = [("Vary".toList, "Cookie".toList)] ∧ y.app.headers = [("Vary".toList, "Cookie".toList)] ∧
      Gets Guarded.request (fun y => some (y.sent CsrfFlow.Props.mac (fun _ => []) CsrfFlow.Props.site)) [y] x
        (y.sent CsrfFlow.Props.mac (fun _ => []) CsrfFlow.Props.site) ∧
      ∃ t, token (y.sent CsrfFlow.Props.mac (fun _ => []) CsrfFlow.Props.site) = some t ∧
        token (x.sent CsrfFlow.Props.mac (fun _ => []) CsrfFlow.Props.site) ≠ some t ∧
        CsrfFlow.Spec.Passes CsrfFlow.Props.mac CsrfFlow.Props.site ⟨"POST".toList, some t, some t, [], []⟩ := by
  refine ⟨⟨ask [], CsrfFlow.Props.ones, ⟨[("Vary".toList, "Cookie".toList)], []⟩⟩,
    ⟨ask [], CsrfFlow.Props.twos, ⟨[("Vary".toList, "Cookie".toList)], []⟩⟩, rfl, by decide +kernel, rfl, rfl,
    .inr ⟨_, List.mem_cons_self, rfl, ⟨rfl, rfl, ?_, fun n _ => rfl⟩, by unfold Forbids; decide +kernel⟩,
    CsrfFlow.Props.twos ++ CsrfFlow.Props.mac "secret".toList CsrfFlow.Props.twos, by decide +kernel,
    by decide +kernel, .original [], false, by decide +kernel⟩
  intro hn
  have := varies_only _ "Cookie".toList ["Cookie".toList] (by decide +kernel) (by decide +kernel) _ hn
  revert this
  decide

end Verif.SharedCache.Props
