import Verif.CorsCache.Lemmas

/-!
# C146: a cache in front of the application
-/

namespace Verif.CorsCache.Props

open Verif Verif.MultiDict Verif.MultiDict.Spec Verif.Cors Verif.Cors.Spec Spec

/-- An order of the keys: the last occurrence counts. -/
def lasts : Items Str → List Str
  | [] => []
  | kv :: d => if kv.1 ∈ lasts d then lasts d else kv.1 :: lasts d

theorem lasts_order (d : Items Str) : KeyOrder d (lasts d) := by
  induction d with
  | nil =>
    exact ⟨List.nodup_nil, fun k => ⟨fun h => absurd h List.not_mem_nil, fun ⟨_, h⟩ => absurd h List.not_mem_nil⟩⟩
  | cons kv d ih =>
    have hm : ∀ k, (∃ v, (k, v) ∈ kv :: d) ↔ k = kv.1 ∨ k ∈ lasts d := by
      intro k
      rw [ih.2 k]
      constructor
      · rintro ⟨v, h⟩
        rcases List.mem_cons.1 h with rfl | h
        · exact .inl rfl
        · exact .inr ⟨v, h⟩
      · rintro (rfl | ⟨v, h⟩)
        · exact ⟨kv.2, List.mem_cons_self⟩
        · exact ⟨v, List.mem_cons_of_mem _ h⟩
    unfold lasts
    split
    · rename_i h
      refine ⟨ih.1, fun k => ?_⟩
      rw [hm]
      exact ⟨.inr, fun e => e.elim (fun e => e ▸ h) id⟩
    · rename_i h
      refine ⟨List.nodup_cons.2 ⟨h, ih.1⟩, fun k => ?_⟩
      rw [hm, List.mem_cons]

/-- Two origins are allowed, with credentials. -/
def two : Config := ⟨["https://a".toList, "https://b".toList], [], [], true, none, false, [], 600⟩

/-- All origins are allowed, with credentials. -/
def all : Config := ⟨["*".toList], [], [], true, none, false, [], 600⟩

/-- A request of a page. -/
def ask (o : Str) : Request := ⟨"GET".toList, [("Origin".toList, o)]⟩

/-- The same with a cookie. -/
def askCookie (o : Str) : Request := ⟨"GET".toList, [("Origin".toList, o), ("Cookie".toList, "k=v".toList)]⟩

/-- A request without an origin. -/
def image : Request := ⟨"GET".toList, [("Accept".toList, "image/*".toList)]⟩

/-- An answer of the application. -/
def text : Resp := ⟨200, [("Cache-Control".toList, "max-age=60".toList)], "text".toList⟩

/-- An answer of a careful application. -/
def careful : Resp := ⟨200, [("Vary".toList, "Accept, Origin".toList)], "text".toList⟩

/-- C146, where only pages of allowed origins use the resource.  Whatever a cache stored and reuses, a script
of a page of an allowed origin sees the answer, also with credentials if these are allowed.
Missing: caches that were also asked without an origin or by other pages, see `C146_plain_false` and
`C146_stranger_false`. -/
theorem C146_allowed_partial (c : Config) (keys : Items Str → List Str) (past : List Exchange) (x : Exchange)
    (headers : List (Str × Str)) (o : Str) (credentialed : Bool) (hk : ∀ d, KeyOrder d (keys d))
    (hstar : "*".toList ∉ c.origins)
    (hpast : ∀ y ∈ past, Neutral y.app ∧ ∃ p, FromPage y.request p ∧ OriginAllowed c p)
    (hx : FromPage x.request o) (ho : OriginAllowed c o) (hn : Neutral x.app)
    (hg : Gets (sent c keys) past x headers) :
    CorsCheck headers o credentialed ↔ (credentialed = true → c.credentials = true) := by
  rcases hg with rfl | ⟨y, hy, hu, rfl⟩
  · rw [fresh c keys x o credentialed hk hx.1 (get_origin _ _ hx) hn (fun _ _ h => absurd h hstar)]
    exact ⟨fun h => h.2, fun h => ⟨ho, h⟩⟩
  · obtain ⟨hyn, p, hp, hpa⟩ := hpast y hy
    have hv : Varies (sent c keys y) "Origin".toList := by
      rw [sent_vary c keys y hk, served_get c y.request y.app p hp.1 (get_origin _ _ hp)]
      refine explicit_vary c p _ _ (.inr ?_)
      rw [(validateOrigin_iff c p).2 hpa, Bool.and_true, Bool.not_eq_true']
      rw [← Bool.not_eq_true, allOrigins_iff]
      exact hstar
    have he := same_origin _ _ _ _ _ hu hv hp hx
    subst he
    rw [fresh c keys y p credentialed hk hp.1 (get_origin _ _ hp) hyn (fun _ _ h => absurd h hstar)]
    exact ⟨fun h => h.2, fun h => ⟨ho, h⟩⟩

/-- Two pages of an allowed origin and one of another: the second may get the answer of the first. -/
example : FromPage (ask "https://a".toList) "https://a".toList ∧ OriginAllowed two "https://a".toList ∧
    Neutral text ∧ "*".toList ∉ two.origins ∧
    sent two lasts ⟨ask "https://a".toList, text⟩ =
      [("Cache-Control".toList, "max-age=60".toList), ("Access-Control-Allow-Credentials".toList, "true".toList),
        ("Access-Control-Allow-Origin".toList, "https://a".toList), ("vary".toList, "Origin".toList)] := by
  refine ⟨⟨rfl, by decide⟩, .inr (.inr (by decide)), ⟨by decide, by decide⟩, by decide, by decide +kernel⟩

/-- C146, all origins.  Whatever a cache stored of answers to pages and reuses, the script of every page sees
the answer to a request without credentials.
Missing: caches that were also asked without an origin, see `C146_plain_false`. -/
theorem C146_star_partial (c : Config) (keys : Items Str → List Str) (past : List Exchange) (x : Exchange)
    (headers : List (Str × Str)) (o : Str) (hk : ∀ d, KeyOrder d (keys d)) (hstar : "*".toList ∈ c.origins)
    (hpast : ∀ y ∈ past, Neutral y.app ∧ ∃ p, FromPage y.request p)
    (hx : FromPage x.request o) (hn : Neutral x.app) (hg : Gets (sent c keys) past x headers) :
    CorsCheck headers o false := by
  rcases hg with rfl | ⟨y, hy, hu, rfl⟩
  · rw [fresh c keys x o false hk hx.1 (get_origin _ _ hx) hn (fun h => by cases h)]
    exact ⟨.inl hstar, fun h => by cases h⟩
  · obtain ⟨hyn, p, hp⟩ := hpast y hy
    have hf := acao_field c keys y p hk hp.1 (get_origin _ _ hp) hyn
    rw [if_pos ((allOrigins_iff c).2 hstar)] at hf
    by_cases hb : (get lower y.request.headers "cookie".toList).isSome = true
    · have hv : Varies (sent c keys y) "Origin".toList := by
        rw [sent_vary c keys y hk, served_get c y.request y.app p hp.1 (get_origin _ _ hp)]
        refine explicit_vary c p _ _ (.inl ?_)
        rw [(allOrigins_iff c).2 hstar, hb]
        rfl
      have he := same_origin _ _ _ _ _ hu hv hp hx
      subst he
      rw [if_pos hb] at hf
      exact .inr ⟨hf, fun h => by cases h⟩
    · rw [if_neg hb] at hf
      exact .inl ⟨rfl, hf⟩

/-- A page with a cookie and a page without one. -/
example : "*".toList ∈ all.origins ∧ FromPage (askCookie "https://a".toList) "https://a".toList ∧
    FromPage (ask "https://b".toList) "https://b".toList ∧
    field (sent all lasts ⟨askCookie "https://a".toList, text⟩) "Access-Control-Allow-Origin".toList =
      some "https://a".toList ∧
    field (sent all lasts ⟨ask "https://b".toList, text⟩) "Access-Control-Allow-Origin".toList =
      some "*".toList := by
  refine ⟨by decide, ⟨rfl, by decide⟩, ⟨rfl, by decide⟩, by decide +kernel, by decide +kernel⟩

/-- C146, all origins, credentials.  If all requests carry a cookie, scripts see the answers to requests with
credentials.
Missing: requests without a cookie among them, see `C146_cookie_false`. -/
theorem C146_cookies_partial (c : Config) (keys : Items Str → List Str) (past : List Exchange) (x : Exchange)
    (headers : List (Str × Str)) (o : Str) (hk : ∀ d, KeyOrder d (keys d)) (hstar : "*".toList ∈ c.origins)
    (hcred : c.credentials = true)
    (hpast : ∀ y ∈ past, Neutral y.app ∧ (∃ p, FromPage y.request p) ∧ values y.request.headers "Cookie".toList ≠ [])
    (hx : FromPage x.request o) (hc : values x.request.headers "Cookie".toList ≠ []) (hn : Neutral x.app)
    (hg : Gets (sent c keys) past x headers) : CorsCheck headers o true := by
  have cookie : ∀ r : Request, values r.headers "Cookie".toList ≠ [] →
      (get lower r.headers "cookie".toList).isSome = true := by
    intro r h
    rw [values_getall, getall_lower _ _ "cookie".toList (by decide)] at h
    unfold MultiDict.get
    cases hv : getall lower r.headers "cookie".toList with
    | nil => exact absurd hv h
    | cons v vs => rfl
  rcases hg with rfl | ⟨y, hy, hu, rfl⟩
  · rw [fresh c keys x o true hk hx.1 (get_origin _ _ hx) hn (fun _ _ _ => cookie _ hc)]
    exact ⟨.inl hstar, fun _ => hcred⟩
  · obtain ⟨hyn, ⟨p, hp⟩, hyc⟩ := hpast y hy
    have hv : Varies (sent c keys y) "Origin".toList := by
      rw [sent_vary c keys y hk, served_get c y.request y.app p hp.1 (get_origin _ _ hp)]
      refine explicit_vary c p _ _ (.inl ?_)
      rw [(allOrigins_iff c).2 hstar, cookie _ hyc]
      rfl
    have he := same_origin _ _ _ _ _ hu hv hp hx
    subst he
    rw [fresh c keys y p true hk hp.1 (get_origin _ _ hp) hyn (fun _ _ _ => cookie _ hyc)]
    exact ⟨.inl hstar, fun _ => hcred⟩

/-- A page with a cookie. -/
example : all.credentials = true ∧ values (askCookie "https://a".toList).headers "Cookie".toList ≠ [] := by
  refine ⟨rfl, by decide⟩

/-- C146, an application that itself says `Vary: Origin` in all answers.  Then every cache may be used by
pages of all origins and without origin: a script sees the answer exactly when the configuration lets it. -/
theorem C146_vary (c : Config) (keys : Items Str → List Str) (past : List Exchange) (x : Exchange)
    (headers : List (Str × Str)) (o : Str) (credentialed : Bool) (hk : ∀ d, KeyOrder d (keys d))
    (hstar : "*".toList ∉ c.origins)
    (hpast : ∀ y ∈ past, Neutral y.app ∧ Varies y.app.headers "Origin".toList) (hcomma : ',' ∉ o)
    (hx : FromPage x.request o) (hn : Neutral x.app) (hg : Gets (sent c keys) past x headers) :
    CorsCheck headers o credentialed ↔ OriginAllowed c o ∧ (credentialed = true → c.credentials = true) := by
  rcases hg with rfl | ⟨y, hy, hu, rfl⟩
  · exact fresh c keys x o credentialed hk hx.1 (get_origin _ _ hx) hn (fun _ _ h => absurd h hstar)
  · obtain ⟨hyn, hyv⟩ := hpast y hy
    have hv : Varies (sent c keys y) "Origin".toList := by
      rw [sent_vary c keys y hk]
      cases hg : get lower y.request.headers "origin".toList with
      | none => rw [served_none _ _ _ hg]; exact hyv
      | some p => rw [served_get c y.request y.app p hu.1 hg]; exact kept_vary _ _ _ _ hyv
    have hf := hu.2.2.2 _ hv
    rw [field_origin _ _ hx] at hf
    have hp : FromPage y.request o := ⟨hu.1, told _ _ hcomma hf.symm⟩
    exact fresh c keys y o credentialed hk hp.1 (get_origin _ _ hp) hyn (fun _ _ h => absurd h hstar)

/-- A careful application, and an origin. -/
example : Neutral careful ∧ Varies careful.headers "Origin".toList ∧ ',' ∉ "https://a".toList := by
  refine ⟨⟨by decide, by decide⟩, ⟨by decide, _, List.mem_singleton.2 rfl, by decide, " Origin".toList, by decide,
    by decide⟩, by decide⟩

/-- C146, safety.  Whatever requests any clients made, and whatever caches do with the answers: if not all
origins are allowed, a script of a page sees an answer only if its origin is allowed. -/
theorem C146_safe (c : Config) (keys : Items Str → List Str) (past : List Exchange) (x : Exchange)
    (headers : List (Str × Str)) (o : Str) (credentialed : Bool) (hk : ∀ d, KeyOrder d (keys d))
    (hstar : "*".toList ∉ c.origins) (hpast : ∀ y ∈ past, Neutral y.app) (hcomma : ',' ∉ o)
    (hx : FromPage x.request o) (hn : Neutral x.app) (hg : Gets (sent c keys) past x headers)
    (h : CorsCheck headers o credentialed) : OriginAllowed c o := by
  rcases hg with rfl | ⟨y, hy, hu, rfl⟩
  · exact ((fresh c keys x o credentialed hk hx.1 (get_origin _ _ hx) hn (fun _ _ e => absurd e hstar)).1 h).1
  · have hyn := hpast y hy
    cases hg : get lower y.request.headers "origin".toList with
    | none =>
      refine absurd h (refused _ _ _ ?_)
      rw [sent_none _ _ _ hg]
      exact field_none _ _ _ (neutral _ hyn).1
    | some p =>
      have hf := acao_field c keys y p hk hu.1 hg hyn
      rw [if_neg (fun e => hstar ((allOrigins_iff c).1 e))] at hf
      by_cases hv : validateOrigin c p = true
      · rw [if_pos hv] at hf
        have hp := (validateOrigin_iff c p).1 hv
        have hvary : Varies (sent c keys y) "Origin".toList := by
          rw [sent_vary c keys y hk, served_get c y.request y.app p hu.1 hg]
          refine explicit_vary c p _ _ (.inr ?_)
          rw [hv, Bool.and_true, Bool.not_eq_true', ← Bool.not_eq_true, allOrigins_iff]
          exact hstar
        have he := hu.2.2.2 _ hvary
        rw [field_origin _ _ hx] at he
        have hpo := get_origin _ _ (⟨hu.1, told _ _ hcomma he.symm⟩ : FromPage y.request o)
        rw [hg] at hpo
        exact Option.some.inj hpo ▸ hp
      · rw [if_neg hv] at hf
        exact absurd h (refused _ _ _ hf)

/-- After an allowed page, another page does not get to see its answer. -/
example : ¬ CorsCheck (sent two lasts ⟨ask "https://a".toList, text⟩) "https://evil".toList false := by
  have h : field (sent two lasts ⟨ask "https://a".toList, text⟩) "Access-Control-Allow-Origin".toList =
      some "https://a".toList := by decide +kernel
  unfold CorsCheck
  rw [h]
  rintro (⟨_, h⟩ | ⟨h, _⟩)
  · exact absurd (Option.some.inj h) (by decide)
  · exact absurd (Option.some.inj h) (by decide)

/-- An answer without `Vary` may be used for every `GET` request. -/
theorem usable (old new : Request) (hs : List (Str × Str)) (h1 : old.method = "GET".toList)
    (h2 : new.method = "GET".toList) (hv : ∀ n, ¬ Varies hs n) : Usable old hs new :=
  ⟨h1, h2, hv _, fun n h => absurd h (hv n)⟩

/-- C146 is false: whatever is configured, an answer to a request without an origin, such as that of an image
of the page itself, has neither `Access-Control-Allow-Origin` nor `Vary: Origin`.  A cache may use it for a
script of a page of an allowed origin, which then does not see the answer, though it would see that of the
application. -/
theorem C146_plain_false (c : Config) (keys : Items Str → List Str) (hk : ∀ d, KeyOrder d (keys d)) (app : Resp)
    (old new : Request) (o : Str) (hn : Neutral app) (hv : values app.headers "Vary".toList = [])
    (h1 : old.method = "GET".toList) (h2 : values old.headers "Origin".toList = []) (hx : FromPage new o)
    (ho : OriginAllowed c o) :
    ∃ headers, Gets (sent c keys) [⟨old, app⟩] ⟨new, app⟩ headers ∧
      (∀ credentialed, ¬ CorsCheck headers o credentialed) ∧ CorsCheck (sent c keys ⟨new, app⟩) o false := by
  have hg : get lower old.headers "origin".toList = none := by
    unfold MultiDict.get
    rw [← origin_values, h2]
    rfl
  refine ⟨sent c keys ⟨old, app⟩, .inr ⟨_, List.mem_singleton.2 rfl, ?_, rfl⟩, ?_, ?_⟩
  · refine usable _ _ _ h1 hx.1 fun n => ?_
    rw [sent_vary c keys _ hk, served_none _ _ _ hg]
    refine noVary _ ?_ n
    rw [← hv, values_getall]
    exact getall_lower _ _ _ (by decide)
  · intro credentialed
    refine refused _ _ _ ?_
    rw [sent_none _ _ _ hg]
    exact field_none _ _ _ (neutral _ hn).1
  · rw [fresh c keys ⟨new, app⟩ o false hk hx.1 (get_origin _ _ hx) hn (fun h => by cases h)]
    exact ⟨ho, fun h => by cases h⟩

/-- An image and a script. -/
example : ∃ headers, Gets (sent two lasts) [⟨image, text⟩] ⟨ask "https://a".toList, text⟩ headers ∧
    (∀ credentialed, ¬ CorsCheck headers "https://a".toList credentialed) ∧
    CorsCheck (sent two lasts ⟨ask "https://a".toList, text⟩) "https://a".toList false :=
  C146_plain_false two lasts lasts_order text image _ _ ⟨by decide, by decide⟩ (by decide) rfl (by decide)
    ⟨rfl, by decide⟩ (.inr (.inr (by decide)))

/-- C146 is false: the answer to a page of another origin that is not allowed does not say `Vary: Origin`
either.  Any page of the web may so fill a cache with an answer that the pages of the allowed origins do not
get to see. -/
theorem C146_stranger_false (c : Config) (keys : Items Str → List Str) (hk : ∀ d, KeyOrder d (keys d)) (app : Resp)
    (old new : Request) (p o : Str) (hn : Neutral app) (hv : values app.headers "Vary".toList = [])
    (hp : FromPage old p) (hpa : ¬ OriginAllowed c p) (hx : FromPage new o) (ho : OriginAllowed c o) :
    ∃ headers, Gets (sent c keys) [⟨old, app⟩] ⟨new, app⟩ headers ∧
      (∀ credentialed, ¬ CorsCheck headers o credentialed) ∧ CorsCheck (sent c keys ⟨new, app⟩) o false := by
  have hval : ¬ validateOrigin c p = true := fun e => hpa ((validateOrigin_iff c p).1 e)
  have hall : ¬ c.allOrigins = true := fun e => hpa (.inl ((allOrigins_iff c).1 e))
  refine ⟨sent c keys ⟨old, app⟩, .inr ⟨_, List.mem_singleton.2 rfl, ?_, rfl⟩, ?_, ?_⟩
  · refine usable _ _ _ hp.1 hx.1 fun n => ?_
    rw [sent_vary c keys _ hk, served_get c old app p hp.1 (get_origin _ _ hp)]
    refine noVary _ ?_ n
    unfold sendHeaders
    dsimp only
    rw [if_neg (by simp [hall]), if_neg (by simp [hval]), simple_vary, ← hv, values_getall]
    exact getall_lower _ _ _ (by decide)
  · intro credentialed
    refine refused _ _ _ ?_
    rw [acao_field c keys ⟨old, app⟩ p hk hp.1 (get_origin _ _ hp) hn, if_neg hall, if_neg hval]
  · rw [fresh c keys ⟨new, app⟩ o false hk hx.1 (get_origin _ _ hx) hn (fun h => by cases h)]
    exact ⟨ho, fun h => by cases h⟩

/-- A page of another origin, and a script. -/
example : ∃ headers, Gets (sent two lasts) [⟨ask "https://evil".toList, text⟩] ⟨ask "https://a".toList, text⟩ headers ∧
    (∀ credentialed, ¬ CorsCheck headers "https://a".toList credentialed) ∧
    CorsCheck (sent two lasts ⟨ask "https://a".toList, text⟩) "https://a".toList false := by
  refine C146_stranger_false two lasts lasts_order text _ _ "https://evil".toList _ ⟨by decide, by decide⟩
    (by decide) ⟨rfl, by decide⟩ ?_ ⟨rfl, by decide⟩ (.inr (.inr (by decide)))
  rintro (h | ⟨r, h, _⟩ | h)
  · revert h; decide
  · cases h
  · revert h; decide

/-- C146 is false: if all origins and credentials are allowed, the answer to a page without a cookie says `*`
and has no `Vary`.  Used for a request with a cookie, it is refused by the browser. -/
theorem C146_cookie_false (c : Config) (keys : Items Str → List Str) (hk : ∀ d, KeyOrder d (keys d)) (app : Resp)
    (old new : Request) (p o : Str) (hstar : "*".toList ∈ c.origins) (hcred : c.credentials = true)
    (hn : Neutral app) (hv : values app.headers "Vary".toList = [])
    (hp : FromPage old p) (hpc : values old.headers "Cookie".toList = []) (hx : FromPage new o)
    (hxc : values new.headers "Cookie".toList ≠ []) (hne : o ≠ "*".toList) :
    ∃ headers, Gets (sent c keys) [⟨old, app⟩] ⟨new, app⟩ headers ∧
      ¬ CorsCheck headers o true ∧ CorsCheck (sent c keys ⟨new, app⟩) o true := by
  have hg : (get lower old.headers "cookie".toList).isSome = false := by
    rw [values_getall, getall_lower _ _ "cookie".toList (by decide)] at hpc
    unfold MultiDict.get
    rw [hpc]
    rfl
  have hall := (allOrigins_iff c).2 hstar
  refine ⟨sent c keys ⟨old, app⟩, .inr ⟨_, List.mem_singleton.2 rfl, ?_, rfl⟩, ?_, ?_⟩
  · refine usable _ _ _ hp.1 hx.1 fun n => ?_
    rw [sent_vary c keys _ hk, served_get c old app p hp.1 (get_origin _ _ hp), hg]
    refine noVary _ ?_ n
    unfold sendHeaders
    dsimp only
    rw [hall, if_neg (by decide), if_neg (by simp), simple_vary, ← hv, values_getall]
    exact getall_lower _ _ _ (by decide)
  · have hf := acao_field c keys ⟨old, app⟩ p hk hp.1 (get_origin _ _ hp) hn
    dsimp only at hf
    rw [if_pos hall, hg, if_neg (by decide)] at hf
    unfold CorsCheck
    rw [hf]
    rintro (⟨h, _⟩ | ⟨h, _⟩)
    · cases h
    · exact hne (Option.some.inj h).symm
  · exact C146_cookies_partial c keys [] ⟨new, app⟩ _ o hk hstar hcred (fun _ h => by cases h) hx hxc hn (.inl rfl)

/-- A page without a cookie, and one with a cookie. -/
example : ∃ headers, Gets (sent all lasts) [⟨ask "https://a".toList, text⟩]
      ⟨askCookie "https://a".toList, text⟩ headers ∧
    ¬ CorsCheck headers "https://a".toList true ∧
    CorsCheck (sent all lasts ⟨askCookie "https://a".toList, text⟩) "https://a".toList true :=
  C146_cookie_false all lasts lasts_order text _ _ "https://a".toList _ (by decide) rfl ⟨by decide, by decide⟩
    (by decide) ⟨rfl, by decide⟩ (by decide) ⟨rfl, by decide⟩ (by decide) (by decide)

end Verif.CorsCache.Props
