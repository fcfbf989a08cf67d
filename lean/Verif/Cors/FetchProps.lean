import Verif.Cors.FetchLemmas
import Verif.Cors.Props

/-!
# Property C54
-/

namespace Verif.Cors

open Verif Verif.MultiDict Verif.MultiDict.Spec Spec

/-- C54, preflight requests.  For a configuration whose methods and headers are tokens, and whatever
order Python gives the header names: the browser lets a wanted request happen after the answer to its
preflight request exactly when the configuration allows origin, method, headers, credentials and
private network. -/
theorem C54_preflight (c : Config) (w : Wanted) (app : Resp) (ks : List Str)
    (hm : ∀ m ∈ c.methods, Token m) (hh : ∀ h ∈ c.headers, Token h)
    (hn : ∀ n ∈ w.names, Token n) (hk : KeyOrder (serve c (preflightRequest w) app).headers ks) :
    PreflightOk (serve c (preflightRequest w) app).status
      (multiItems lower ks (serve c (preflightRequest w) app).headers) w ↔ Configured c w := by
  rw [served_preflight] at hk ⊢
  obtain ⟨hst, hiff⟩ := C10_preflight_exact c w.origin w.method (askedHeaders w)
  rw [asked_allowed c w hn] at hiff
  have hf := fun x h1 h2 => preflight_getall c w.origin w.method (askedHeaders w) x h1 h2
  have hans := getall_answer c w.origin (askedHeaders w)
  generalize preflight c w.origin w.method (askedHeaders w) = P at hk hst hiff hf ⊢
  by_cases hok : P.status = 200
  · obtain ⟨ho, hme, hhe⟩ := hiff.1 hok
    -- the fields
    have hcred : field (multiItems lower ks P.headers) "Access-Control-Allow-Credentials".toList =
        if c.credentials then some "true".toList else none := by
      apply field_opt _ _ hk
      rw [hf _ (by decide) (by decide), hans, if_neg (fun e => absurd e.1 (by decide)),
        if_neg (fun e => absurd e.1 (by decide)), ph_credentials]
    have hpriv : field (multiItems lower ks P.headers) "Access-Control-Allow-Private-Network".toList =
        if c.privateNetworks then some "true".toList else none := by
      apply field_opt _ _ hk
      rw [hf _ (by decide) (by decide), hans, if_neg (fun e => absurd e.1 (by decide)),
        if_neg (fun e => absurd e.1 (by decide)), ph_private]
    have hmeth : field (multiItems lower ks P.headers) "Access-Control-Allow-Methods".toList =
        some (joinWith ", ".toList c.allowMethods) := by
      apply field_one _ _ hk
      rw [hf _ (by decide) (by decide), hans, if_neg (fun e => absurd e.1 (by decide)),
        if_neg (fun e => absurd e.1 (by decide)), ph_methods]
    have hhead : field (multiItems lower ks P.headers) "Access-Control-Allow-Headers".toList =
        some (if (askedHeaders w).isSome ∧ c.allHeaders = true then (askedHeaders w).getD []
          else if c.allHeaders then "*".toList else joinWith ", ".toList c.allowHeaders) := by
      apply field_one _ _ hk
      rw [hf _ (by decide) (by decide), hans]
      by_cases h : (askedHeaders w).isSome ∧ c.allHeaders = true
      · rw [if_pos ⟨rfl, h⟩, if_pos h]
      · rw [if_neg (fun e => h e.2), if_neg (fun e => absurd e.1 (by decide)), ph_headers, if_neg h]
    have hacao : field (multiItems lower ks P.headers) "Access-Control-Allow-Origin".toList =
        some (if c.explicit = true then w.origin else "*".toList) := by
      apply field_one _ _ hk
      have hv := (validateOrigin_iff c w.origin).2 ho
      rw [show "Access-Control-Allow-Origin".toList = acao from rfl, hf _ (by decide) (by decide), hans,
        if_neg (fun e => absurd e.1 (by decide))]
      by_cases h : c.explicit = true
      · rw [if_pos ⟨rfl, hv, h⟩, if_pos h]
      · rw [if_neg (fun e => h e.2.2), if_neg h, ph_acao, if_pos]
        unfold Config.explicit at h
        cases hall : c.allOrigins with
        | true => rfl
        | false => rw [hall] at h; exact absurd rfl h
    generalize multiItems lower ks P.headers = H at hcred hpriv hmeth hhead hacao ⊢
    have hTm : ∀ m ∈ c.allowMethods, Token m := allowMethods_token c hm
    have hTh : ∀ h ∈ c.allowHeaders, Token h := allowHeaders_token c hh
    have hlm : listed H "Access-Control-Allow-Methods".toList = c.allowMethods := by
      unfold listed
      rw [hmeth]
      exact elements_list _ hTm
    -- the two directions
    have hcors : CorsCheck H w.origin w.credentialed ↔ (w.credentialed = true → c.credentials = true) :=
      corsCheck_iff H w.origin w.credentialed c.credentials c.explicit (by unfold Config.explicit; cases c.credentials <;> simp)
        hacao hcred
    have hheads : (∀ e ∈ listed H "Access-Control-Allow-Headers".toList, Token e) ∧ ∀ n ∈ w.names, HeaderOk H w n := by
      unfold HeaderOk listed
      rw [hhead]
      dsimp only [Option.getD]
      cases hall : c.allHeaders with
      | true =>
        unfold askedHeaders
        by_cases hne : w.names = []
        · rw [if_pos hne, if_neg (fun e => by simp at e), if_pos rfl, hne]
          refine ⟨?_, fun n h => by (cases h)⟩
          intro e he
          have : elements "*".toList = ["*".toList] := by decide
          rw [this, List.mem_singleton] at he
          rw [he]
          exact star_token
        · rw [if_neg hne, if_pos ⟨rfl, rfl⟩]
          dsimp only [Option.getD]
          rw [elements_comma _ hne hn]
          exact ⟨hn, fun n h => .inl ⟨n, h, rfl⟩⟩
      | false =>
        rw [if_neg (fun e => by simp at e), if_neg (by decide), elements_list _ hTh]
        refine ⟨hTh, fun n h => .inl ?_⟩
        have := (allowHeaders_iff c hall n).2 (hhe n h)
        rw [List.mem_map] at this
        exact this
    unfold PreflightOk Configured
    rw [hok, hcors, hpriv, hlm]
    constructor
    · rintro ⟨_, _, h1, _, _, _, _, h2⟩
      refine ⟨ho, hme, hhe, h1, fun h => ?_⟩
      have := h2 h
      by_cases hp : c.privateNetworks = true
      · exact hp
      · rw [if_neg hp] at this; cases this
    · rintro ⟨_, _, _, h1, h2⟩
      refine ⟨by decide, by decide, h1, hTm, hheads.1, .inl ?_, hheads.2, fun h => by rw [if_pos (h2 h)]⟩
      rw [hlm]
      exact (allowMethods_iff c _).2 hme
  · have h400 : P.status = 400 := hst.resolve_left hok
    unfold PreflightOk Configured
    rw [h400]
    constructor
    · rintro ⟨_, h, _⟩; exact absurd h (by decide)
    · rintro ⟨h1, h2, h3, _⟩; exact absurd (hiff.2 ⟨h1, h2, h3⟩) hok

/-- A credentialed `PUT` with two headers to a private network, which the sample configuration with
credentials and private networks allows. -/
example :
    let c : Config := ⟨["https://a".toList], ["GET".toList, "PUT".toList], ["X-One".toList], true, none, true, [], 600⟩
    let w : Wanted := ⟨"https://a".toList, "PUT".toList, ["content-type".toList, "x-one".toList], true, true⟩
    (∀ m ∈ c.methods, Token m) ∧ (∀ h ∈ c.headers, Token h) ∧ (∀ n ∈ w.names, Token n) ∧
    (serve c (preflightRequest w) ⟨404, [], []⟩).headers =
      [("Access-Control-Allow-Credentials".toList, "true".toList),
       ("Access-Control-Allow-Private-Network".toList, "true".toList),
       ("Access-Control-Allow-Headers".toList, "Accept, Accept-Language, Content-Language, Content-Type, X-One".toList),
       ("Vary".toList, "Origin".toList), ("Access-Control-Allow-Methods".toList, "GET, PUT".toList),
       ("Access-Control-Max-Age".toList, "600".toList),
       ("Access-Control-Allow-Origin".toList, "https://a".toList), ("content-length".toList, "2".toList),
       ("content-type".toList, "text/plain; charset=utf-8".toList)] := by
  refine ⟨?_, ?_, ?_, ?_⟩
  · intro m hm
    exact token_of m ((by decide : ∀ m ∈ ["GET".toList, "PUT".toList], (m ≠ [] && m.all tchar) = true) m hm)
  · intro m hm
    exact token_of m ((by decide : ∀ m ∈ ["X-One".toList], (m ≠ [] && m.all tchar) = true) m hm)
  · intro m hm
    exact token_of m ((by decide : ∀ m ∈ ["content-type".toList, "x-one".toList],
      (m ≠ [] && m.all tchar) = true) m hm)
  · decide +kernel

/-- The answer to a preflight request may be kept for as long as configured. -/
theorem C54_max_age (c : Config) (w : Wanted) (app : Resp) (ks : List Str)
    (hk : KeyOrder (serve c (preflightRequest w) app).headers ks) :
    (field (multiItems lower ks (serve c (preflightRequest w) app).headers)
      "Access-Control-Max-Age".toList).bind decimal = some c.maxAge := by
  rw [served_preflight] at hk ⊢
  rw [field_one _ _ hk _ (Path.natToDec c.maxAge)]
  · exact decimal_natToDec c.maxAge
  · rw [preflight_getall _ _ _ _ _ (by decide) (by decide), getall_answer, if_neg (fun e => absurd e.1 (by decide)),
      if_neg (fun e => absurd e.1 (by decide)), ph_maxAge]

example : decimal "600".toList = some 600 := by decide

/-- The answer to a request that asks for a private network only: its text names the reasons of a
refusal; on success it names the origin and says whether private networks are allowed. -/
theorem C10_private_answer (c : Config) (o p : Str) (ks : List Str)
    (hk : KeyOrder (privatePreflight c o p).headers ks) :
    (∃ rs : List Str,
      (privatePreflight c o p).body =
        (if rs = [] then "Allowed".toList
         else "Disallowed Private Network Access ".toList ++ joinWith ", ".toList rs) ∧
      rs.Sublist ["origin".toList, "private-network".toList] ∧
      ("origin".toList ∈ rs ↔ ¬ OriginAllowed c o) ∧
      ("private-network".toList ∈ rs ↔ p = "true".toList ∧ c.privateNetworks = false)) ∧
    field (multiItems lower ks (privatePreflight c o p).headers) "Access-Control-Allow-Private-Network".toList =
      (if c.privateNetworks then some "true".toList else none) ∧
    ((privatePreflight c o p).status = 200 →
      field (multiItems lower ks (privatePreflight c o p).headers) "Access-Control-Allow-Origin".toList = some o) := by
  have hb : (privatePreflight c o p).body =
      (if privateErrors c o p = [] then "Allowed".toList
       else "Disallowed Private Network Access ".toList ++ joinWith ", ".toList (privateErrors c o p)) := by
    unfold privatePreflight
    by_cases h : privateErrors c o p = []
    · rw [if_neg (fun hn => hn h), if_pos h]; rfl
    · rw [if_pos h, if_neg h]; rfl
  refine ⟨⟨privateErrors c o p, hb, ?_⟩, ?_, ?_⟩
  · rw [← validateOrigin_iff]
    exact privateErrors_props c o p
  · apply field_opt _ _ hk
    exact private_getall c o p
  · intro hst
    apply field_one _ _ hk
    exact private_acao c o p hst

example : (privatePreflight sample "https://b".toList "true".toList).body =
    "Disallowed Private Network Access origin, private-network".toList := by decide +kernel

/-- A request that a browser sends for a page: it has an `Origin` and is no preflight request. -/
def Ordinary (r : Request) (origin : Str) : Prop :=
  get lower r.headers "origin".toList = some origin ∧
  get lower r.headers "access-control-request-method".toList = none ∧
  get lower r.headers "access-control-request-private-network".toList = none

theorem served_ordinary (c : Config) (r : Request) (app : Resp) (o : Str) (h : Ordinary r o) :
    serve c r app =
      { app with headers := sendHeaders c o (get lower r.headers "cookie".toList).isSome app.headers } := by
  obtain ⟨h1, h2, h3⟩ := h
  unfold serve
  rw [h1]
  dsimp only
  rw [h2, h3, ite_self]

/-- C54, other requests, where a credentialed request under `*` carries a `Cookie`.  For an application
that sets neither `Access-Control-Allow-Origin` nor `Access-Control-Allow-Credentials` itself: the page
sees the response exactly when the configuration allows the origin and, where needed, credentials.
Missing: credentialed requests under `*` without a `Cookie`, see `C54_no_cookie_false`. -/
theorem C54_response_partial (c : Config) (r : Request) (app : Resp) (ks : List Str) (o : Str) (credentialed : Bool)
    (hr : Ordinary r o) (h1 : getall lower app.headers "Access-Control-Allow-Origin".toList = [])
    (h2 : getall lower app.headers "Access-Control-Allow-Credentials".toList = [])
    (hk : KeyOrder (serve c r app).headers ks)
    (hcookie : credentialed = true → c.credentials = true → "*".toList ∈ c.origins →
      (get lower r.headers "cookie".toList).isSome = true) :
    CorsCheck (multiItems lower ks (serve c r app).headers) o credentialed ↔
      OriginAllowed c o ∧ (credentialed = true → c.credentials = true) := by
  rw [served_ordinary c r app o hr] at hk ⊢
  dsimp only at hk ⊢
  generalize (get lower r.headers "cookie".toList).isSome = b at hk hcookie ⊢
  have hcred : field (multiItems lower ks (sendHeaders c o b app.headers))
      "Access-Control-Allow-Credentials".toList = if c.credentials then some "true".toList else none := by
    apply field_opt _ _ hk
    rw [sendHeaders_other _ _ _ _ _ (by decide) (by decide), sh_credentials, h2]
  have hacao := sendHeaders_acao c o b app.headers h1
  by_cases hv : validateOrigin c o = true
  · have ho := (validateOrigin_iff c o).1 hv
    have key : ∀ x : Bool, field (multiItems lower ks (sendHeaders c o b app.headers)) "Access-Control-Allow-Origin".toList =
        some (if x = true then o else "*".toList) → (credentialed = true → c.credentials = true → x = true) →
        (CorsCheck (multiItems lower ks (sendHeaders c o b app.headers)) o credentialed ↔
          OriginAllowed c o ∧ (credentialed = true → c.credentials = true)) := by
      intro x hx hxc
      cases x with
      | true =>
        rw [corsCheck_iff _ o credentialed c.credentials true (fun _ => rfl) hx hcred]
        exact ⟨fun h => ⟨ho, h⟩, fun h => h.2⟩
      | false =>
        rw [if_neg (by decide)] at hx
        unfold CorsCheck
        rw [hx, hcred]
        cases hcr : credentialed with
        | false => exact ⟨fun _ => ⟨ho, fun h => by (cases h)⟩, fun _ => .inl ⟨rfl, rfl⟩⟩
        | true =>
          cases hcc : c.credentials with
          | true => exact absurd (hxc hcr hcc) (by decide)
          | false =>
            constructor
            · rintro (⟨h, _⟩ | ⟨_, h⟩)
              · cases h
              · have := h rfl
                rw [if_neg (by decide)] at this
                cases this
            · rintro ⟨_, h⟩; exact absurd (h rfl) (by decide)
    by_cases ha : c.allOrigins = true
    · rw [if_pos ha] at hacao
      apply key b
      · apply field_one _ _ hk
        rw [show "Access-Control-Allow-Origin".toList = acao from rfl, hacao]
        cases b <;> rfl
      · intro e1 e2
        exact hcookie e1 e2 (by unfold Config.allOrigins at ha; exact of_decide_eq_true ha)
    · rw [if_neg ha, if_pos hv] at hacao
      exact key true (field_one _ _ hk _ _ hacao) (fun _ _ => rfl)
  · have ha : ¬ c.allOrigins = true := by
      intro h
      exact hv (by unfold validateOrigin; rw [if_pos h])
    rw [if_neg ha, if_neg hv] at hacao
    have hno := field_none (sendHeaders c o b app.headers) ks _ hacao
    rw [show acao = "Access-Control-Allow-Origin".toList from rfl] at hno
    unfold CorsCheck
    rw [hno]
    constructor
    · rintro (⟨_, h⟩ | ⟨h, _⟩) <;> cases h
    · rintro ⟨h, _⟩; exact absurd ((validateOrigin_iff c o).2 h) hv

/-- A credentialed request with a cookie under `*` meets the hypotheses. -/
example : Ordinary ⟨"PUT".toList, [("origin".toList, "https://a".toList), ("Cookie".toList, "k=v".toList)]⟩ "https://a".toList ∧
    (serve ⟨["*".toList], [], [], true, none, false, [], 600⟩
      ⟨"PUT".toList, [("origin".toList, "https://a".toList), ("Cookie".toList, "k=v".toList)]⟩
      ⟨200, [("x".toList, "y".toList)], "text".toList⟩) =
      ⟨200, [("x".toList, "y".toList), ("Access-Control-Allow-Origin".toList, "https://a".toList),
        ("Access-Control-Allow-Credentials".toList, "true".toList), ("vary".toList, "Origin".toList)], "text".toList⟩ := by
  refine ⟨⟨by decide, by decide, by decide⟩, by decide +kernel⟩

/-- All origins and credentials are allowed, but the response to a credentialed request without a cookie
says `*`, which the browser refuses. -/
theorem C54_no_cookie_false :
    let c : Config := ⟨["*".toList], [], [], true, none, false, [], 600⟩
    let r : Request := ⟨"GET".toList, [("origin".toList, "https://a".toList)]⟩
    Ordinary r "https://a".toList ∧ OriginAllowed c "https://a".toList ∧ c.credentials = true ∧
    ¬ CorsCheck (serve c r ⟨200, [], []⟩).headers "https://a".toList true := by
  refine ⟨⟨by decide, by decide, by decide⟩, .inl (by decide), rfl, ?_⟩
  have h : field (serve ⟨["*".toList], [], [], true, none, false, [], 600⟩
      ⟨"GET".toList, [("origin".toList, "https://a".toList)]⟩ ⟨200, [], []⟩).headers
      "Access-Control-Allow-Origin".toList = some "*".toList := by decide +kernel
  unfold CorsCheck
  rw [h]
  rintro (⟨h, _⟩ | ⟨h, _⟩)
  · cases h
  · injection h with h
    exact absurd h (by decide)

/-- The headers that the page may read are those configured, for an application that sets no
`Access-Control-Expose-Headers` itself, and a response to an origin that is echoed varies on that field
when it is present. -/
theorem C54_exposed (c : Config) (r : Request) (app : Resp) (ks : List Str) (o : Str) (hr : Ordinary r o)
    (he : ∀ e ∈ c.expose, Token e) (h1 : getall lower app.headers "Access-Control-Expose-Headers".toList = [])
    (hk : KeyOrder (serve c r app).headers ks) :
    listed (multiItems lower ks (serve c r app).headers) "Access-Control-Expose-Headers".toList = c.expose ∧
    ("*".toList ∉ c.origins → OriginAllowed c o → c.expose ≠ [] →
      Varies (multiItems lower ks (serve c r app).headers) "Access-Control-Expose-Headers".toList) := by
  rw [varies_sent _ ks hk]
  rw [served_ordinary c r app o hr] at hk ⊢
  dsimp only at hk ⊢
  generalize (get lower r.headers "cookie".toList).isSome = b at hk ⊢
  have hexp : getall lower (update lower app.headers (simpleHeaders c)) "Access-Control-Expose-Headers".toList =
      if c.expose ≠ [] then [joinWith ", ".toList c.expose] else [] := by rw [sh_expose, h1]
  constructor
  · have := field_opt _ _ hk "Access-Control-Expose-Headers".toList (joinWith ", ".toList c.expose) (c.expose ≠ [])
      (by rw [sendHeaders_other _ _ _ _ _ (by decide) (by decide), hexp])
    unfold listed
    rw [this]
    by_cases hne : c.expose = []
    · rw [if_neg (fun h => h hne), hne]; exact elements_nil
    · rw [if_pos hne]; exact elements_list _ he
  · intro hs ho hne
    have ha : c.allOrigins = false := by unfold Config.allOrigins; exact decide_eq_false hs
    have hv := (validateOrigin_iff c o).2 ho
    unfold sendHeaders
    dsimp only
    rw [ha, hv, if_neg (by simp), if_pos (by rfl)]
    apply setExplicit_exposes _ _ (joinWith ", ".toList c.expose)
    · rw [hexp, if_pos hne]
    · intro h0
      have h2 := elements_list _ he
      rw [h0, elements_nil] at h2
      exact hne h2.symm

example :
    let c : Config := { sample with expose := ["X-A".toList, "X-B".toList] }
    sendHeaders c "https://a".toList false [] =
      [("Access-Control-Expose-Headers".toList, "X-A, X-B".toList), (acao, "https://a".toList),
       ("vary".toList, "Origin, Access-Control-Expose-Headers".toList)] := by decide +kernel

end Verif.Cors
