import Verif.Cors.Lemmas

/-!
# Properties C10 and C11
-/

namespace Verif.Cors

open Verif Verif.MultiDict Verif.MultiDict.Spec Spec

/-! ## C10 -/

/-- Every preflight request gets 200 or 400; it gets 200 exactly when origin and method are allowed
and every element of the requested headers — an empty one included — is allowed. -/
theorem C10_preflight_exact (c : Config) (origin method : Str) (hs : Option Str) :
    ((preflight c origin method hs).status = 200 ∨ (preflight c origin method hs).status = 400) ∧
    ((preflight c origin method hs).status = 200 ↔
      OriginAllowed c origin ∧ MethodAllowed c method ∧
        ∀ t, hs = some t → ∀ e ∈ splitOn ',' t, HeaderAllowed c (strip isSpace e)) := by
  rw [← okHeaders_iff, ← validateOrigin_iff, ← allowMethods_iff, ← failures_iff]
  unfold preflight
  by_cases h : failures c origin method hs = []
  · rw [if_neg (fun hn => hn h)]; exact ⟨.inl rfl, fun _ => h, fun _ => rfl⟩
  · rw [if_pos h]; exact ⟨.inr rfl, fun e => absurd (show (400 : Nat) = 200 from e) (by decide), fun e => absurd e h⟩

/-- C10 for requests without empty elements in the list of headers: success exactly for permitted
requests, 400 otherwise. -/
theorem C10_preflight_partial (c : Config) (origin method : Str) (hs : Option Str)
    (hne : "*".toList ∈ c.headers ∨ ∀ t, hs = some t → ∀ e ∈ splitOn ',' t, strip isSpace e ≠ []) :
    (Permitted c origin method hs → (preflight c origin method hs).status = 200) ∧
    (¬ Permitted c origin method hs → (preflight c origin method hs).status = 400) := by
  obtain ⟨h1, h2⟩ := C10_preflight_exact c origin method hs
  have hiff : Permitted c origin method hs ↔ (preflight c origin method hs).status = 200 := by
    rw [h2]
    unfold Permitted
    constructor
    · rintro ⟨ho, hm, hh⟩
      refine ⟨ho, hm, ?_⟩
      intro t ht e he
      rcases hne with hstar | hne
      · exact .inl hstar
      · exact hh _ ⟨t, ht, hne t ht e he, e, he, rfl⟩
    · rintro ⟨ho, hm, hh⟩
      refine ⟨ho, hm, ?_⟩
      rintro h ⟨t, ht, _, e, he, rfl⟩
      exact hh t ht e he
  constructor
  · exact hiff.1
  · intro hn
    rcases h1 with h | h
    · exact absurd (hiff.2 h) hn
    · exact h

/-- The text of a preflight answer: `OK`, or the reasons of the refusal, in the order origin, method,
headers, each named exactly when it is one; the declared length is that of the text. -/
theorem C10_reasons (c : Config) (origin method : Str) (hs : Option Str) :
    (∃ rs : List Str,
      (preflight c origin method hs).body =
        (if rs = [] then "OK".toList else "Disallowed CORS ".toList ++ joinWith ", ".toList rs) ∧
      rs.Sublist ["origin".toList, "method".toList, "headers".toList] ∧
      ("origin".toList ∈ rs ↔ ¬ OriginAllowed c origin) ∧
      ("method".toList ∈ rs ↔ ¬ MethodAllowed c method) ∧
      ("headers".toList ∈ rs ↔
        ¬ ∀ t, hs = some t → ∀ e ∈ splitOn ',' t, HeaderAllowed c (strip isSpace e))) ∧
    getall lower (preflight c origin method hs).headers "Content-Length".toList =
      [Path.natToDec (preflight c origin method hs).body.length] ∧
    getall lower (preflight c origin method hs).headers "Content-Type".toList =
      ["text/plain; charset=utf-8".toList] := by
  refine ⟨⟨failures c origin method hs, ?_, failures_sublist c origin method hs, ?_⟩, ?_⟩
  · unfold preflight
    by_cases h : failures c origin method hs = []
    · rw [if_neg (fun hn => hn h), if_pos h]; rfl
    · rw [if_pos h, if_neg h]; rfl
  · rw [← okHeaders_iff, ← validateOrigin_iff, ← allowMethods_iff]
    exact failures_mem c origin method hs
  · have key : ∀ t st, getall lower (plainText t st (preflightAnswer c origin hs)).headers "Content-Length".toList =
        [Path.natToDec t.length] ∧
        getall lower (plainText t st (preflightAnswer c origin hs)).headers "Content-Type".toList =
        ["text/plain; charset=utf-8".toList] := fun t st => plainText_own t st c origin hs
    unfold preflight
    split
    · exact key _ _
    · exact key _ _

example : (preflight ⟨["https://a".toList], [], [], false, none, false, [], 600⟩ "https://b".toList "PUT".toList
    (some "accept, x-one".toList)).body = "Disallowed CORS origin, method, headers".toList := by decide +kernel

/-- A configuration with a listed origin, two methods and one header. -/
def sample : Config :=
  ⟨["https://a".toList], ["GET".toList, "PUT".toList], ["X-One".toList], false, none, false, [], 600⟩

example : (∀ t, some "x-one, Accept".toList = some t → ∀ e ∈ splitOn ',' t, strip isSpace e ≠ []) ∧
    (preflight sample "https://a".toList "PUT".toList (some "x-one, Accept".toList)).status = 200 ∧
    (preflight sample "https://a".toList "PUT".toList (some "x-two".toList)).status = 400 := by
  refine ⟨?_, by decide +kernel, by decide +kernel⟩
  intro t ht
  injection ht with ht
  rw [← ht]
  decide

/-- An empty list of requested headers asks for nothing, but is answered with 400. -/
theorem C10_empty_false :
    Permitted sample "https://a".toList "PUT".toList (some []) ∧
    (preflight sample "https://a".toList "PUT".toList (some [])).status = 400 := by
  refine ⟨⟨.inr (.inr (by decide)), by unfold MethodAllowed; decide, ?_⟩, by decide +kernel⟩
  rintro h ⟨t, ht, hne, e, he, hs⟩
  injection ht with ht
  subst ht
  simp only [splitOn, List.mem_singleton] at he
  subst he
  exact absurd hs.symm (by simpa [strip, lstrip, rstrip] using hne)

/-- The middleware answers exactly the preflight requests by `preflight`. -/
theorem C10_served (c : Config) (r : Request) (app : Resp) (origin m : Str)
    (hm : r.method = "OPTIONS".toList) (ho : get lower r.headers "origin".toList = some origin)
    (ha : get lower r.headers "access-control-request-method".toList = some m) :
    serve c r app =
      preflight c origin m (get lower r.headers "access-control-request-headers".toList) := by
  unfold serve
  rw [ho]
  simp only [hm, if_true, ha]

example : get lower [("Origin".toList, "https://a".toList),
    ("Access-Control-Request-Method".toList, "PUT".toList)] "origin".toList = some "https://a".toList := by
  decide

/-- The private-network preflight succeeds exactly for an allowed origin, and for `true` only when
private networks are allowed. -/
theorem C10_private_network (c : Config) (origin requested : Str) :
    ((privatePreflight c origin requested).status = 200 ↔
      OriginAllowed c origin ∧ (requested = "true".toList → c.privateNetworks = true)) ∧
    ((privatePreflight c origin requested).status ≠ 200 → (privatePreflight c origin requested).status = 400) := by
  have hiff : privateErrors c origin requested = [] ↔
      OriginAllowed c origin ∧ (requested = "true".toList → c.privateNetworks = true) := by
    rw [← validateOrigin_iff]
    unfold privateErrors
    rw [List.append_eq_nil_iff]
    apply and_congr
    · by_cases h : validateOrigin c origin = true
      · rw [if_pos h]; exact ⟨fun _ => h, fun _ => rfl⟩
      · rw [if_neg h]; exact ⟨fun e => by (cases e), fun e => absurd e h⟩
    · by_cases h : requested = "true".toList ∧ c.privateNetworks = false
      · rw [if_pos h]
        refine ⟨fun e => by (cases e), fun e => ?_⟩
        have := e h.1; rw [h.2] at this; cases this
      · rw [if_neg h]
        refine ⟨fun _ hr => ?_, fun _ => rfl⟩
        cases hp : c.privateNetworks with
        | true => rfl
        | false => exact absurd ⟨hr, hp⟩ h
  rw [← hiff]
  unfold privatePreflight
  by_cases h : privateErrors c origin requested = []
  · rw [if_neg (fun hn => hn h)]; exact ⟨⟨fun _ => h, fun _ => rfl⟩, fun hn => absurd rfl hn⟩
  · rw [if_pos h]; exact ⟨⟨fun e => absurd (show (400 : Nat) = 200 from e) (by decide), fun e => absurd e h⟩, fun _ => rfl⟩

example : (privatePreflight { sample with privateNetworks := true } "https://a".toList "true".toList).status = 200 ∧
    (privatePreflight sample "https://a".toList "true".toList).status = 400 := by decide +kernel

/-! ## C11 -/

/-- A private-network preflight is answered by a separate branch. -/
def PrivatePreflight (r : Request) : Prop :=
  r.method = "OPTIONS".toList ∧ get lower r.headers "access-control-request-method".toList = none ∧
    (get lower r.headers "access-control-request-private-network".toList).isSome = true

/-- C11.  For an application that sets no `Access-Control-Allow-Origin` of its own: whatever order
Python gives the header names, a disallowed origin gets a response that names no origin at
all; a response that names a specific origin names the one of the request, which is allowed,
and varies on `Origin` — except for private-network preflights under `*` without credentials. -/
theorem C11_exposure_partial (c : Config) (r : Request) (app : Resp) (ks : List Str)
    (happ : ∀ o, ¬ Names app.headers o) (hk : KeyOrder (serve c r app).headers ks)
    (hpn : PrivatePreflight r → "*".toList ∈ c.origins → c.credentials = true) :
    (∀ origin, get lower r.headers "origin".toList = some origin → ¬ OriginAllowed c origin →
      ∀ o, ¬ Names (multiItems lower ks (serve c r app).headers) o) ∧
    (∀ o, Names (multiItems lower ks (serve c r app).headers) o → o ≠ "*".toList →
      get lower r.headers "origin".toList = some o ∧ OriginAllowed c o ∧
        Varies (multiItems lower ks (serve c r app).headers) "Origin".toList) := by
  have hall : c.allOrigins = true ↔ "*".toList ∈ c.origins := by unfold Config.allOrigins; simp
  suffices key :
      (∀ origin, get lower r.headers "origin".toList = some origin → ¬ OriginAllowed c origin →
        ∀ o, ¬ Names (serve c r app).headers o) ∧
      (∀ o, Names (serve c r app).headers o → o ≠ "*".toList →
        get lower r.headers "origin".toList = some o ∧ OriginAllowed c o ∧
          Varies (serve c r app).headers "Origin".toList) by
    constructor
    · intro origin h1 h2 o
      rw [names_sent _ ks hk]; exact key.1 origin h1 h2 o
    · intro o
      rw [names_sent _ ks hk, varies_sent _ ks hk]; exact key.2 o
  clear hk
  unfold serve
  cases hor : get lower r.headers "origin".toList with
  | none =>
    simp only
    exact ⟨fun _ h => by (cases h), fun o h => absurd h (happ o)⟩
  | some origin =>
    simp only [Option.some.injEq, forall_eq']
    split
    · -- preflight
      rename_i m _
      obtain ⟨t, s, he⟩ := preflight_headers c origin m
        (get lower r.headers "access-control-request-headers".toList)
      obtain ⟨h1, h2⟩ := preflightAnswer_spec c origin
        (get lower r.headers "access-control-request-headers".toList)
      rw [he]
      constructor
      · intro hn o; rw [names_plainText]; exact h1 hn o
      · intro o hN hne
        rw [names_plainText] at hN
        obtain ⟨e1, e2, e3⟩ := h2 o hN hne
        exact ⟨e1, e2, varies_origin _ (List.mem_append_left _ e3)⟩
    · rename_i hnm
      split
      · -- private network
        rename_i p hp
        have hopt : r.method = "OPTIONS".toList := by
          by_cases h : r.method = "OPTIONS".toList
          · exact h
          · rw [if_neg h] at hp; cases hp
        rw [if_pos hopt] at hp hnm
        have hexp : c.explicit = true := by
          unfold Config.explicit
          by_cases h : c.allOrigins = true
          · rw [hpn ⟨hopt, hnm, by rw [hp]; rfl⟩ (hall.1 h)]; simp
          · simp [h]
        unfold privatePreflight
        split
        · constructor
          · intro hn o
            rw [names_plainText, names_preflightHeaders]
            rintro ⟨h1, _⟩
            exact hn (.inl (hall.1 h1))
          · intro o hN hne
            rw [names_plainText, names_preflightHeaders] at hN
            exact absurd hN.2 hne
        · rename_i herr
          have hv : validateOrigin c origin = true := by
            by_cases h : validateOrigin c origin = true
            · exact h
            · exfalso; apply herr
              unfold privateErrors
              rw [if_neg h]
              exact fun e => List.cons_ne_nil _ _ (List.append_eq_nil_iff.1 e).1
          constructor
          · intro hn; exact absurd ((validateOrigin_iff c origin).1 hv) hn
          · intro o hN hne
            rw [names_plainText] at hN
            have := names_setitem_acao c origin o hN
            subst this
            exact ⟨rfl, (validateOrigin_iff c _).1 hv, varies_origin _ (List.mem_append_left _
              (setitem_keeps _ _ _ (by decide) (varies_preflightHeaders c hexp)))⟩
      · -- ordinary response
        generalize (get lower r.headers "cookie".toList).isSome = cookie
        unfold sendHeaders
        simp only
        have hnone : getall lower app.headers acao = [] := by
          rw [List.eq_nil_iff_forall_not_mem]
          intro o ho
          exact happ o ((names_getall app.headers o).2 ho)
        obtain ⟨e1, e2⟩ := setExplicit_spec (update lower app.headers (simpleHeaders c)) origin
        have hexpl : OriginAllowed c origin →
            (¬OriginAllowed c origin → ∀ o, ¬Names (setExplicit (update lower app.headers (simpleHeaders c)) origin) o) ∧
            (∀ o, Names (setExplicit (update lower app.headers (simpleHeaders c)) origin) o → o ≠ "*".toList →
              origin = o ∧ OriginAllowed c o ∧
                Varies (setExplicit (update lower app.headers (simpleHeaders c)) origin) "Origin".toList) := by
          intro ha
          refine ⟨fun h => absurd ha h, ?_⟩
          intro o hN _
          rw [names_getall, e1, List.mem_singleton] at hN
          subst hN
          exact ⟨rfl, ha, e2⟩
        split
        · rename_i h
          rw [Bool.and_eq_true] at h
          exact hexpl (.inl (hall.1 h.1))
        · split
          · rename_i h
            rw [Bool.and_eq_true] at h
            exact hexpl ((validateOrigin_iff c origin).1 h.2)
          · constructor
            · intro hn o
              rw [names_getall, getall_simple]
              have : ¬ c.allOrigins = true := fun h => hn (.inl (hall.1 h))
              rw [if_neg this, hnone]; simp
            · intro o hN hne
              rw [names_getall, getall_simple] at hN
              split at hN
              · exact absurd (List.mem_singleton.1 hN) hne
              · rw [hnone] at hN; cases hN

/-- Non-trivial instance of the hypotheses: an application response with two `Vary` fields. -/
example : (∀ o, ¬ Names [("Vary".toList, "a".toList), ("vary".toList, "b".toList)] o) ∧
    sendHeaders sample "https://a".toList false [("Vary".toList, "a".toList), ("X".toList, "b".toList)] =
      [("vary".toList, "a, Origin".toList), ("X".toList, "b".toList), (acao, "https://a".toList)] := by
  refine ⟨?_, by decide +kernel⟩
  rintro o ⟨kv, hm, hl, _⟩
  have : ∀ kv ∈ [("Vary".toList, "a".toList), ("vary".toList, "b".toList)],
      lower kv.1 ≠ "access-control-allow-origin".toList := by decide
  exact this kv hm hl

/-- A header set by the application itself is not taken away for a disallowed origin. -/
theorem C11_app_header_false :
    ¬ OriginAllowed sample "https://evil".toList ∧
    Names (serve sample ⟨"GET".toList, [("origin".toList, "https://evil".toList)]⟩
      ⟨200, [(acao, "https://evil".toList)], []⟩).headers "https://evil".toList := by
  constructor
  · rintro (h | ⟨r, h, _⟩ | h)
    · revert h; decide
    · cases h
    · revert h; decide
  · exact ⟨(acao, "https://evil".toList), by decide +kernel, by decide, rfl⟩

/-- With all origins allowed and no credentials, a private-network preflight echoes the origin
without `Vary: Origin`. -/
theorem C11_private_network_false :
    let c : Config := ⟨["*".toList], [], [], false, none, true, [], 600⟩
    let resp := serve c ⟨"OPTIONS".toList, [("origin".toList, "https://a".toList),
      ("access-control-request-private-network".toList, "true".toList)]⟩ ⟨200, [], []⟩
    Names resp.headers "https://a".toList ∧ ¬ Varies resp.headers "Origin".toList := by
  constructor
  · exact ⟨(acao, "https://a".toList), by decide +kernel, by decide, rfl⟩
  · rintro ⟨_, kv, hm, hl, _⟩
    have hno : ∀ kv ∈ (serve ⟨["*".toList], [], [], false, none, true, [], 600⟩
        ⟨"OPTIONS".toList, [("origin".toList, "https://a".toList),
        ("access-control-request-private-network".toList, "true".toList)]⟩ ⟨200, [], []⟩).headers,
        lower kv.1 ≠ "vary".toList := by decide +kernel
    exact hno kv hm hl

end Verif.Cors
