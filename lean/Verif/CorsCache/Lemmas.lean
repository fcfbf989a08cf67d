import Verif.CorsCache.Spec
import Verif.Cors.FetchProps

namespace Verif.CorsCache

open Verif Verif.MultiDict Verif.MultiDict.Spec Verif.Cors Verif.Cors.Spec Verif.Cors Spec

theorem values_getall (hs : List (Str × Str)) (n : Str) : values hs n = getall lower hs n := by
  unfold values
  induction hs with
  | nil => rfl
  | cons kv hs ih =>
    rw [getall_cons, ← ih, List.filter_cons]
    by_cases h : lower kv.1 = lower n
    · rw [if_pos (decide_eq_true h), if_pos h, List.map_cons]
    · rw [if_neg (by simpa using h), if_neg h]

theorem getall_lower (hs : List (Str × Str)) (a b : Str) (h : lower a = lower b) :
    getall lower hs a = getall lower hs b := by
  unfold getall
  rw [h]

theorem origin_values (hs : List (Str × Str)) : values hs "Origin".toList = getall lower hs "origin".toList := by
  rw [values_getall]
  exact getall_lower _ _ _ (by decide)

theorem get_origin (r : Request) (o : Str) (h : FromPage r o) : get lower r.headers "origin".toList = some o := by
  unfold MultiDict.get
  rw [← origin_values, h.2]
  rfl

theorem field_origin (r : Request) (o : Str) (h : FromPage r o) : field r.headers "Origin".toList = some o := by
  rw [field_getall, ← values_getall, h.2]
  rfl

/-- A `GET` request without `Origin`. -/
theorem served_none (c : Config) (r : Request) (app : Resp) (h : get lower r.headers "origin".toList = none) :
    serve c r app = app := by
  unfold serve
  rw [h]

/-- A `GET` request with `Origin`. -/
theorem served_get (c : Config) (r : Request) (app : Resp) (o : Str) (hm : r.method = "GET".toList)
    (h : get lower r.headers "origin".toList = some o) :
    serve c r app =
      { app with headers := sendHeaders c o (get lower r.headers "cookie".toList).isSome app.headers } := by
  unfold serve
  have hne : ¬ ("GET".toList = "OPTIONS".toList) := by decide
  rw [h, hm]
  simp only [if_neg hne]

/-- A request like it without other headers. -/
def bare (r : Request) (o : Str) : Request :=
  ⟨"GET".toList, ("origin".toList, o) ::
    (if (get lower r.headers "cookie".toList).isSome then [("cookie".toList, [])] else [])⟩

theorem bare_ordinary (r : Request) (o : Str) : Ordinary (bare r o) o := by
  unfold bare Ordinary MultiDict.get
  dsimp only
  cases ((getall lower r.headers "cookie".toList).head?).isSome
  · rw [if_neg (by decide)]
    refine ⟨?_, ?_, ?_⟩ <;> simp only [getall_cons, getall_nil] <;> rfl
  · rw [if_pos rfl]
    refine ⟨?_, ?_, ?_⟩ <;> simp only [getall_cons, getall_nil] <;> rfl

theorem bare_cookie (r : Request) (o : Str) :
    (get lower (bare r o).headers "cookie".toList).isSome = (get lower r.headers "cookie".toList).isSome := by
  have h1 : ¬ lower "origin".toList = lower "cookie".toList := by decide
  unfold bare
  dsimp only
  cases h : (get lower r.headers "cookie".toList).isSome
  · rw [if_neg (by decide)]
    unfold MultiDict.get
    rw [getall_cons, if_neg h1]
    rfl
  · rw [if_pos rfl]
    unfold MultiDict.get
    rw [getall_cons, if_neg h1]
    rfl

theorem bare_served (c : Config) (r : Request) (app : Resp) (o : Str) (hm : r.method = "GET".toList)
    (h : get lower r.headers "origin".toList = some o) : serve c r app = serve c (bare r o) app := by
  rw [served_get c r app o hm h, served_ordinary c _ app o (bare_ordinary r o), bare_cookie]

theorem neutral (app : Resp) (h : Neutral app) :
    getall lower app.headers "Access-Control-Allow-Origin".toList = [] ∧
    getall lower app.headers "Access-Control-Allow-Credentials".toList = [] := by
  rw [← values_getall, ← values_getall]
  exact h

/-- The check on the answer of the application itself. -/
theorem fresh (c : Config) (keys : Items Str → List Str) (x : Exchange) (o : Str) (credentialed : Bool)
    (hk : ∀ d, KeyOrder d (keys d)) (hm : x.request.method = "GET".toList)
    (ho : get lower x.request.headers "origin".toList = some o) (hn : Neutral x.app)
    (hcookie : credentialed = true → c.credentials = true → "*".toList ∈ c.origins →
      (get lower x.request.headers "cookie".toList).isSome = true) :
    CorsCheck (sent c keys x) o credentialed ↔
      OriginAllowed c o ∧ (credentialed = true → c.credentials = true) := by
  unfold sent
  rw [bare_served c x.request x.app o hm ho]
  refine C54_response_partial c _ x.app _ o credentialed (bare_ordinary _ _) (neutral _ hn).1 (neutral _ hn).2 (hk _) ?_
  intro h1 h2 h3
  rw [bare_cookie]
  exact hcookie h1 h2 h3

theorem explicit_vary (c : Config) (o : Str) (b : Bool) (d : Items Str)
    (h : (c.allOrigins && b) = true ∨ (!c.allOrigins && validateOrigin c o) = true) :
    Varies (sendHeaders c o b d) "Origin".toList := by
  unfold sendHeaders
  dsimp only
  by_cases h1 : (c.allOrigins && b) = true
  · rw [if_pos h1]
    exact (setExplicit_spec _ _).2
  · rw [if_neg h1, if_pos (h.resolve_left h1)]
    exact (setExplicit_spec _ _).2

theorem simple_vary (c : Config) (d : Items Str) :
    getall lower (update lower d (simpleHeaders c)) "vary".toList = getall lower d "vary".toList := by
  rw [getall_update]
  unfold simpleHeaders
  rw [List.foldl_append, List.foldl_append, List.foldl_append, fold_other _ _ acao _ _ (by decide),
    fold_other _ _ "Access-Control-Allow-Credentials".toList _ _ (by decide),
    fold_other _ _ "Access-Control-Expose-Headers".toList _ _ (by decide),
    fold_other _ _ "Access-Control-Allow-Private-Network".toList _ _ (by decide)]

theorem kept_vary (c : Config) (o : Str) (b : Bool) (d : Items Str) (h : Varies d "Origin".toList) :
    Varies (sendHeaders c o b d) "Origin".toList := by
  by_cases h1 : (c.allOrigins && b) = true ∨ (!c.allOrigins && validateOrigin c o) = true
  · exact explicit_vary c o b d h1
  · unfold sendHeaders
    dsimp only
    rw [if_neg (fun e => h1 (.inl e)), if_neg (fun e => h1 (.inr e)), varies_getall, simple_vary, ← varies_getall]
    exact h

theorem noVary (hs : List (Str × Str)) (h : getall lower hs "vary".toList = []) (n : Str) : ¬ Varies hs n := by
  rw [varies_getall, h]
  rintro ⟨_, x, hx, _⟩
  cases hx

theorem sent_vary (c : Config) (keys : Items Str → List Str) (x : Exchange) (hk : ∀ d, KeyOrder d (keys d)) (n : Str) :
    Varies (sent c keys x) n ↔ Varies (serve c x.request x.app).headers n := by
  unfold sent
  exact varies_sent _ _ (hk _) n

/-- An answer that varies on `Origin` is reused for the same origin only. -/
theorem same_origin (old new : Request) (hs : List (Str × Str)) (a b : Str) (h : Usable old hs new)
    (hv : Varies hs "Origin".toList) (h1 : FromPage old a) (h2 : FromPage new b) : a = b := by
  have := h.2.2.2 _ hv
  rw [field_origin _ _ h1, field_origin _ _ h2] at this
  exact (Option.some.inj this).symm

theorem comma_mem (v w : Str) (ws : List Str) : ',' ∈ joinWith ", ".toList (v :: w :: ws) := by
  show ',' ∈ v ++ ", ".toList ++ joinWith ", ".toList (w :: ws)
  exact List.mem_append_left _ (List.mem_append_right _ (by decide))

/-- A request whose origin, as the cache reads it, is `o` tells just `o`. -/
theorem told (r : Request) (o : Str) (hc : ',' ∉ o) (h : field r.headers "Origin".toList = some o) :
    values r.headers "Origin".toList = [o] := by
  rw [field_getall, ← values_getall] at h
  cases hv : values r.headers "Origin".toList with
  | nil => rw [hv] at h; cases h
  | cons v vs =>
    rw [hv] at h
    cases vs with
    | nil =>
      have : v = o := Option.some.inj h
      rw [this]
    | cons w ws =>
      have : joinWith ", ".toList (v :: w :: ws) = o := Option.some.inj h
      exact absurd (this ▸ comma_mem v w ws) hc

theorem sent_none (c : Config) (keys : Items Str → List Str) (x : Exchange)
    (h : get lower x.request.headers "origin".toList = none) :
    sent c keys x = multiItems lower (keys x.app.headers) x.app.headers := by
  unfold sent
  rw [served_none _ _ _ h]

theorem refused (hs : List (Str × Str)) (o : Str) (credentialed : Bool)
    (h : field hs "Access-Control-Allow-Origin".toList = none) : ¬ CorsCheck hs o credentialed := by
  unfold CorsCheck
  rw [h]
  rintro (⟨_, h⟩ | ⟨h, _⟩) <;> cases h

/-- The field that matters, for a `GET` request with `Origin`. -/
theorem acao_field (c : Config) (keys : Items Str → List Str) (x : Exchange) (o : Str)
    (hk : ∀ d, KeyOrder d (keys d)) (hm : x.request.method = "GET".toList)
    (ho : get lower x.request.headers "origin".toList = some o) (hn : Neutral x.app) :
    field (sent c keys x) "Access-Control-Allow-Origin".toList =
      if c.allOrigins = true then
        (if (get lower x.request.headers "cookie".toList).isSome = true then some o else some "*".toList)
      else if validateOrigin c o = true then some o else none := by
  have h := sendHeaders_acao c o (get lower x.request.headers "cookie".toList).isSome x.app.headers (neutral _ hn).1
  unfold sent
  rw [served_get c x.request x.app o hm ho]
  have one : ∀ (d : Items Str) (v : Str), getall lower d acao = [v] →
      field (multiItems lower (keys d) d) "Access-Control-Allow-Origin".toList = some v :=
    fun d v e => field_one d _ (hk d) _ _ e
  split at h
  · rename_i ha
    rw [if_pos ha]
    split at h
    · rename_i hb
      rw [if_pos hb]
      exact one _ _ h
    · rename_i hb
      rw [if_neg hb]
      exact one _ _ h
  · rename_i ha
    rw [if_neg ha]
    split at h
    · rename_i hb
      rw [if_pos hb]
      exact one _ _ h
    · rename_i hb
      rw [if_neg hb]
      exact field_none _ _ _ h

theorem allOrigins_iff (c : Config) : c.allOrigins = true ↔ "*".toList ∈ c.origins := by
  unfold Config.allOrigins
  exact decide_eq_true_iff

end Verif.CorsCache
