import Verif.Operations.Lemmas

/-!
# C108: operations in the OpenAPI document
-/

namespace Verif.Operations

open Verif Verif.Json Verif.Operations.Spec

/-- Schemas for examples: each class has a number, the class 9 is a file. -/
def demoSchemas : Schemas where
  one := fun c => if c = 9 then .obj (.cons "format".toList (.str "binary".toList) .nil) else .int c
  list := fun c => .arr (.cons (if c = 9 then .obj (.cons "format".toList (.str "binary".toList) .nil) else .int c)
      .nil)

/-- C108: the parameters of an operation are those of the path and the queries which are declared, with what they
say.  Part: but for the defaults. -/
theorem C108_parameters_partial (s : Schemas) (a : Args) (m : Meta) (h : decorate s a = .ok m) (path : List Str)
    (method name : Str) (p : Param) :
    p ∈ (operation path method ⟨name, some m⟩).parameters ↔
      (∃ n ∈ path, InPath p n ∧ p = pathParam n) ∨ ∃ n q, Declared a.query n q ∧ Shows p n q ∧ p.default = none := by
  obtain ⟨sec, rs, q, b, _, _, hq, _, rfl⟩ := decorate_ok s a m h
  show p ∈ path.map pathParam ++ q.map queryParam ↔ _
  rw [List.mem_append, List.mem_map, List.mem_map]
  constructor
  · rintro (⟨n, hn, rfl⟩ | ⟨⟨n, v⟩, hm, he⟩)
    · exact Or.inl ⟨n, hn, ⟨rfl, rfl, rfl⟩, rfl⟩
    · exact Or.inr ⟨n, v, (queryStrings_mem _ q hq n v).1 hm, (shows_iff p n v).1 he.symm⟩
  · rintro (⟨n, hn, _, rfl⟩ | ⟨n, v, hd, hs⟩)
    · exact Or.inl ⟨n, hn, rfl⟩
    · exact Or.inr ⟨(n, v), (queryStrings_mem _ q hq n v).2 hd, ((shows_iff p n v).2 hs).symm⟩

/-- A handler for `/users/{id}` with a query `limit`. -/
def demoArgs : Args where
  query := .dict [("limit".toList, .query { default := some (.int 10), description := some "how many".toList })]

example : ∃ m, decorate demoSchemas demoArgs = .ok m ∧
    (operation ["id".toList] "get".toList ⟨"users".toList, some m⟩).parameters.map (fun p => (p.name, p.inPath)) =
      [("id".toList, true), ("limit".toList, false)] := ⟨_, rfl, rfl⟩

/-- C108 does not hold for defaults, though the documentation shows them. -/
theorem C108_default_false : ¬∀ (s : Schemas) (a : Args) (m : Meta) (path : List Str) (method name n : Str) (q : Query),
    decorate s a = .ok m → Declared a.query n q →
    ∃ p ∈ (operation path method ⟨name, some m⟩).parameters, p.name = n ∧ p.default = q.default := by
  intro h
  obtain ⟨p, hp, _, hd⟩ := h demoSchemas demoArgs _ [] [] [] "limit".toList
    { default := some (.int 10), description := some "how many".toList } rfl (.query _ _ _ (List.mem_cons_self ..))
  rcases (C108_parameters_partial demoSchemas demoArgs _ rfl [] [] [] p).1 hp with ⟨_, hn, _⟩ | ⟨_, _, _, _, hn⟩
  · cases hn
  · rw [hn] at hd
    cases hd

/-- C108 does not hold for queries without a default: the documentation says that they are required. -/
theorem C108_required_false : ¬∀ (s : Schemas) (ns : List Str) (m : Meta) (p : Param),
    decorate s { query := .names ns } = .ok m → p ∈ (operation [] [] ⟨[], some m⟩).parameters → p.required = true := by
  intro h
  have := h demoSchemas ["q".toList] _ (queryParam ("q".toList, {})) rfl (List.mem_cons_self ..)
  cases this

/-- C108: each name stands once among the parameters, if the declared names differ from those in the path.  Part: the
documentation has queries dropped which have the name of a parameter in the path. -/
theorem C108_names_partial (s : Schemas) (a : Args) (m : Meta) (h : decorate s a = .ok m) (path : List Str)
    (method name : Str) (hp : path.Nodup) (hq : (m.query.map Prod.fst).Nodup)
    (hd : ∀ n q, Declared a.query n q → n ∉ path) :
    ((operation path method ⟨name, some m⟩).parameters.map Param.name).Nodup := by
  obtain ⟨sec, rs, q, b, _, _, hqs, _, rfl⟩ := decorate_ok s a m h
  have e : (operation path method ⟨name, some ⟨a.summary, a.description, a.statusCode, a.mediaType, a.includeInSchema,
      a.tags, a.deprecated, sec, a.operationId, a.responseDescription, rs, q, b⟩⟩).parameters.map Param.name =
      path ++ q.map Prod.fst := by
    show (path.map pathParam ++ q.map queryParam).map Param.name = _
    rw [List.map_append, List.map_map, List.map_map]
    congr 1
    exact (List.map_congr_left (g := id) fun _ _ => rfl).trans (List.map_id path)
  rw [e, List.nodup_append]
  refine ⟨hp, hq, ?_⟩
  intro x hx y hy hxy
  subst hxy
  obtain ⟨⟨n, v⟩, hm, rfl⟩ := List.mem_map.1 hy
  exact hd n v ((queryStrings_mem _ q hqs n v).1 hm) hx

/-- C108 does not hold for a query with the name of a parameter in the path: both are listed. -/
theorem C108_names_false : ¬∀ (s : Schemas) (a : Args) (m : Meta) (path : List Str) (method name : Str),
    decorate s a = .ok m → path.Nodup → (m.query.map Prod.fst).Nodup →
    ((operation path method ⟨name, some m⟩).parameters.map Param.name).Nodup := by
  intro h
  have := h demoSchemas { query := .names ["user_id".toList] } _ ["user_id".toList] [] [] rfl (by decide) (by
    show List.Nodup ["user_id".toList]
    decide)
  have e : ¬List.Nodup ["user_id".toList, "user_id".toList] := by decide
  exact e this

/-- C108 does not hold for a dictionary of queries in which a value is neither a `Query` nor a dictionary: the query is
dropped without an error. -/
theorem C108_dropped_false : ¬∀ (s : Schemas) (d : List (Str × QueryValue)) (m : Meta) (n : Str) (v : QueryValue),
    decorate s { query := .dict d } = .ok m → (n, v) ∈ d →
    ∃ p ∈ (operation [] [] ⟨[], some m⟩).parameters, p.name = n := by
  intro h
  obtain ⟨p, hp, _⟩ := h demoSchemas [("limit".toList, .other)] _ "limit".toList .other rfl (List.mem_cons_self ..)
  cases hp

/-- C108: the operation has the id which is given, or the name of a function which is not decorated.  Part: the
function is not decorated or the id is given. -/
theorem C108_id_partial (s : Schemas) (a : Args) (m : Meta) (h : decorate s a = .ok m) (path : List Str)
    (method name : Str) : (operation path method ⟨name, none⟩).operationId = some name ∧
      ∀ i, a.operationId = some i → (operation path method ⟨name, some m⟩).operationId = some i := by
  obtain ⟨sec, rs, q, b, _, _, _, _, rfl⟩ := decorate_ok s a m h
  exact ⟨rfl, fun i hi => hi⟩

/-- C108 does not hold for a decorated function without an id: it has none in the document, where the documentation
says that it is the name of the function. -/
theorem C108_id_false (s : Schemas) (a : Args) (m : Meta) (h : decorate s a = .ok m) (ha : a.operationId = none)
    (path : List Str) (method name : Str) : (operation path method ⟨name, some m⟩).operationId = none := by
  obtain ⟨sec, rs, q, b, _, _, _, _, rfl⟩ := decorate_ok s a m h
  exact ha

example : ∃ m, decorate demoSchemas {} = .ok m ∧
    (operation [] "get".toList ⟨"say_hello".toList, some m⟩).operationId = none := ⟨_, rfl, rfl⟩

/-- C108: summary, description, tags and deprecation are as given. -/
theorem C108_texts (s : Schemas) (a : Args) (m : Meta) (h : decorate s a = .ok m) (path : List Str)
    (method name : Str) : (operation path method ⟨name, some m⟩).summary = a.summary ∧
      (operation path method ⟨name, some m⟩).description = a.description ∧
      (operation path method ⟨name, some m⟩).tags = a.tags ∧
      (operation path method ⟨name, some m⟩).deprecated = a.deprecated := by
  obtain ⟨sec, rs, q, b, _, _, _, _, rfl⟩ := decorate_ok s a m h
  exact ⟨rfl, rfl, rfl, rfl⟩

/-- C108: the responses of an operation are those which are declared, with their descriptions and a reference to the
schema of the model, or of a list of it.  Part: the media type is always JSON. -/
theorem C108_responses_partial (s : Schemas) (a : Args) (m : Meta) (rs : List (Nat × Response)) (hne : rs ≠ [])
    (ha : a.responses = declared rs) (h : decorate s a = .ok m) (path : List Str) (method name : Str) (c : Nat) :
    aget (operation path method ⟨name, some m⟩).responses c = (aget rs c).map fun r =>
      ⟨if r.description = [] then "Successful response".toList else r.description,
        some ⟨"application/json".toList, r.many, r.model.name⟩⟩ := by
  obtain ⟨sec, rs', q, b, _, hr, _, _, rfl⟩ := decorate_ok s a m h
  rw [ha, responseModels_declared] at hr
  cases hr
  refine (congrArg (aget · c) (responses_declared _ rs hne rfl)).trans ((aget_map_entry shown rs c).trans ?_)
  congr 1
  funext r
  unfold shown responseObject
  dsimp only
  cases r.description <;> rfl

/-- `Item` with a schema. -/
def item : Model := ⟨"Item".toList, "shop__Item".toList, some 1⟩

example : ∃ m, decorate demoSchemas { responses := declared [(201, { model := item, description := "Created".toList }),
      (400, { model := item, many := true, description := [] })] } = .ok m ∧
    (operation [] "post".toList ⟨[], some m⟩).responses =
      [(201, ⟨"Created".toList, some ⟨"application/json".toList, false, "Item".toList⟩⟩),
        (400, ⟨"Successful response".toList, some ⟨"application/json".toList, true, "Item".toList⟩⟩)] := ⟨_, rfl, rfl⟩

/-- C108 does not hold for the media type of a response. -/
theorem C108_media_false : ¬∀ (s : Schemas) (a : Args) (m : Meta) (rs : List (Nat × Response)) (c : Nat) (r : Response),
    a.responses = declared rs → decorate s a = .ok m → aget rs c = some r →
    ∃ o, aget (operation [] [] ⟨[], some m⟩).responses c = some o ∧ o.content.map Content.media = some r.media := by
  intro h
  obtain ⟨o, h1, h2⟩ := h demoSchemas { responses := declared [(201, { model := item, media :=
      "application/xml".toList })] }
    _ [(201, { model := item, media := "application/xml".toList })] 201
    { model := item, media := "application/xml".toList } rfl rfl rfl
  have e : some (⟨"Additional response".toList, some ⟨"application/json".toList, false, "Item".toList⟩⟩ :
      ResponseObject) =
    some o := h1
  cases e
  exact absurd h2 (by decide)

/-- C108: a dictionary of responses serves one handler only: the decorator replaces its values, and fails when it is
given the dictionary again. -/
theorem C108_shared_false (s : Schemas) (a b : Args) (m : Meta) (h : decorate s a = .ok m) (hne : a.responses ≠ [])
    (hb : b.responses = m.responses) (hs : ∃ x, handleSecurity b.security = .ok x) :
    decorate s b = .error .attribute := by
  obtain ⟨sec, rs, q, bd, _, hr, _, _, rfl⟩ := decorate_ok s a m h
  dsimp only at hb
  obtain ⟨x, hx⟩ := hs
  have hl := responseModels_length _ _ hr
  have he : responseModels b.responses = .error .attribute := by
    rw [hb]
    cases rs with
    | nil =>
      cases ha : a.responses with
      | nil => exact absurd ha hne
      | cons _ _ => rw [ha] at hl; cases hl
    | cons ce rest =>
      obtain ⟨c, e⟩ := ce
      obtain ⟨p, hp⟩ := responseModels_params _ _ hr (c, e) (List.mem_cons_self ..)
      dsimp only at hp
      subst hp
      rfl
  unfold decorate
  rw [hx, he]
  rfl

example : ∃ m, decorate demoSchemas { responses := declared [(404, { model := item })] } = .ok m ∧
    m.responses ≠ [] := ⟨_, rfl, nofun⟩

/-- C108: without responses there is one, for 200, with the description that is given. -/
theorem C108_fallback (s : Schemas) (a : Args) (m : Meta) (h : decorate s a = .ok m) (hr : a.responses = [])
    (path : List Str) (method name : Str) :
    (operation path method ⟨name, none⟩).responses = [(200, ⟨"Successful response".toList, none⟩)] ∧
    (operation path method ⟨name, some m⟩).responses =
      [(200, ⟨if a.responseDescription.getD [] = [] then "Successful response".toList
        else a.responseDescription.getD [], none⟩)] := by
  refine ⟨rfl, ?_⟩
  obtain ⟨sec, rs, q, b, _, hrs, _, _, rfl⟩ := decorate_ok s a m h
  rw [hr] at hrs
  cases hrs
  show [(200, defaultResponse a.responseDescription)] = _
  unfold defaultResponse
  cases a.responseDescription.getD [] <;> rfl

/-- C108 does not hold for `status_code`: the response is listed under 200. -/
theorem C108_status_false : ¬∀ (s : Schemas) (a : Args) (m : Meta) (c : Nat), decorate s a = .ok m →
    a.responses = [] → a.statusCode = some c → (aget (operation [] [] ⟨[], some m⟩).responses c).isSome := by
  intro h
  have := h demoSchemas { statusCode := some 201 } _ 201 rfl rfl rfl
  cases this

/-- C108: `format: binary` is found wherever it is in a schema. -/
theorem C108_binary (j : Json) : containsBinary j = true ↔ HasBinary j := containsBinary_iff j

example : HasBinary (.obj (.cons "items".toList (.obj (.cons "format".toList (.str "binary".toList) .nil)) .nil)) :=
  .value _ _ (.here ..) (.here _ rfl)

/-- C108: the body of an operation: there is one if it is declared and the method is one with a body; it is the given
one, or has the schema under the media type. -/
theorem C108_body (s : Schemas) (a : Args) (m : Meta) (h : decorate s a = .ok m) (path : List Str)
    (method name : Str) :
    (method ∉ withBody → (operation path method ⟨name, some m⟩).requestBody = none) ∧
    (a.requestBody = .none → (operation path method ⟨name, some m⟩).requestBody = none) ∧
    (method ∈ withBody → (∀ ms c, a.requestBody = .dict ms → AiStream.get? ms "content".toList = some (.obj c) →
      (operation path method ⟨name, some m⟩).requestBody = some ms) ∧
      (∀ ms, a.requestBody = .dict ms → (∀ c, AiStream.get? ms "content".toList ≠ some (.obj c)) →
        ∃ t, MediaIs a.mediaType (.obj ms) t ∧
          (operation path method ⟨name, some m⟩).requestBody = some (underMedia t (.obj ms))) ∧
      (∀ c, a.requestBody = .annotation c → ∃ t, MediaIs a.mediaType (s.one c) t ∧
        (operation path method ⟨name, some m⟩).requestBody = some (underMedia t (s.one c))) ∧
      ∀ c, a.requestBody = .items [c] → ∃ t, MediaIs a.mediaType (s.list c) t ∧
        (operation path method ⟨name, some m⟩).requestBody = some (underMedia t (s.list c))) := by
  obtain ⟨sec, rs, q, b, _, _, _, hb, rfl⟩ := decorate_ok s a m h
  have e : (operation path method ⟨name, some ⟨a.summary, a.description, a.statusCode, a.mediaType, a.includeInSchema,
      a.tags, a.deprecated, sec, a.operationId, a.responseDescription, rs, q, b⟩⟩).requestBody =
      if withBody.contains method then normalizeBody b a.mediaType else none := rfl
  rw [e]
  refine ⟨?_, ?_, ?_⟩
  · intro hm
    rw [if_neg (fun hc => hm (List.contains_iff_mem.1 hc))]
  · intro hn
    rw [hn] at hb
    cases hb
    split <;> rfl
  · intro hm
    rw [if_pos (List.contains_iff_mem.2 hm)]
    refine ⟨?_, ?_, ?_, ?_⟩
    · intro ms c hd hc
      rw [hd] at hb
      unfold buildBody at hb
      dsimp only at hb
      have hr : isRequestBody ms = true := by
        unfold isRequestBody
        rw [hc]
      rw [if_pos hr] at hb
      cases hb
      exact normalize_hasKey _ _ (isRequestBody_hasKey _ hr)
    · intro ms hd hc
      rw [hd] at hb
      unfold buildBody at hb
      dsimp only at hb
      have hr : ¬isRequestBody ms = true := by
        unfold isRequestBody
        split
        · rename_i x hx
          exact absurd hx (hc x)
        · exact nofun
      rw [if_neg hr] at hb
      split at hb
      · cases hb
        exact ⟨_, (bodyMedia_is _ _ _).1 rfl, normalize_hasKey _ _ (hasKey_content _ _)⟩
      · cases hb
    · intro c hd
      rw [hd] at hb
      cases hb
      exact ⟨_, (bodyMedia_is _ _ _).1 rfl, normalize_hasKey _ _ (hasKey_content _ _)⟩
    · intro c hd
      rw [hd] at hb
      cases hb
      exact ⟨_, (bodyMedia_is _ _ _).1 rfl, normalize_hasKey _ _ (hasKey_content _ _)⟩

example : ∃ m, decorate demoSchemas { requestBody := .items [9] } = .ok m ∧
    (operation [] "post".toList ⟨[], some m⟩).requestBody =
      some (underMedia "multipart/form-data".toList (demoSchemas.list 9)) := ⟨_, rfl, rfl⟩

/-- C108: the references of responses lead to the schemas of their models.  Part: the models have schemas, and
different names. -/
theorem C108_refs_partial (rs : List Route) (hd : Distinct rs) (r : Route) (hr : r ∈ rs) (hs : r.inSchema = true)
    (m : Model) (s : Nat) (hn : Names r.handler m) (hm : m.schema = some s) :
    aget (document rs).schemas m.name = some s :=
  (document_schema {} rs rs (fun _ h => h) hd m s hm ⟨r, hr, hn⟩).2 ⟨r, hr, hs, hn⟩

/-- Metadata with one response. -/
def metaOf (m : Model) : Meta := ⟨none, none, none, none, true, none, none, none, none, none,
  [(200, .param ⟨m, false, []⟩)], [], .nil⟩

/-- A route with one response. -/
def routeOf (path : Str) (m : Model) : Route := ⟨path, [], "get".toList, true, ⟨"f".toList, some (metaOf m)⟩⟩

example : Names (routeOf "/a".toList item).handler item := ⟨metaOf item, 200, ⟨item, false, []⟩, rfl,
    List.mem_cons_self .., rfl⟩

example : aget (document [routeOf "/a".toList item, routeOf "/b".toList item]).schemas "Item".toList = some 1 := by
    decide

/-- C108 does not hold for models as `str`, whose references lead nowhere, nor for two models of one name: the
reference of the first leads to the schema of the second. -/
theorem C108_refs_false : (¬∀ (rs : List Route) (r : Route) (m : Model), Distinct rs → r ∈ rs → r.inSchema = true →
      Names r.handler m → (aget (document rs).schemas m.name).isSome) ∧
    ¬∀ (rs : List Route) (r : Route) (m : Model) (s : Nat), r ∈ rs → r.inSchema = true → Names r.handler m →
      m.schema = some s → aget (document rs).schemas m.name = some s := by
  constructor
  · intro h
    have hd : Distinct [routeOf "/a".toList ⟨"str".toList, "str".toList, none⟩] := by
      intro r hr r' hr' m m' hn hn' _
      cases List.mem_singleton.1 hr
      cases List.mem_singleton.1 hr'
      have h1 := (mem_modelsOf _ m).2 hn
      have h2 := (mem_modelsOf _ m').2 hn'
      rw [List.mem_singleton.1 h1, List.mem_singleton.1 h2]
    have := h [routeOf "/a".toList ⟨"str".toList, "str".toList, none⟩] _ ⟨"str".toList, "str".toList, none⟩ hd
      (List.mem_cons_self ..) rfl ⟨_, 200, ⟨⟨"str".toList, "str".toList, none⟩, false, []⟩, rfl, List.mem_cons_self
          .., rfl⟩
    cases this
  · intro h
    have := h [routeOf "/a".toList item, routeOf "/b".toList ⟨"Item".toList, "blog__Item".toList, some 2⟩] _ item 1
      (List.mem_cons_self ..) rfl ⟨_, 200, ⟨item, false, []⟩, rfl, List.mem_cons_self .., rfl⟩ rfl
    exact absurd this (by decide)

/-- C108: each scheme which an operation names is among the schemes of the document. -/
theorem C108_schemes (rs : List Route) (r : Route) (hr : r ∈ rs) (hs : r.inSchema = true) (e : List (Str × Json))
    (he : e ∈ securityOf r.handler) (n : Str) (j : Json) (h : (n, j) ∈ e) :
    (aget (document rs).schemes n).isSome = true :=
  document_schemes_has {} rs r hr hs e he n j h

example : ∃ m, decorate demoSchemas { security := [.scheme "Bearer".toList (.str "http".toList)] } = .ok m ∧
    securityOf ⟨[], some m⟩ = [[("Bearer".toList, .str "http".toList)]] := ⟨_, rfl, rfl⟩

/-- C108 does not hold for security: two schemes in the list become one requirement of both, and the values of a
requirement are definitions, where OpenAPI has lists of scopes. -/
theorem C108_security_false : (¬∀ (s : Schemas) (a : Args) (m : Meta), decorate s a = .ok m →
      (securityOf ⟨[], some m⟩).length = a.security.length) ∧
    ¬∀ (s : Schemas) (a : Args) (m : Meta), decorate s a = .ok m → (∀ x ∈ a.security, ∃ n j, x = .scheme n j) →
      ∀ e ∈ securityOf ⟨[], some m⟩, ∀ nj ∈ e, ∃ es, nj.2 = .arr es := by
  constructor
  · intro h
    have := h demoSchemas { security := [.scheme "Bearer".toList .null, .scheme "Cookie".toList .null] } _ rfl
    cases this
  · intro h
    obtain ⟨es, he⟩ := h demoSchemas { security := [.scheme "Bearer".toList (.obj .nil)] } _ rfl
      (fun x hx => ⟨_, _, List.mem_singleton.1 hx⟩) _ (List.mem_cons_self ..) _ (List.mem_cons_self ..)
    cases he

/-- C108 does not hold for `include_in_schema=False` of the decorator: the operation is in the document. -/
theorem C108_include_false : ¬∀ (s : Schemas) (a : Args) (m : Meta) (path method name : Str),
    decorate s a = .ok m → a.includeInSchema = false →
    aget (document [⟨path, [], method, true, ⟨name, some m⟩⟩]).operations (path, method) = none := by
  intro h
  have := h demoSchemas { includeInSchema := false } _ [] [] [] rfl rfl
  cases this

/-- C108: a dictionary is taken as a body if it has an object under `content` or one of the words of a schema, and
else refused. -/
theorem C108_schema (s : Schemas) (ms : Members) :
    (∃ m, decorate s { requestBody := .dict ms } = .ok m) ↔
      (∃ c, AiStream.get? ms "content".toList = some (.obj c)) ∨
        ∃ k ∈ schemaWords, (AiStream.get? ms k).isSome = true := by
  have h1 : isRequestBody ms = true ↔ ∃ c, AiStream.get? ms "content".toList = some (.obj c) := by
    unfold isRequestBody
    split
    · rename_i c hc; exact ⟨fun _ => ⟨c, hc⟩, fun _ => rfl⟩
    · rename_i hn; exact ⟨nofun, fun ⟨c, hc⟩ => (hn c hc).elim⟩
  have hw : ∀ k, k ∈ schemaKeys ↔ k ∈ schemaWords := by
    intro k
    unfold schemaKeys schemaWords
    simp only [List.mem_cons, List.not_mem_nil, or_false]
    constructor <;> (intro h; rcases h with h | h | h | h | h | h | h | h | h <;> simp only [h, true_or, or_true])
  have h2 : isJsonSchema ms = true ↔ ∃ k ∈ schemaWords, (AiStream.get? ms k).isSome = true := by
    unfold isJsonSchema hasKey
    rw [List.any_eq_true]
    exact ⟨fun ⟨k, a, b⟩ => ⟨k, (hw k).1 a, b⟩, fun ⟨k, a, b⟩ => ⟨k, (hw k).2 a, b⟩⟩
  rw [← h1, ← h2]
  have e : decorate s { requestBody := .dict ms } =
      (buildBody s (.dict ms) none).bind fun b => .ok ⟨none, none, none, none, true, none, none, none, none,
        some "Successful response".toList, [], [], b⟩ := rfl
  rw [e]
  unfold buildBody
  dsimp only
  by_cases hr : isRequestBody ms = true
  · rw [if_pos hr]
    exact ⟨fun _ => .inl hr, fun _ => ⟨_, rfl⟩⟩
  · rw [if_neg hr]
    by_cases hj : isJsonSchema ms = true
    · rw [if_pos hj]
      exact ⟨fun _ => .inr hj, fun _ => ⟨_, rfl⟩⟩
    · rw [if_neg hj]
      refine ⟨fun ⟨_, h⟩ => (by cases h), fun h => ?_⟩
      exact h.elim (fun h => absurd h hr) fun h => absurd h hj

/-- C108: of several definitions of one name in `security=` the last counts. -/
theorem C108_security_last (s : Schemas) (a : Args) (m : Meta) (h : decorate s a = .ok m) :
    ∀ n, aget ((securityOf ⟨[], some m⟩).headD []) n
      = ((entries a.security).reverse.find? fun e => e.1 = n).map Prod.snd := by
  obtain ⟨sec, rs, q, b, hs, _, _, _, rfl⟩ := decorate_ok s a m h
  have loop : ∀ (l : List SecurityArg) (acc d : List (Str × Json)), securityLoop acc l = .ok d → ∀ n, aget d n
      = (((entries l).reverse.find? fun e => e.1 = n).map Prod.snd).or (aget acc n) := by
    have hset : ∀ (acc : List (Str × Json)) n j k, aget (aset acc n j) k = if n = k then some j else aget acc k := by
      intro acc n j k
      by_cases e : n = k
      · subst e; rw [if_pos rfl, aget_aset_self]
      · rw [if_neg e, aget_aset_ne _ _ _ _ (fun h => e h.symm)]
    have hup : ∀ (d acc : List (Str × Json)) n, aget (aupdate acc d) n
        = ((d.reverse.find? fun e => e.1 = n).map Prod.snd).or (aget acc n) := by
      intro d
      induction d with
      | nil => intro acc n; rfl
      | cons x d ih =>
        intro acc n
        show aget (aupdate (aset acc x.1 x.2) d) n = _
        rw [ih, hset, List.reverse_cons, List.find?_append]
        cases d.reverse.find? (fun e => decide (e.1 = n)) with
        | some y => rfl
        | none =>
          by_cases e : x.1 = n
          · simp [e]
          · simp [e]
    intro l
    induction l with
    | nil =>
      intro acc d hd n
      cases hd
      rfl
    | cons x l ih =>
      intro acc d hd n
      cases x with
      | other => cases hd
      | dict e =>
        rw [ih _ _ hd n, hup]
        show _ = (((e ++ entries l).reverse.find? _).map _).or _
        rw [List.reverse_append, List.find?_append]
        cases (entries l).reverse.find? (fun e => decide (e.1 = n)) <;> rfl
      | scheme k j =>
        rw [ih _ _ hd n, hset]
        show _ = ((((k, j) :: entries l).reverse.find? _).map _).or _
        rw [List.reverse_cons, List.find?_append]
        cases (entries l).reverse.find? (fun e => decide (e.1 = n)) with
        | some y => rfl
        | none =>
          by_cases e : k = n
          · simp [e]
          · simp [e]
  intro n
  unfold handleSecurity at hs
  cases hl : securityLoop [] a.security with
  | error e => rw [hl] at hs; cases hs
  | ok d =>
    rw [hl] at hs
    have hd := loop _ _ _ hl n
    have hz : aget ([] : List (Str × Json)) n = none := rfl
    rw [hz, Option.or_none] at hd
    rw [← hd]
    have hs' : (if d.isEmpty then none else some [d]) = sec := by
      have : (Except.ok (if d.isEmpty then none else some [d]) : Except Error _) = .ok sec := hs
      injection this
    show aget ((sec.getD []).headD []) n = _
    rw [← hs']
    cases d with
    | nil => rfl
    | cons x d => rfl

example : ∃ m, decorate demoSchemas
    { security := [.dict [("a".toList, .int 1)], .dict [("a".toList, .int 2)]] } = .ok m := ⟨_, rfl⟩

end Verif.Operations
