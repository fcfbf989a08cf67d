import Verif.Operations.Spec

namespace Verif.Operations

open Verif Verif.Json Verif.Operations.Spec

theorem isText_iff (o : Option Json) (t : Str) : AiStream.isText (o.getD .null) t = true ↔ o = some (.str t) := by
  cases o with
  | none =>
    constructor
    · intro h
      cases h
    · intro h
      cases h
  | some v =>
    cases v with
    | str s =>
      constructor
      · intro h
        rw [of_decide_eq_true h]
      · intro h
        cases h
        exact decide_eq_true rfl
    | _ =>
      constructor
      · intro h
        cases h
      · intro h
        cases h

mutual

theorem containsBinary_iff : ∀ j : Json, containsBinary j = true ↔ HasBinary j
  | .obj ms => by
    rw [containsBinary, Bool.or_eq_true, anyMember_iff ms]
    unfold AiStream.get
    rw [isText_iff]
    constructor
    · rintro (h | ⟨v, h1, h2⟩)
      · exact .here ms h
      · exact .value ms v h1 h2
    · intro h
      cases h with
      | here _ h => exact Or.inl h
      | value _ v h1 h2 => exact Or.inr ⟨v, h1, h2⟩
  | .arr es => by
    rw [containsBinary, anyElem_iff es]
    constructor
    · rintro ⟨v, h1, h2⟩
      exact .elem es v h1 h2
    · intro h
      cases h with
      | elem _ v h1 h2 => exact ⟨v, h1, h2⟩
  | .null => by
    exact ⟨fun h => by simp only [containsBinary, Bool.false_eq_true] at h, nofun⟩
  | .bool b => by
    exact ⟨fun h => by simp only [containsBinary, Bool.false_eq_true] at h, nofun⟩
  | .int n => by
    exact ⟨fun h => by simp only [containsBinary, Bool.false_eq_true] at h, nofun⟩
  | .str s => by
    exact ⟨fun h => by simp only [containsBinary, Bool.false_eq_true] at h, nofun⟩

theorem anyElem_iff : ∀ es : Elems, anyElem es = true ↔ ∃ v, ElemIn v es ∧ HasBinary v
  | .nil => by
    rw [anyElem]
    exact ⟨nofun, fun ⟨_, h, _⟩ => by cases h⟩
  | .cons u es => by
    rw [anyElem, Bool.or_eq_true, containsBinary_iff u, anyElem_iff es]
    constructor
    · rintro (h | ⟨v, h1, h2⟩)
      · exact ⟨u, .here u es, h⟩
      · exact ⟨v, .later u v es h1, h2⟩
    · rintro ⟨v, h1, h2⟩
      cases h1 with
      | here => exact Or.inl h2
      | later _ _ _ h1 => exact Or.inr ⟨v, h1, h2⟩

theorem anyMember_iff : ∀ ms : Members, anyMember ms = true ↔ ∃ v, ValueIn v ms ∧ HasBinary v
  | .nil => by
    rw [anyMember]
    exact ⟨nofun, fun ⟨_, h, _⟩ => by cases h⟩
  | .cons k u ms => by
    rw [anyMember, Bool.or_eq_true, containsBinary_iff u, anyMember_iff ms]
    constructor
    · rintro (h | ⟨v, h1, h2⟩)
      · exact ⟨u, .here k u ms, h⟩
      · exact ⟨v, .later k u v ms h1, h2⟩
    · rintro ⟨v, h1, h2⟩
      cases h1 with
      | here => exact Or.inl h2
      | later _ _ _ _ h1 => exact Or.inr ⟨v, h1, h2⟩

end

theorem decorate_ok (s : Schemas) (a : Args) (m : Meta) (h : decorate s a = .ok m) :
    ∃ sec rs q b, handleSecurity a.security = .ok sec ∧ responseModels a.responses = .ok rs ∧
      queryStrings a.query = .ok q ∧ buildBody s a.requestBody a.mediaType = .ok b ∧
      m = ⟨a.summary, a.description, a.statusCode, a.mediaType, a.includeInSchema, a.tags, a.deprecated, sec,
        a.operationId, a.responseDescription, rs, q, b⟩ := by
  unfold decorate at h
  cases h1 : handleSecurity a.security with
  | error e => rw [h1] at h; cases h
  | ok sec =>
    cases h2 : responseModels a.responses with
    | error e => rw [h1, h2] at h; cases h
    | ok rs =>
      cases h3 : queryStrings a.query with
      | error e => rw [h1, h2, h3] at h; cases h
      | ok q =>
        cases h4 : buildBody s a.requestBody a.mediaType with
        | error e => rw [h1, h2, h3, h4] at h; cases h
        | ok b =>
          rw [h1, h2, h3, h4] at h
          cases h
          exact ⟨sec, rs, q, b, rfl, rfl, rfl, rfl, rfl⟩

theorem queryDict_mem (d : List (Str × QueryValue)) (qs : List (Str × Query)) (h : queryDict d = .ok qs) (n : Str)
    (q : Query) : (n, q) ∈ qs ↔ (n, .query q) ∈ d ∨ (n, .dict q) ∈ d := by
  induction d generalizing qs with
  | nil =>
    cases h
    exact ⟨fun h => absurd h List.not_mem_nil, fun h => h.elim (absurd · List.not_mem_nil) (absurd · List.not_mem_nil)⟩
  | cons kv rest ih =>
    obtain ⟨k, v⟩ := kv
    cases v with
    | query r =>
      unfold queryDict at h
      cases hr : queryDict rest with
      | error e => rw [hr] at h; cases h
      | ok qs' =>
        rw [hr] at h
        cases h
        simp only [List.mem_cons, ih qs' hr, Prod.mk.injEq, QueryValue.query.injEq, reduceCtorEq, and_false, false_or,
          or_assoc]
    | dict r =>
      unfold queryDict at h
      cases hr : queryDict rest with
      | error e => rw [hr] at h; cases h
      | ok qs' =>
        rw [hr] at h
        cases h
        simp only [List.mem_cons, ih qs' hr, Prod.mk.injEq, QueryValue.dict.injEq, reduceCtorEq, and_false, false_or]
        constructor
        · rintro (h | h | h)
          · exact Or.inr (Or.inl h)
          · exact Or.inl h
          · exact Or.inr (Or.inr h)
        · rintro (h | h | h)
          · exact Or.inr (Or.inl h)
          · exact Or.inl h
          · exact Or.inr (Or.inr h)
    | sequence => cases h
    | other =>
      unfold queryDict at h
      simp only [List.mem_cons, ih qs h, Prod.mk.injEq, reduceCtorEq, and_false, false_or]

theorem queryStrings_mem (a : QueryArg) (qs : List (Str × Query)) (h : queryStrings a = .ok qs) (n : Str)
    (q : Query) : (n, q) ∈ qs ↔ Declared a n q := by
  cases a with
  | none =>
    cases h
    exact ⟨fun h => absurd h List.not_mem_nil, fun h => nomatch h⟩
  | names ns =>
    cases h
    rw [List.mem_map]
    constructor
    · rintro ⟨x, hx, he⟩
      cases he
      exact .name ns _ hx
    · intro h
      cases h with
      | name _ _ h => exact ⟨n, h, rfl⟩
  | dict d =>
    rw [queryDict_mem d qs h]
    constructor
    · rintro (h | h)
      · exact .query d n q h
      · exact .dict d n q h
    · intro h
      cases h with
      | query _ _ _ h => exact Or.inl h
      | dict _ _ _ h => exact Or.inr h
  | other => cases h

theorem shows_iff (p : Param) (n : Str) (q : Query) : p = queryParam (n, q) ↔ Shows p n q ∧ p.default = none := by
  constructor
  · rintro rfl
    refine ⟨⟨rfl, rfl, rfl, rfl, rfl, rfl, ?_, ?_⟩, rfl⟩
    · intro h
      unfold queryParam
      dsimp only
      cases hs : q.schema with
      | nil => exact absurd hs h
      | cons k v ms => rfl
    · intro h
      unfold queryParam
      dsimp only
      rw [h]
      rfl
  · rintro ⟨⟨h1, h2, h3, h4, h5, h6, h7, h8⟩, h9⟩
    obtain ⟨a, b, c, d, e, f, g, i⟩ := p
    dsimp only at h1 h2 h3 h4 h5 h6 h7 h8 h9
    subst h1 h2 h3 h4 h5 h6 h9
    have hd : d = schemaOr q.schema := by
      cases hs : q.schema with
      | nil => exact h8 hs
      | cons k v ms => rw [h7 (by rw [hs]; exact nofun), hs]; rfl
    rw [hd]
    rfl

theorem responseModels_declared (rs : List (Nat × Response)) :
    responseModels (declared rs) = .ok (rs.map fun cr => (cr.1, .param ⟨cr.2.model, cr.2.many, cr.2.description⟩)) := by
  induction rs with
  | nil => rfl
  | cons cr rest ih =>
    show (do let r ← responseModels (declared rest); Except.ok _) = _
    rw [ih]
    rfl

theorem responseModels_params (d d' : List (Nat × Entry)) (h : responseModels d = .ok d') :
    ∀ ce ∈ d', ∃ a, ce.2 = .param a := by
  induction d generalizing d' with
  | nil =>
    cases h
    exact fun _ h => absurd h List.not_mem_nil
  | cons ce rest ih =>
    obtain ⟨c, e⟩ := ce
    cases e with
    | param a => cases h
    | response r =>
      unfold responseModels at h
      cases hr : responseModels rest with
      | error e => rw [hr] at h; cases h
      | ok rest' =>
        rw [hr] at h
        cases h
        intro ce hce
        rcases List.mem_cons.1 hce with rfl | hce
        · exact ⟨_, rfl⟩
        · exact ih rest' hr ce hce

theorem responseModels_length (d d' : List (Nat × Entry)) (h : responseModels d = .ok d') : d'.length = d.length := by
  induction d generalizing d' with
  | nil =>
    cases h
    rfl
  | cons ce rest ih =>
    obtain ⟨c, e⟩ := ce
    cases e with
    | param a => cases h
    | response r =>
      unfold responseModels at h
      cases hr : responseModels rest with
      | error e => rw [hr] at h; cases h
      | ok rest' =>
        rw [hr] at h
        cases h
        rw [List.length_cons, List.length_cons, ih rest' hr]

theorem aget_map_entry (f : Response → ResponseObject) (rs : List (Nat × Response)) (c : Nat) :
    aget (rs.map fun cr => (cr.1, f cr.2)) c = (aget rs c).map f := by
  induction rs with
  | nil => rfl
  | cons cr rest ih =>
    obtain ⟨c', r⟩ := cr
    simp only [List.map_cons, aget]
    split
    · rfl
    · exact ih

/-- A declared response in the document. -/
def shown (r : Response) : ResponseObject := responseObject (.param ⟨r.model, r.many, r.description⟩)

theorem responses_declared (m : Meta) (rs : List (Nat × Response)) (hne : rs ≠ [])
    (h : m.responses = rs.map fun cr => (cr.1, .param ⟨cr.2.model, cr.2.many, cr.2.description⟩)) :
    responsesOf (some m) = rs.map fun cr => (cr.1, shown cr.2) := by
  unfold responsesOf
  dsimp only
  rw [h]
  cases rs with
  | nil => exact absurd rfl hne
  | cons cr rest =>
    rw [List.map_cons]
    dsimp only
    rw [← List.map_cons (f := fun cr : Nat × Response =>
      (cr.1, Entry.param ⟨cr.2.model, cr.2.many, cr.2.description⟩)), List.map_map]
    rfl

theorem bodyMedia_is (m : Option Str) (j : Json) (t : Str) : bodyMedia m j = t ↔ MediaIs m j t := by
  have hdec : containsBinary j = false ↔ ¬HasBinary j := by
    rw [← containsBinary_iff, Bool.not_eq_true]
  have key : ∀ m : Option Str, m.getD [] = [] → ((if containsBinary j then "multipart/form-data".toList
      else "application/json".toList) = t ↔ MediaIs m j t) := by
    intro m hm
    cases hb : containsBinary j with
    | true =>
      constructor
      · rintro rfl
        exact .files m j hm ((containsBinary_iff j).1 hb)
      · intro h
        cases h with
        | given _ _ h => exact absurd hm h
        | files => rfl
        | json _ _ _ h => exact absurd ((containsBinary_iff j).1 hb) h
    | false =>
      constructor
      · rintro rfl
        exact .json m j hm (hdec.1 hb)
      · intro h
        cases h with
        | given _ _ h => exact absurd hm h
        | files _ _ _ h => exact absurd h (hdec.1 hb)
        | json => rfl
  match m with
  | none => exact key none rfl
  | some [] => exact key (some []) rfl
  | some (c :: cs) =>
    constructor
    · rintro rfl
      exact .given _ j nofun
    · intro h
      cases h with
      | given => rfl
      | files _ _ h => exact absurd h nofun
      | json _ _ h => exact absurd h nofun

theorem hasKey_content (media : Str) (j : Json) : hasKey (contentOf media j) "content".toList = true := rfl

theorem isRequestBody_hasKey (ms : Members) (h : isRequestBody ms = true) : hasKey ms "content".toList = true := by
  unfold isRequestBody at h
  unfold hasKey
  generalize AiStream.get? ms "content".toList = o at h ⊢
  cases o with
  | none => cases h
  | some v => rfl

theorem normalize_hasKey (b : Members) (media : Option Str) (h : hasKey b "content".toList = true) :
    normalizeBody b media = some b := by
  cases b with
  | nil => cases h
  | cons k v ms =>
    show (if _ then _ else _) = _
    rw [if_pos h]

/-! ## Schemas of the document -/

theorem mem_modelsOf (h : Handler) (m : Model) : m ∈ modelsOf h ↔ Names h m := by
  unfold modelsOf Names
  cases hi : h.info with
  | none =>
    constructor
    · intro h
      cases h
    · rintro ⟨i, c, a, hi, _⟩
      cases hi
  | some i =>
    dsimp only
    rw [List.mem_filterMap]
    constructor
    · rintro ⟨⟨c, e⟩, h1, h2⟩
      cases e with
      | param a =>
        cases h2
        exact ⟨i, c, a, rfl, h1, rfl⟩
      | response r => cases h2
    · rintro ⟨i', c, a, he, h1, rfl⟩
      cases he
      exact ⟨(c, .param a), h1, rfl⟩

theorem definitionName_own (ms : List Model) (m : Model) (hm : m ∈ ms) (hd : ∀ a ∈ ms, ∀ b ∈ ms, a.name = b.name → a =
    b) :
    definitionName ms m = m.name := by
  unfold definitionName
  rw [if_pos]
  rw [List.all_eq_true]
  intro o ho
  apply decide_eq_true
  by_cases h : o.name = m.name
  · exact Or.inl (hd o ho m hm h)
  · exact Or.inr (Or.inl h)

theorem mem_definitions (ms : List Model) (hd : ∀ a ∈ ms, ∀ b ∈ ms, a.name = b.name → a = b) (k : Str) (s : Nat) :
    (k, s) ∈ definitions ms ↔ ∃ m ∈ ms, m.name = k ∧ m.schema = some s := by
  unfold definitions
  rw [List.mem_filterMap]
  constructor
  · rintro ⟨m, hm, h⟩
    cases hs : m.schema with
    | none => rw [hs] at h; cases h
    | some t =>
      rw [hs] at h
      cases h
      exact ⟨m, hm, (definitionName_own ms m hm hd).symm, hs⟩
  · rintro ⟨m, hm, rfl, hs⟩
    refine ⟨m, hm, ?_⟩
    rw [hs, definitionName_own ms m hm hd]
    rfl

theorem aget_update_mem (d e : List (Str × Nat)) (k : Str) :
    (∃ v, (k, v) ∈ e ∧ aget (aupdate d e) k = some v) ∨ ((∀ v, (k, v) ∉ e) ∧ aget (aupdate d e) k = aget d k) := by
  unfold aupdate
  induction e generalizing d with
  | nil => exact Or.inr ⟨fun _ => List.not_mem_nil, rfl⟩
  | cons kv rest ih =>
    obtain ⟨k', v'⟩ := kv
    rw [List.foldl_cons]
    rcases ih (aset d k' v') with ⟨v, h1, h2⟩ | ⟨h1, h2⟩
    · exact Or.inl ⟨v, List.mem_cons_of_mem _ h1, h2⟩
    · rw [aget_aset] at h2
      by_cases hk : k = k'
      · subst hk
        rw [if_pos rfl] at h2
        exact Or.inl ⟨v', List.mem_cons_self .., h2⟩
      · rw [if_neg hk] at h2
        refine Or.inr ⟨?_, h2⟩
        intro v hv
        rcases List.mem_cons.1 hv with h | h
        · cases h
          exact hk rfl
        · exact h1 v h

theorem addSchemes_keeps (acc d : List (Str × Json)) (n : Str) (j : Json) (h : aget acc n = some j) :
    aget (addSchemes acc d) n = some j := by
  induction d generalizing acc with
  | nil => exact h
  | cons kv rest ih =>
    obtain ⟨k, v⟩ := kv
    unfold addSchemes
    apply ih
    split
    · exact h
    · clear ih
      induction acc with
      | nil => cases h
      | cons x xs ih2 =>
        obtain ⟨a, b⟩ := x
        rename_i hn
        simp only [List.cons_append, aget] at h ⊢
        split at h
        · rename_i ha
          rw [if_pos ha]
          exact h
        · rename_i ha
          rw [if_neg ha]
          refine ih2 h ?_
          intro hs
          apply hn
          simp only [aget]
          split
          · rfl
          · exact hs

theorem aget_append_new (acc : List (Str × Json)) (n : Str) (j : Json) : (aget (acc ++ [(n, j)]) n).isSome = true := by
  induction acc with
  | nil => simp only [List.nil_append, aget, if_true, Option.isSome_some]
  | cons x xs ih =>
    obtain ⟨a, b⟩ := x
    simp only [List.cons_append, aget]
    split
    · rfl
    · exact ih

theorem addSchemes_has (acc d : List (Str × Json)) (n : Str) (j : Json) (h : (n, j) ∈ d) :
    (aget (addSchemes acc d) n).isSome = true := by
  induction d generalizing acc with
  | nil => cases h
  | cons kv rest ih =>
    obtain ⟨k, v⟩ := kv
    unfold addSchemes
    rcases List.mem_cons.1 h with h | h
    · cases h
      have : ∃ w, aget (if (aget acc n).isSome then acc else acc ++ [(n, j)]) n = some w := by
        split
        · rename_i hs
          exact Option.isSome_iff_exists.1 hs
        · exact Option.isSome_iff_exists.1 (aget_append_new acc n j)
      obtain ⟨w, hw⟩ := this
      rw [addSchemes_keeps _ rest n w hw]
      rfl
    · exact ih _ h

theorem foldSchemes_keeps (acc : List (Str × Json)) (ds : List (List (Str × Json))) (n : Str) (j : Json)
    (h : aget acc n = some j) : aget (ds.foldl addSchemes acc) n = some j := by
  induction ds generalizing acc with
  | nil => exact h
  | cons d rest ih => exact ih _ (addSchemes_keeps acc d n j h)

theorem foldSchemes_has (acc : List (Str × Json)) (ds : List (List (Str × Json))) (d : List (Str × Json)) (n : Str)
    (j : Json) (hd : d ∈ ds) (h : (n, j) ∈ d) : (aget (ds.foldl addSchemes acc) n).isSome = true := by
  induction ds generalizing acc with
  | nil => cases hd
  | cons e rest ih =>
    rw [List.foldl_cons]
    rcases List.mem_cons.1 hd with rfl | hd
    · obtain ⟨w, hw⟩ := Option.isSome_iff_exists.1 (addSchemes_has acc d n j h)
      rw [foldSchemes_keeps _ rest n w hw]
      rfl
    · exact ih _ hd

theorem document_schemes_keeps (d : Document) (rs : List Route) (n : Str) (j : Json) (h : aget d.schemes n = some j) :
    aget (rs.foldl addRoute d).schemes n = some j := by
  induction rs generalizing d with
  | nil => exact h
  | cons r rest ih =>
    apply ih
    unfold addRoute
    split
    · exact foldSchemes_keeps _ _ n j h
    · exact h

theorem document_schemes_has (d : Document) (rs : List Route) (r : Route) (hr : r ∈ rs) (hs : r.inSchema = true)
    (e : List (Str × Json)) (he : e ∈ securityOf r.handler) (n : Str) (j : Json) (h : (n, j) ∈ e) :
    (aget (rs.foldl addRoute d).schemes n).isSome = true := by
  induction rs generalizing d with
  | nil => cases hr
  | cons r' rest ih =>
    rw [List.foldl_cons]
    rcases List.mem_cons.1 hr with rfl | hr
    · have : (aget (addRoute d r).schemes n).isSome = true := by
        unfold addRoute
        rw [if_pos hs]
        exact foldSchemes_has _ _ e n j he h
      obtain ⟨w, hw⟩ := Option.isSome_iff_exists.1 this
      rw [document_schemes_keeps _ rest n w hw]
      rfl
    · exact ih _ hr

theorem document_schema (d : Document) (rs : List Route) (all : List Route) (hall : ∀ r ∈ rs, r ∈ all)
    (hd : Distinct all) (m : Model) (s : Nat) (hs : m.schema = some s)
    (hn : ∃ r ∈ all, Names r.handler m) :
    (aget d.schemas m.name = some s → aget (rs.foldl addRoute d).schemas m.name = some s) ∧
    ((∃ r ∈ rs, r.inSchema = true ∧ Names r.handler m) → aget (rs.foldl addRoute d).schemas m.name = some s) := by
  induction rs generalizing d with
  | nil => exact ⟨fun h => h, fun ⟨_, h, _⟩ => absurd h List.not_mem_nil⟩
  | cons r rest ih =>
    have hr : r ∈ all := hall r (List.mem_cons_self ..)
    have hown : ∀ a ∈ modelsOf r.handler, ∀ b ∈ modelsOf r.handler, a.name = b.name → a = b := fun a ha b hb =>
      hd r hr r hr a b ((mem_modelsOf _ a).1 ha) ((mem_modelsOf _ b).1 hb)
    have ih' := ih (addRoute d r) (fun r h => hall r (List.mem_cons_of_mem _ h))
    have hkeep : aget d.schemas m.name = some s → aget (addRoute d r).schemas m.name = some s := by
      intro h
      unfold addRoute
      split
      · dsimp only
        rcases aget_update_mem d.schemas (definitions (modelsOf r.handler)) m.name with ⟨v, h1, h2⟩ | ⟨_, h2⟩
        · obtain ⟨m', hm', hname, hsch⟩ := (mem_definitions _ hown _ _).1 h1
          obtain ⟨r0, hr0, hn0⟩ := hn
          have := hd r hr r0 hr0 m' m ((mem_modelsOf _ m').1 hm') hn0 hname
          subst this
          rw [h2, ← hsch, hs]
        · rw [h2, h]
      · exact h
    rw [List.foldl_cons]
    refine ⟨fun h => ih'.1 (hkeep h), ?_⟩
    rintro ⟨r', hr', hsch', hname'⟩
    rcases List.mem_cons.1 hr' with rfl | hr'
    · apply ih'.1
      unfold addRoute
      rw [if_pos hsch']
      dsimp only
      have hmem : (m.name, s) ∈ definitions (modelsOf r'.handler) :=
        (mem_definitions _ hown _ _).2 ⟨m, (mem_modelsOf _ m).2 hname', rfl, hs⟩
      rcases aget_update_mem d.schemas (definitions (modelsOf r'.handler)) m.name with ⟨v, h1, h2⟩ | ⟨h1, _⟩
      · obtain ⟨m', hm', hname, hsch⟩ := (mem_definitions _ hown _ _).1 h1
        have := hown m' hm' m ((mem_modelsOf _ m).2 hname') hname
        subst this
        rw [h2, ← hsch, hs]
      · exact absurd hmem (h1 s)
    · exact ih'.2 ⟨r', hr', hsch', hname'⟩

end Verif.Operations
