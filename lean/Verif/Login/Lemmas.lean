import Verif.Login.Spec
import Verif.Jwt.Props
import Verif.Credentials.Props

/-!
# Helper lemmas for C145
-/

namespace Verif.Login

open Verif Verif.Login.Spec Verif.Dependencies

/-- The map of `/token`. -/
abbrev formMap : List (Str × Entry Value) := [("form_data".toList, .provide 0)]

/-- The map of `/items`. -/
abbrev itemsMap : List (Str × Entry Value) := [("token".toList, .provide 1)]

theorem sent_nil (k : Str) : sent [] k = none := rfl

theorem sent_append (xs ys : List (Str × Value)) (k : Str) : sent (xs ++ ys) k = (sent ys k).or (sent xs k) := by
  unfold sent
  rw [List.filter_append, List.getLast?_append]
  cases (ys.filter fun f => f.1 = k).getLast? <;> rfl

theorem sent_single (k k' : Str) (v : Value) : sent [(k', v)] k = if k' = k then some v else none := by
  unfold sent
  by_cases h : k' = k
  · rw [if_pos h, List.filter_cons_of_pos (by simpa using h)]; rfl
  · rw [if_neg h, List.filter_cons_of_neg (by simpa using h)]; rfl

theorem sent_mem (xs : List (Str × Value)) (k : Str) (v : Value) (h : sent xs k = some v) : (k, v) ∈ xs := by
  unfold sent at h
  cases hl : (xs.filter fun f => f.1 = k).getLast? with
  | none => rw [hl] at h; cases h
  | some kv =>
    rw [hl] at h
    have := List.mem_of_getLast? hl
    obtain ⟨hm, hk⟩ := List.mem_filter.1 this
    have hk : kv.1 = k := by simpa using hk
    cases h
    rw [← hk]
    exact hm

theorem takeFields_get (names : List Str) (map : List (Str × Entry Value)) (k : Str) :
    ∀ (fields kw : List (Str × Value)), aget (takeFields names map kw fields) k =
      if k ∈ names ∧ aget map k = none then (sent fields k).or (aget kw k) else aget kw k := by
  intro fields
  induction fields with
  | nil =>
    intro kw
    rw [takeFields, sent_nil, Option.none_or, ite_self]
  | cons kv rest ih =>
    intro kw
    obtain ⟨k', v⟩ := kv
    have hs : sent ((k', v) :: rest) k = (sent rest k).or (if k' = k then some v else none) := by
      rw [← sent_single, ← sent_append]; rfl
    rw [takeFields, hs]
    by_cases h : k' ∈ names ∧ aget map k' = none
    · rw [if_pos h, ih, aget_aset]
      by_cases hk : k' = k
      · subst hk
        rw [if_pos h, if_pos h, if_pos rfl, if_pos rfl]
        cases sent rest k' <;> rfl
      · rw [if_neg (fun e : k = k' => hk e.symm), if_neg hk, Option.or_none]
    · rw [if_neg h, ih]
      by_cases hk : k' = k
      · subst hk; rw [if_neg h, if_neg h]
      · rw [if_neg hk, Option.or_none]

theorem makeForm_congr (kw kw' : List (Str × Value)) (h : ∀ k, k ∈ formNames → aget kw k = aget kw' k) :
    makeForm kw = makeForm kw' := by
  unfold makeForm textField scopeField optionalField
  rw [h "grant_type".toList (by decide), h "username".toList (by decide), h "password".toList (by decide),
    h "scope".toList (by decide), h "client_id".toList (by decide), h "client_secret".toList (by decide)]

/-- What the form `Provide` keeps after a body. -/
def kept (s : Store Value) : Body Value → Option (List (Str × Value))
  | .mapping fields => some (takeFields formNames formMap (s 0).kwargs fields)
  | .nothing => some (s 0).kwargs
  | .other => none

theorem formParams : (defs 0).params.map Param.name = formNames := by decide

theorem resolve_form (s : Store Value) (x : Value) (body : Body Value) :
    resolve .null defs formMap ⟨x, body⟩ 2 s 0 =
      match kept s body with
      | none => (s, none)
      | some kw => (s.set 0 { s 0 with kwargs := kw }, (makeForm kw).map .form) := by
  have habs : absorb (defs 0) formMap ⟨x, body⟩ (s 0).kwargs = kept s body := by
    unfold absorb kept
    rw [if_neg (by decide), formParams]
    cases body <;> rfl
  have hr : resolve .null defs formMap ⟨x, body⟩ 2 s 0 =
      resolveInternal .null (resolve .null defs formMap ⟨x, body⟩ 1) (defs 0) formMap ⟨x, body⟩ s 0 := by
    rw [resolve]; rfl
  rw [hr]
  unfold resolveInternal
  rw [habs]
  cases hk : kept s body with
  | none => rfl
  | some kw =>
    dsimp only
    unfold callDep
    rw [if_pos (.inr (.inr rfl))]
    unfold direct
    have : (s.set 0 { s 0 with kwargs := kw } 0).kwargs = kw := rfl
    rw [this]
    have hc : (defs 0).call (defs 0).args kw = (makeForm kw).map fun f => ({ obj := .form f } : Ret Value) := rfl
    rw [hc]
    cases makeForm kw <;> rfl

/-- What the scheme `Provide` keeps after a body. -/
def keptItems (s : Store Value) : Body Value → Option (List (Str × Value))
  | .mapping fields => some (takeFields ["request".toList] itemsMap (s 1).kwargs fields)
  | .nothing => some (s 1).kwargs
  | .other => none

theorem resolve_items (s : Store Value) (auth : Option Str) (body : Body Value) :
    resolve .null defs itemsMap ⟨.request auth, body⟩ 2 s 1 =
      match keptItems s body with
      | none => (s, none)
      | some kw => (s.set 1 { s 1 with kwargs := kw },
          if kw = [] then scheme auth else schemeOf (aget kw "request".toList)) := by
  have habs : absorb (defs 1) itemsMap ⟨.request auth, body⟩ (s 1).kwargs = keptItems s body := by
    unfold absorb keptItems
    rw [if_neg (by decide)]
    cases body <;> rfl
  have hr : resolve .null defs itemsMap ⟨.request auth, body⟩ 2 s 1 =
      resolveInternal .null (resolve .null defs itemsMap ⟨.request auth, body⟩ 1) (defs 1) itemsMap
        ⟨.request auth, body⟩ s 1 := by
    rw [resolve]; rfl
  rw [hr]
  unfold resolveInternal
  rw [habs]
  cases hk : keptItems s body with
  | none => rfl
  | some kw =>
    dsimp only
    unfold callDep
    have hs1 : (s.set 1 { s 1 with kwargs := kw } 1).kwargs = kw := rfl
    by_cases h : kw = []
    · rw [if_pos h, if_neg (by rw [hs1, h]; decide)]
      have hn : nested (resolve .null defs itemsMap ⟨.request auth, body⟩ 1) itemsMap ⟨.request auth, body⟩
          (defs 1).params (s.set 1 { s 1 with kwargs := kw }) [] = (s.set 1 { s 1 with kwargs := kw }, some []) := rfl
      rw [hn]
      unfold afterNested finalCall
      dsimp only
      have hs2 : (s.set 1 { kwargs := kw, cached := (s 1).cached } 1).kwargs = kw := rfl
      rw [hs2, h]
      have hw : withRequest (defs 1) [] (aupdate ([] : List (Str × Value)) []) (.request auth) =
          [("request".toList, .request auth)] := rfl
      rw [hw]
      have hc : (defs 1).call (defs 1).args [("request".toList, Value.request auth)] =
          (scheme auth).map fun v => ({ obj := v } : Ret Value) := rfl
      rw [hc]
      cases scheme auth <;> rfl
    · rw [if_neg h, if_pos (.inr (.inl (by rw [hs1]; exact h)))]
      unfold direct
      rw [hs1]
      have hc : (defs 1).call (defs 1).args kw =
          (schemeOf (aget kw "request".toList)).map fun v => ({ obj := v } : Ret Value) := rfl
      rw [hc]
      cases schemeOf (aget kw "request".toList) <;> rfl

theorem formMap_none (k : Str) (h : k ∈ formNames) : aget formMap k = none := by
  have : ∀ k ∈ formNames, aget formMap k = none := by decide +kernel
  exact this k h

/-- What is kept of the form after a request to `/token`. -/
theorem login_kwargs (a : App) (now : Int) (s : Store Value) (body : Body Value) (k : Str) (hk : k ∈ formNames) :
    aget ((serve a now s (.login body)).1 0).kwargs k = (sent (fieldsOf body) k).or (aget (s 0).kwargs k) := by
  show aget ((resolve .null defs formMap ⟨.request none, body⟩ 2 s 0).1 0).kwargs k = _
  rw [resolve_form]
  cases body with
  | mapping fields =>
    show aget (takeFields formNames formMap (s 0).kwargs fields) k = _
    rw [takeFields_get, if_pos ⟨hk, formMap_none k hk⟩]
    rfl
  | nothing => rfl
  | other => rfl

theorem login_other (a : App) (now : Int) (s : Store Value) (body : Body Value) :
    (serve a now s (.login body)).1 1 = s 1 := by
  show (resolve .null defs formMap ⟨.request none, body⟩ 2 s 0).1 1 = _
  rw [resolve_form]
  cases body <;> rfl

theorem items_other (a : App) (now : Int) (s : Store Value) (auth : Option Str) (body : Body Value) :
    (serve a now s (.items auth body)).1 0 = s 0 := by
  show (resolve .null defs itemsMap ⟨.request auth, body⟩ 2 s 1).1 0 = _
  rw [resolve_items]
  cases body <;> rfl

theorem run_form (a : App) (k : Str) (hk : k ∈ formNames) : ∀ (h : List (Int × Req)) (s : Store Value),
    aget (run a s h 0).kwargs k = (sent (loginFields h) k).or (aget (s 0).kwargs k) := by
  intro h
  induction h with
  | nil => intro s; rfl
  | cons x rest ih =>
    intro s
    obtain ⟨now, r⟩ := x
    rw [run, ih]
    cases r with
    | login body =>
      rw [login_kwargs a now s body k hk, loginFields, sent_append]
      cases sent (loginFields rest) k <;> rfl
    | items auth body =>
      rw [items_other]
      rfl

/-- What is kept of the parameter of the scheme after a request to `/items`. -/
theorem items_kwargs (a : App) (now : Int) (s : Store Value) (auth : Option Str) (body : Body Value) (k : Str) :
    aget ((serve a now s (.items auth body)).1 1).kwargs k =
      if k = "request".toList then (sent (fieldsOf body) k).or (aget (s 1).kwargs k) else aget (s 1).kwargs k := by
  show aget ((resolve .null defs itemsMap ⟨.request auth, body⟩ 2 s 1).1 1).kwargs k = _
  rw [resolve_items]
  have hm : aget itemsMap "request".toList = none := by decide +kernel
  cases body with
  | mapping fields =>
    show aget (takeFields ["request".toList] itemsMap (s 1).kwargs fields) k = _
    rw [takeFields_get]
    by_cases hk : k = "request".toList
    · rw [if_pos hk, if_pos ⟨by rw [hk]; exact List.mem_cons_self, by rw [hk]; exact hm⟩]; rfl
    · rw [if_neg hk, if_neg (fun e => hk (List.mem_singleton.1 e.1))]
  | nothing => exact (ite_self _).symm
  | other => exact (ite_self _).symm

theorem run_items (a : App) (k : Str) : ∀ (h : List (Int × Req)) (s : Store Value),
    aget (run a s h 1).kwargs k =
      if k = "request".toList then (sent (itemFields h) k).or (aget (s 1).kwargs k) else aget (s 1).kwargs k := by
  intro h
  induction h with
  | nil => intro s; exact (ite_self _).symm
  | cons x rest ih =>
    intro s
    obtain ⟨now, r⟩ := x
    rw [run, ih]
    cases r with
    | login body =>
      rw [login_other]
      rfl
    | items auth body =>
      rw [items_kwargs, itemFields, sent_append]
      by_cases hk : k = "request".toList
      · rw [if_pos hk, if_pos hk, if_pos hk]
        cases sent (itemFields rest) k <;> rfl
      · rw [if_neg hk, if_neg hk, if_neg hk]

theorem aget_nil_of_all (kw : List (Str × Value)) (h : ∀ k, aget kw k = none) : kw = [] := by
  cases kw with
  | nil => rfl
  | cons kv rest =>
    obtain ⟨k, v⟩ := kv
    have := h k
    rw [aget, if_pos rfl] at this
    cases this

/-- The form that a request to `/token` is read as. -/
theorem login_reply (a : App) (now : Int) (s : Store Value) (body : Body Value) :
    (serve a now s (.login body)).2 = match kept s body with
      | none => .refused
      | some kw => login a now ((makeForm kw).map .form) := by
  show login a now (resolve .null defs formMap ⟨.request none, body⟩ 2 s 0).2 = _
  rw [resolve_form]
  cases kept s body <;> rfl

theorem items_reply (a : App) (now : Int) (s : Store Value) (auth : Option Str) (body : Body Value) :
    (serve a now s (.items auth body)).2 = match keptItems s body with
      | none => .refused
      | some kw => items a now (if kw = [] then scheme auth else schemeOf (aget kw "request".toList)) := by
  show items a now (resolve .null defs itemsMap ⟨.request auth, body⟩ 2 s 1).2 = _
  rw [resolve_items]
  cases keptItems s body <;> rfl

theorem correct_iff (a : App) (u p : Str) : correct a u p = true ↔ Knows a u p := by
  unfold correct Knows
  cases h : a.accounts u with
  | none => exact ⟨fun e => (by cases e), fun ⟨_, e, _⟩ => (by cases e)⟩
  | some acc => exact ⟨fun e => ⟨acc, rfl, e⟩, fun ⟨_, e, hc⟩ => (by cases e; exact hc)⟩

theorem login_token (a : App) (now : Int) (o : Option Value) (t : Str) : login a now o = .token t ↔
    ∃ f, o = some (.form f) ∧ Knows a f.username f.password ∧ issue a now f.username = some t := by
  constructor
  · intro h
    unfold login at h
    split at h
    · rename_i f
      refine ⟨f, rfl, ?_⟩
      by_cases hc : correct a f.username f.password = true
      · rw [if_pos hc] at h
        refine ⟨(correct_iff a _ _).1 hc, ?_⟩
        cases hi : issue a now f.username with
        | none => rw [hi] at h; cases h
        | some t' => rw [hi] at h; cases h; rfl
      · rw [if_neg hc] at h; cases h
    · cases h
  · rintro ⟨f, rfl, hk, hi⟩
    simp only [login, if_pos ((correct_iff a _ _).2 hk), hi]

theorem userOf_some (a : App) (now : Int) (t u : Str) : userOf a now t = some u ↔
    subject a now t = some u ∧ Active a u := by
  unfold userOf Active
  cases hs : subject a now t with
  | none => exact ⟨fun e => (by cases e), fun e => (by cases e.1)⟩
  | some v =>
    dsimp only
    cases ha : a.accounts v with
    | none =>
      refine ⟨fun e => (by cases e), ?_⟩
      rintro ⟨e, acc, h, _⟩
      cases e
      rw [ha] at h
      cases h
    | some acc =>
      dsimp only
      cases hd : acc.disabled with
      | true =>
        refine ⟨fun e => (by cases e), ?_⟩
        rintro ⟨e, acc', h, h'⟩
        cases e
        rw [ha] at h
        cases h
        rw [hd] at h'
        cases h'
      | false =>
        constructor
        · intro e
          cases e
          exact ⟨rfl, acc, ha, hd⟩
        · rintro ⟨e, _⟩
          cases e
          rfl

theorem items_served (a : App) (now : Int) (o : Option Value) (u : Str) : items a now o = .served u ↔
    ∃ t, o = some (.text t) ∧ subject a now t = some u ∧ Active a u := by
  constructor
  · intro h
    unfold items at h
    split at h
    · rename_i t
      refine ⟨t, rfl, ?_⟩
      cases hu : userOf a now t with
      | none => rw [hu] at h; cases h
      | some v => rw [hu] at h; cases h; exact (userOf_some a now t _).1 hu
    · cases h
  · rintro ⟨t, rfl, h⟩
    simp only [items, (userOf_some a now t u).2 h]

/-- Nobody has sent a field `request` to `/items`: the header is looked at. -/
theorem items_header (a : App) (now : Int) (h : List (Int × Req)) (auth : Option Str) (body : Body Value)
    (hh : sent (itemFields h) "request".toList = none) (hb : sent (fieldsOf body) "request".toList = none)
    (ho : body ≠ .other) :
    (serve a now (run a start h) (.items auth body)).2 = items a now (scheme auth) := by
  rw [items_reply]
  have hnil : ∀ kw, (∀ k, aget kw k = none) →
      items a now (if kw = [] then scheme auth else schemeOf (aget kw "request".toList)) =
        items a now (scheme auth) := by
    intro kw hkw
    rw [if_pos (aget_nil_of_all kw hkw)]
  have hstart : ∀ k, aget (run a start h 1).kwargs k = none := by
    intro k
    rw [run_items]
    by_cases hk : k = "request".toList
    · rw [if_pos hk, hk, hh]; rfl
    · rw [if_neg hk]; rfl
  cases body with
  | other => exact absurd rfl ho
  | nothing => exact hnil _ hstart
  | mapping fields =>
    refine hnil (takeFields ["request".toList] itemsMap (run a start h 1).kwargs fields) ?_
    intro k
    rw [takeFields_get, hstart]
    by_cases hk : k = "request".toList
    · rw [hk]
      have : sent fields "request".toList = none := hb
      rw [this]
      exact ite_self _
    · rw [if_neg (fun e => hk (List.mem_singleton.1 e.1))]

theorem scheme_bears (auth : Option Str) (t : Str) (ht : t ≠ []) : scheme auth = some (.text t) ↔ Bears auth t := by
  unfold scheme Credentials.oauthBearer
  constructor
  · intro h
    by_cases hc : Credentials.present auth = true ∧ lower (Credentials.schemeParam auth).1 = "bearer".toList
    · rw [if_pos hc] at h
      have he : (Credentials.schemeParam auth).2 = t := by
        have := Option.some.inj h
        exact Value.text.inj this
      obtain ⟨v, hv, hca, hs, _⟩ := Credentials.schemeParam_inv auth (Credentials.schemeParam auth).1 t
        (by rw [← he]) ht
      exact ⟨(Credentials.schemeParam auth).1, hv.trans (congrArg some hca), hc.2, hs⟩
    · rw [if_neg hc] at h
      cases h
  · rintro ⟨word, rfl, hw, hs⟩
    obtain ⟨e1, e2⟩ := Credentials.schemeParam_carries word t hs
    rw [e1, e2, if_pos ⟨rfl, hw⟩]

/-- A token as it is issued. -/
theorem issue_some (a : App) (now : Int) (u t : Str) (h : issue a now u = some t) :
    ∃ tok, Jwt.make a.here now { exp := some ⟨now + a.ttl, some 0⟩, sub := .text u } = .ok tok ∧
      Jwt.encode a.codec a.key a.alg tok none = .ok t := by
  unfold issue at h
  split at h
  · cases h
  · rename_i tok hm
    refine ⟨tok, hm, ?_⟩
    split at h
    · cases h
    · rename_i s he
      cases h
      exact he

end Verif.Login
