import Verif.Errors.Lemmas

/-!
# C123: what HTTP exceptions say
-/

namespace Verif.Errors.Props

open Verif Encoders Structuring Structuring.Spec Spec

/-- Phrases of the examples. -/
def phrases (n : Nat) : Option Str :=
  if n = 404 then some "Not Found".toList else if n = 500 then some "Internal Server Error".toList else none

/-! ## Status and detail -/

/-- The status is the first of the given one, that of the class and 500, where zero counts as not given. -/
theorem C123_status (phrase : Nat → Option Str) (c : Cls) (args : List Val) (status : Option Nat) (detail : Option Val)
    (headers : List (Str × Str)) (response : Option Answer) (e : Exn)
    (h : make phrase c args status detail headers response = some e) :
    e.status = firstCode [status, c.status] ∧ e.headers = headers ∧ e.response = response := by
  have hs : statusOf c status = firstCode [status, c.status] := by
    have h2 : ∀ o : Option Nat, (o.filter (· ≠ 0)).getD 500 = firstCode [o] := by
      intro o
      match o with
      | none => rfl
      | some 0 => rfl
      | some (n + 1) => rfl
    unfold statusOf
    match status with
    | none => exact h2 c.status
    | some 0 => exact h2 c.status
    | some (n + 1) => rfl
  unfold make at h
  cases hd : detailOf c detail with
  | some d => rw [hd] at h; cases h; exact ⟨hs, rfl, rfl⟩
  | none =>
    rw [hd] at h
    cases args with
    | cons a rest => cases h; exact ⟨hs, rfl, rfl⟩
    | nil =>
      obtain ⟨p, _, rfl⟩ := Option.map_eq_some_iff.mp h
      exact ⟨hs, rfl, rfl⟩

example : firstCode [some 0, notFound.status] = 404 ∧ firstCode [none, none] = 500 ∧
    firstCode [some 418, notFound.status] = 418 := ⟨rfl, rfl, rfl⟩

/-- The detail: what is given, if it is not empty; else that of the class; else the first argument; else the phrase of
the status. -/
theorem C123_detail_partial (phrase : Nat → Option Str) (c : Cls) (args : List Val) (status : Option Nat)
    (detail : Option Val) (headers : List (Str × Str)) (response : Option Answer) :
    (∀ v, detail = some v → ¬ Empty v → ∃ e, make phrase c args status detail headers response = some e ∧ e.detail = v ∧
      e.args = args) ∧
    (∀ v, ¬ Told detail → c.detail = some v → ¬ Empty v → ∃ e,
      make phrase c args status detail headers response = some e ∧ e.detail = v ∧ e.args = args) ∧
    (∀ a rest, ¬ Told detail → ¬ Told c.detail → args = a :: rest → ∃ e,
      make phrase c args status detail headers response = some e ∧ e.detail = a ∧ e.args = rest) ∧
    (∀ p, ¬ Told detail → ¬ Told c.detail → args = [] → phrase (firstCode [status, c.status]) = some p → ∃ e,
      make phrase c args status detail headers response = some e ∧ e.detail = .str p ∧ e.args = []) := by
  refine ⟨?_, ?_, ?_, ?_⟩
  · rintro v rfl hv
    unfold make
    rw [detailOf_given c v hv]
    exact ⟨_, rfl, rfl, rfl⟩
  · intro v hd hc hv
    unfold make
    rw [detailOf_class c detail v hd hc hv]
    exact ⟨_, rfl, rfl, rfl⟩
  · rintro a rest hd hc rfl
    unfold make
    rw [detailOf_none c detail hd hc]
    exact ⟨_, rfl, rfl, rfl⟩
  · rintro p hd hc rfl hp
    cases hm : make phrase c [] status detail headers response with
    | some e =>
      have hst := (C123_status phrase c [] status detail headers response e hm).1
      unfold make at hm
      rw [detailOf_none c detail hd hc] at hm
      obtain ⟨q, hq, rfl⟩ := Option.map_eq_some_iff.mp hm
      rw [← hst] at hp
      refine ⟨_, rfl, ?_, rfl⟩
      exact congrArg Val.str (Option.some.inj (hq.symm.trans hp))
    | none =>
      unfold make at hm
      rw [detailOf_none c detail hd hc] at hm
      have hn : phrase (statusOf c status) = none := by
        cases hq : phrase (statusOf c status) with
        | none => rfl
        | some q => rw [hq] at hm; cases hm
      have hs := (C123_status (fun _ => some []) c [] status detail headers response
        ⟨statusOf c status, .str [], [], headers, response⟩
        (by unfold make; rw [detailOf_none c detail hd hc]; rfl)).1
      rw [← hs] at hp
      rw [show phrase (statusOf c status) = some p from hp] at hn
      cases hn

example : ¬ Told (some (Val.str [])) ∧ ¬ Told httpException.detail ∧ Told notFound.detail :=
  ⟨(by rintro ⟨v, h, hv⟩; cases h; exact hv .str), (by rintro ⟨v, h, _⟩; cases h), ⟨_, rfl, fun h => nomatch h⟩⟩

/-- **C123 is false of messages** for the classes that have a detail: `NotAuthorized("Token expired")` says
"Not Authorized.", and the message is only among the arguments. -/
theorem C123_message_false (phrase : Nat → Option Str) (c : Cls) (message : Val)
    (hc : Told c.detail) : ∃ e, make phrase c [message] none none [] none = some e ∧ some e.detail = c.detail ∧
      e.args = [message] := by
  obtain ⟨v, hv, hn⟩ := hc
  obtain ⟨e, he, hd, ha⟩ := (C123_detail_partial phrase c [message] none none [] none).2.1 v
    (by rintro ⟨v, h, _⟩; cases h) hv hn
  exact ⟨e, he, by rw [hd, hv], ha⟩

example : Told notAuthorized.detail ∧ Told permissionDenied.detail ∧ Told notFound.detail :=
  ⟨⟨_, rfl, fun h => nomatch h⟩, ⟨_, rfl, fun h => nomatch h⟩, ⟨_, rfl, fun h => nomatch h⟩⟩

/-- An exception cannot be made exactly if nothing says what it is and its status has no phrase; `ValueError` is raised
in its place. -/
theorem C123_refused_false (phrase : Nat → Option Str) (c : Cls) (args : List Val) (status : Option Nat)
    (detail : Option Val) (headers : List (Str × Str)) (response : Option Answer) :
    make phrase c args status detail headers response = none ↔
      ¬ Told detail ∧ ¬ Told c.detail ∧ args = [] ∧ phrase (firstCode [status, c.status]) = none := by
  have H := C123_detail_partial phrase c args status detail headers response
  constructor
  · intro h
    have h1 : ¬ Told detail := by
      rintro ⟨v, hv, hn⟩
      obtain ⟨e, he, _⟩ := H.1 v hv hn
      rw [h] at he; cases he
    have h2 : ¬ Told c.detail := by
      rintro ⟨v, hv, hn⟩
      obtain ⟨e, he, _⟩ := H.2.1 v h1 hv hn
      rw [h] at he; cases he
    have h3 : args = [] := by
      cases args with
      | nil => rfl
      | cons a rest =>
        obtain ⟨e, he, _⟩ := H.2.2.1 a rest h1 h2 rfl
        rw [h] at he; cases he
    refine ⟨h1, h2, h3, ?_⟩
    cases hp : phrase (firstCode [status, c.status]) with
    | none => rfl
    | some p =>
      obtain ⟨e, he, _⟩ := H.2.2.2 p h1 h2 h3 hp
      rw [h] at he; cases he
  · rintro ⟨h1, h2, rfl, hp⟩
    cases hm : make phrase c [] status detail headers response with
    | none => rfl
    | some e =>
      have hs := (C123_status phrase c [] status detail headers response e hm).1
      unfold make at hm
      rw [detailOf_none c detail h1 h2] at hm
      obtain ⟨q, hq, rfl⟩ := Option.map_eq_some_iff.mp hm
      rw [show statusOf c status = firstCode [status, c.status] from hs, hp] at hq
      cases hq

example : (make phrases httpException [] (some 499) none [] none).isNone = true ∧
    (make phrases httpException [] (some 404) none [] none).isSome = true := by decide +kernel

/-! ## Answers -/

/-- The default answer has the status, the headers and the detail of the exception; no body for 204 and 304; and it is
the response that the exception carries, if it carries one. -/
theorem C123_answer (body : Val → Str) (phrase : Nat → Option Str) (c : Cls) (args : List Val) (status : Option Nat)
    (detail : Option Val) (headers : List (Str × Str)) (response : Option Answer) (e : Exn)
    (h : make phrase c args status detail headers response = some e) :
    (∀ r, response = some r → answer body e = r) ∧
    (response = none → (e.status = 204 ∨ e.status = 304) → answer body e = ⟨e.status, headers, []⟩) ∧
    (response = none → e.status ≠ 204 → e.status ≠ 304 → answer body e = ⟨e.status, headers, body e.detail⟩) := by
  obtain ⟨hs, hh, hr⟩ := C123_status phrase c args status detail headers response e h
  unfold answer
  refine ⟨?_, ?_, ?_⟩
  · intro r h; rw [hr, h]
  · intro h1 h2; rw [hr, h1]; dsimp only; rw [if_pos h2, hh]
  · intro h1 h2 h3
    rw [hr, h1]
    dsimp only
    have h0 : e.status ≠ 0 := by
      rw [hs]
      match status, c.status with
      | none, none => exact Nat.succ_ne_zero _
      | none, some 0 => exact Nat.succ_ne_zero _
      | none, some (n + 1) => exact Nat.succ_ne_zero _
      | some 0, none => exact Nat.succ_ne_zero _
      | some 0, some 0 => exact Nat.succ_ne_zero _
      | some 0, some (n + 1) => exact Nat.succ_ne_zero _
      | some (n + 1), _ => exact Nat.succ_ne_zero _
    rw [if_neg (fun x => x.elim h2 h3), if_neg h0, hh]

example : (make phrases notFound [] none none [] none).map (fun e => (e.status, (answer (fun v => match v with
    | .str s => s
    | _ => []) e).body)) = some (404, "The resource cannot be found.".toList) := rfl

/-! ## Validation errors -/

/-- The details of a validation error are texts in lists and dictionaries, and such details are kept as they are. -/
theorem C123_details (L : Lib) (decode : Str → Option Str) (v : Val) :
    (∀ w, details L decode v = some w → Detail w) ∧ (Detail v → details L decode v = some v) :=
  ⟨details_detail L decode v, details_self L decode v⟩

example : Detail (.dict (.cons "name".toList (.list (.cons (.str "too long".toList) .nil)) .nil)) :=
  .dict _ (.cons _ _ _ (.list _ (.cons _ _ (.text _) .nil)) .nil)

/-- Every single thing within what was given is a text at the same place of the details. -/
theorem C123_places (L : Lib) (decode : Str → Option Str) : ∀ (path : List Step) (v w x : Val),
    details L decode v = some w → look v path = some x → Single x →
    ∃ t, look w path = some (.str t) ∧ Reads L decode x t
  | [], v, w, x, h, hx, hs => by
    have : look v [] = some v := by cases v <;> rfl
    rw [this] at hx
    cases hx
    obtain ⟨t, rfl, ht⟩ := details_single L decode v w hs h
    exact ⟨t, rfl, ht⟩
  | .index i :: ps, v, w, x, h, hx, hs => by
    have step : ∀ (l : List Val) (ws : Vals), (∀ (i : Nat) (v : Val), l[i]? = some v → ∃ w, ws.toList[i]? = some w ∧
        details L decode v = some w) → (l[i]?.bind fun v => look v ps) = some x →
        ∃ t, look (.list ws) (.index i :: ps) = some (.str t) ∧ Reads L decode x t := by
      intro l ws hg hb
      obtain ⟨y, hy, hl⟩ := Option.bind_eq_some_iff.mp hb
      obtain ⟨z, hz, hd⟩ := hg i y hy
      obtain ⟨t, ht, hr⟩ := C123_places L decode ps y z x hd hl hs
      refine ⟨t, ?_, hr⟩
      rw [look, hz]
      exact ht
    cases v with
    | list vs =>
      rw [details] at h
      obtain ⟨ws, hw, rfl⟩ := Option.map_eq_some_iff.mp h
      exact step _ ws (detailsAll_get L decode vs ws hw) hx
    | tuple vs =>
      rw [details] at h
      obtain ⟨ws, hw, rfl⟩ := Option.map_eq_some_iff.mp h
      exact step _ ws (detailsAll_get L decode vs ws hw) hx
    | named c fs =>
      rw [details] at h
      obtain ⟨ws, hw, rfl⟩ := Option.map_eq_some_iff.mp h
      exact step _ ws (detailsFields_get L decode fs ws hw) hx
    | _ => cases hx
  | .key k :: ps, v, w, x, h, hx, hs => by
    cases v with
    | dict fs =>
      rw [details] at h
      obtain ⟨gs, hg, rfl⟩ := Option.map_eq_some_iff.mp h
      rw [look] at hx
      obtain ⟨y, hy, hl⟩ := Option.bind_eq_some_iff.mp hx
      obtain ⟨z, hz, hd⟩ := detailsDict_get L decode fs gs hg k y hy
      obtain ⟨t, ht, hr⟩ := C123_places L decode ps y z x hd hl hs
      refine ⟨t, ?_, hr⟩
      rw [look, hz]
      exact ht
    | _ => cases hx

example : look (.dict (.cons "age".toList (.tuple (.cons (.int 7) .nil)) .nil)) [.key "age".toList, .index 0] =
    some (.int 7) := rfl

/-- A validation error: 400 unless another status is given; a single thing becomes a list of one text, and nothing, an
empty list or an empty dictionary the text of the class. -/
theorem C123_validation (L : Lib) (decode : Str → Option Str) (phrase : Nat → Option Str) (status : Option Nat)
    (headers : List (Str × Str)) :
    (∀ s, ∃ e, makeValidation L decode phrase (some (.str s)) status headers = some e ∧
      e.status = firstCode [status, some 400] ∧ e.detail = .list (.cons (.str s) .nil)) ∧
    (∀ v, Detail v → (∀ s, v ≠ .str s) → ¬ Empty v → ∃ e, makeValidation L decode phrase (some v) status headers =
        some e ∧
      e.status = firstCode [status, some 400] ∧ e.detail = v) ∧
    (∀ d, d = none ∨ d = some (.list .nil) ∨ d = some (.tuple .nil) ∨ d = some (.dict .nil) →
      ∃ e, makeValidation L decode phrase d status headers = some e ∧
        e.status = firstCode [status, some 400] ∧ e.detail = .str "Validation error.".toList) := by
  have given : ∀ w, ¬ Empty w → ∃ e, make phrase validationError [] status (some w) headers none = some e ∧
      e.status = firstCode [status, some 400] ∧ e.detail = w := by
    intro w hw
    obtain ⟨e, he, hd, _⟩ := (C123_detail_partial phrase validationError [] status (some w) headers none).1 w rfl hw
    exact ⟨e, he, (C123_status _ _ _ _ _ _ _ e he).1, hd⟩
  refine ⟨?_, ?_, ?_⟩
  · intro s
    exact given (.list (.cons (.str s) .nil)) fun h => nomatch h
  · intro v hv hns hn
    have hl : listed (some v) = v := by
      cases hv with
      | text s => exact absurd rfl (hns s)
      | list vs => rfl
      | dict fs => rfl
    unfold makeValidation
    rw [hl, details_self L decode v hv]
    exact given v hn
  · intro d hd
    have key : ∀ w, Empty w → ∃ e, make phrase validationError [] status (some w) headers none = some e ∧
        e.status = firstCode [status, some 400] ∧ e.detail = .str "Validation error.".toList := by
      intro w hw
      obtain ⟨e, he, hx, _⟩ := (C123_detail_partial phrase validationError [] status (some w) headers none).2.1 _
        (by rintro ⟨v, h, hv⟩; cases h; exact hv hw) rfl (fun h => nomatch h)
      exact ⟨e, he, (C123_status _ _ _ _ _ _ _ e he).1, hx⟩
    rcases hd with rfl | rfl | rfl | rfl
    · exact key (.list .nil) .list
    · exact key (.list .nil) .list
    · exact key (.list .nil) .list
    · exact key (.dict .nil) .dict

example : Detail (.list (.cons (.str "a".toList) .nil)) ∧ ¬ Empty (.list (.cons (.str "a".toList) .nil)) :=
  ⟨.list _ (.cons _ _ (.text _) .nil), fun h => nomatch h⟩

/-- Anything else that is single becomes a list with its text, and a tuple a list. -/
theorem C123_single (L : Lib) (decode : Str → Option Str) (phrase : Nat → Option Str) (status : Option Nat)
    (headers : List (Str × Str)) (v : Val) (hv : Single v) (t : Str) (ht : Reads L decode v t) :
    ∃ e, makeValidation L decode phrase (some v) status headers = some e ∧
      e.status = firstCode [status, some 400] ∧ e.detail = .list (.cons (.str t) .nil) ∧ e.headers = headers := by
  have hd : details L decode v = some (.str t) := by
    cases v with
    | list _ => exact hv.elim
    | tuple _ => exact hv.elim
    | named _ _ => exact hv.elim
    | dict _ => exact hv.elim
    | atom k x =>
      rw [details]
      by_cases hk : k = .bytes
      · subst hk
        rw [if_pos rfl, show decode x = some t from ht]
        rfl
      · rw [if_neg hk]
        cases k <;> first | exact absurd rfl hk | exact congrArg (fun u => some (Val.str u)) (Eq.symm ht)
    | _ => rw [details]; exact congrArg (fun u => some (Val.str u)) (Eq.symm ht)
  have hl : listed (some v) = .list (.cons v .nil) := by
    cases v <;> first | exact hv.elim | rfl
  have hm : makeValidation L decode phrase (some v) status headers =
      make phrase validationError [] status (some (.list (.cons (.str t) .nil))) headers none := by
    unfold makeValidation
    rw [hl, details, detailsAll, hd, detailsAll]
    rfl
  obtain ⟨e, he, hx, _⟩ := (C123_detail_partial phrase validationError [] status
    (some (.list (.cons (.str t) .nil))) headers none).1 _ rfl (fun h => nomatch h)
  obtain ⟨h1, h2, _⟩ := C123_status _ _ _ _ _ _ _ e he
  exact ⟨e, hm.trans he, h1, hx, h2⟩

example (L : Lib) (decode : Str → Option Str) : Single (.int 7) ∧ Reads L decode (.int 7) (L.show' (.int 7)) :=
  ⟨trivial, rfl⟩

/-- **C123 is false of bytes that are no UTF-8**: anywhere in the details of a validation error they make the exception
itself fail, so another one is raised in its place. -/
theorem C123_bytes_false (L : Lib) (decode : Str → Option Str) (phrase : Nat → Option Str) (status : Option Nat)
    (headers : List (Str × Str)) (v : Val) (path : List Step) (x : Str) (hl : look v path = some (.atom .bytes x))
    (hx : decode x = none) : details L decode v = none ∧
      makeValidation L decode phrase (some (.atom .bytes x)) status headers = none := by
  constructor
  · cases h : details L decode v with
    | none => rfl
    | some w =>
      obtain ⟨t, _, ht⟩ := C123_places L decode path v w _ h hl trivial
      rw [show decode x = some t from ht] at hx
      cases hx
  · unfold makeValidation
    rw [show listed (some (.atom .bytes x)) = .list (.cons (.atom .bytes x) .nil) from rfl, details, detailsAll,
        details,
      if_pos rfl, hx]
    rfl

example : look (.list (.cons (.atom .bytes ['\xff']) .nil)) [.index 0] = some (.atom .bytes ['\xff']) := rfl

/-! ## Exceptions with texts of their own -/

/-- A template that is not found is named, and the status is 500. -/
theorem C123_template (phrase : Nat → Option Str) (args : List Val) (name : Str) :
    ∃ e, makeTemplate phrase args name = some e ∧ e.status = 500 ∧
      e.detail = .str ("Template ".toList ++ name ++ " not found.".toList) := by
  obtain ⟨e, he, hd, _⟩ := (C123_detail_partial phrase templateNotFound args none
    (some (.str ("Template ".toList ++ name ++ " not found.".toList))) [] none).1 _ rfl
    (fun h => by
      have : ("Template ".toList ++ name ++ " not found.".toList) = [] := by
        generalize ("Template ".toList ++ name ++ " not found.".toList) = t at h
        cases h; rfl
      exact absurd (List.append_eq_nil_iff.mp (List.append_eq_nil_iff.mp this).1).1 (by decide))
  exact ⟨e, he, (C123_status _ _ _ _ _ _ _ e he).1, hd⟩

/-- A range that cannot be satisfied: 416 with the size in `content-range`. -/
theorem C123_range_partial (phrase : Nat → Option Str) (num : Int → Str) (args : List Val) (range : Option (Int × Int))
    (size : Int) (unit : Str) :
    ∃ e, makeRange phrase num args range size unit = some e ∧ e.status = 416 ∧
      e.headers = [("content-range".toList, unit ++ " */".toList ++ num size)] ∧
      (range = none → e.detail = .str "Requested range is not satisfiable.".toList) := by
  cases range with
  | none =>
    obtain ⟨e, he, hd, _⟩ := (C123_detail_partial phrase rangeNotSatisfiable args none
      (some (.str "Requested range is not satisfiable.".toList))
      [("content-range".toList, unit ++ " */".toList ++ num size)] none).1 _ rfl (fun h => nomatch h)
    exact ⟨e, he, (C123_status _ _ _ _ _ _ _ e he).1, (C123_status _ _ _ _ _ _ _ e he).2.1, fun _ => hd⟩
  | some r =>
    obtain ⟨e, he, hd, _⟩ := (C123_detail_partial phrase rangeNotSatisfiable args none
      (some (.str "Requested range ({range_def[0]}-{range_def[1]}) is not satisfiable.".toList))
      [("content-range".toList, unit ++ " */".toList ++ num size)] none).1 _ rfl (fun h => nomatch h)
    exact ⟨e, he, (C123_status _ _ _ _ _ _ _ e he).1, (C123_status _ _ _ _ _ _ _ e he).2.1, fun h => nomatch h⟩

/-- **C123 is false of the range in the text**, which is the same for all ranges, braces and all. -/
theorem C123_range_false (phrase : Nat → Option Str) (num : Int → Str) (args : List Val) (r : Int × Int) (size : Int)
    (unit : Str) :
    ∃ e, makeRange phrase num args (some r) size unit = some e ∧
      e.detail = .str "Requested range ({range_def[0]}-{range_def[1]}) is not satisfiable.".toList ∧
      ((∀ n, '{' ∉ num n) → e.detail ≠ .str ("Requested range (".toList ++ num r.1 ++ "-".toList ++ num r.2 ++
        ") is not satisfiable.".toList)) := by
  obtain ⟨e, he, hd, _⟩ := (C123_detail_partial phrase rangeNotSatisfiable args none
    (some (.str "Requested range ({range_def[0]}-{range_def[1]}) is not satisfiable.".toList))
    [("content-range".toList, unit ++ " */".toList ++ num size)] none).1 _ rfl (fun h => nomatch h)
  refine ⟨e, he, hd, fun hn h => ?_⟩
  rw [hd] at h
  injection h with h
  have hm : '{' ∈ "Requested range ({range_def[0]}-{range_def[1]}) is not satisfiable.".toList := by decide
  rw [h] at hm
  simp only [List.mem_append] at hm
  rcases hm with (((hm | hm) | hm) | hm) | hm
  · exact absurd hm (by decide)
  · exact hn _ hm
  · exact absurd hm (by decide)
  · exact hn _ hm
  · exact absurd hm (by decide)

/-- A code of zero, set on the exception afterwards, is answered with 500. -/
theorem C123_zero (body : Val → Str) (e : Exn) (h : e.status = 0) (hr : e.response = none) :
    answer body e = ⟨500, e.headers, body e.detail⟩ := by
  unfold answer
  rw [hr, h]
  rfl

example : (⟨0, .null, [], [], none⟩ : Exn).status = 0 := rfl

/-- From the text of an exception its code and its detail can be read: no two exceptions with other codes or details
have the same text (numbers have no colon). -/
theorem C123_text (L : Lib) (code : Nat → Str) (hc : ∀ n, ':' ∉ code n) (e f : Exn)
    (h : text L code e = text L code f) :
    code e.status = code f.status ∧ L.show' e.detail = L.show' f.detail ∧
      ∃ a, text L code e = code e.status ++ ':' :: ' ' :: a := by
  have key : ∀ (a b x y : Str), ':' ∉ a → ':' ∉ b → a ++ ':' :: x = b ++ ':' :: y → a = b ∧ x = y := by
    intro a
    induction a with
    | nil =>
      intro b x y _ hb e
      cases b with
      | nil => simpa using e
      | cons c b => simp only [List.nil_append, List.cons_append, List.cons.injEq] at e; simp [← e.1] at hb
    | cons c a ih =>
      intro b x y ha hb e
      cases b with
      | nil => simp only [List.nil_append, List.cons_append, List.cons.injEq] at e; simp [e.1] at ha
      | cons d b =>
        simp only [List.cons_append, List.cons.injEq] at e
        obtain ⟨r1, r2⟩ := ih b x y (fun m => ha (List.mem_cons_of_mem _ m))
          (fun m => hb (List.mem_cons_of_mem _ m)) e.2
        exact ⟨by rw [e.1, r1], r2⟩
  have form : ∀ g : Exn, text L code g = code g.status ++ ':' :: ' ' :: L.show' g.detail := by
    intro g
    rw [text, List.append_assoc]
    rfl
  rw [form e, form f] at h
  obtain ⟨h1, h2⟩ := key _ _ _ _ (hc _) (hc _) h
  exact ⟨h1, (List.cons.inj h2).2, _, form e⟩

example : ∀ n, ':' ∉ (fun n : Nat => List.replicate n '1') n := by
  intro n h
  rw [List.mem_replicate] at h
  exact absurd h.2 (by decide)

/-- The status of the exceptions the framework itself raises, made without a status. -/
theorem C123_codes (phrase : Nat → Option Str) (args : List Val) (detail : Option Val) (headers : List (Str × Str))
    (response : Option Answer) (c : Cls) (n : Nat)
    (hc : (c, n) ∈ [(httpException, 500), (improperlyConfigured, 500), (templateNotFound, 500), (validationError, 400),
      (notAuthorized, 401), (permissionDenied, 403), (notFound, 404), (methodNotAllowed, 405),
      (rangeNotSatisfiable, 416), (unprocessable, 422)]) (e : Exn)
    (h : make phrase c args none detail headers response = some e) : e.status = n := by
  rw [(C123_status phrase c args none detail headers response e h).1]
  simp only [List.mem_cons, Prod.mk.injEq, List.not_mem_nil, or_false] at hc
  rcases hc with ⟨rfl, rfl⟩ | ⟨rfl, rfl⟩ | ⟨rfl, rfl⟩ | ⟨rfl, rfl⟩ | ⟨rfl, rfl⟩ | ⟨rfl, rfl⟩ | ⟨rfl, rfl⟩ |
    ⟨rfl, rfl⟩ | ⟨rfl, rfl⟩ | ⟨rfl, rfl⟩ <;> rfl

example : ∃ e, make phrases unprocessable [.str "no".toList] none none [] none = some e := ⟨_, rfl⟩

end Verif.Errors.Props
