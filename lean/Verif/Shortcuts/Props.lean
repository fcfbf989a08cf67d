import Verif.Shortcuts.Lemmas
import Verif.Disposition.Props

/-!
# C118: shortcuts for responses
-/

namespace Verif.Shortcuts.Props

open Verif Responses Responses.Spec Spec

/-! ## Example -/

/-- Texts as their own encoding, and a few phrases. -/
def web : Env Str :=
  ⟨id, fun n => if n = 404 then some "Not Found".toList else if n = 204 then some "No Content".toList
    else if n = 403 then some "Forbidden".toList else if n = 400 then some "Bad Request".toList else none⟩

/-! ## `abort` -/

/-- Without a detail the client gets the status with its phrase as a plain text, whose type and length are stated, and
the
fields of the caller. -/
theorem C118_phrase {J : Type} (e : Env J) (st : Nat) (p : Str) (caller : Headers) (hs : Silent caller)
    (ho : Ordinary st) (hp : e.phrase st = some p) :
    ∃ fs, Answered (aborted e st .none caller) st fs p ∧ Kept caller fs ∧ Framed fs p ∧
      fields fs "content-type".toList = ["text/plain; charset=utf-8".toList] := by
  obtain ⟨hb, he⟩ := ordinary_body st ho
  refine ⟨makeHeaders (textConf st) (some p) caller, ?_, makeHeaders_kept _ _ _ he,
    makeHeaders_framed _ _ _ (silent_noLength _ hs) hb, makeHeaders_type _ _ _ _ hs hb text_type⟩
  unfold Answered aborted abort
  simp only
  rw [httpException_phrase e st _ _ (ordinary_nonzero st ho), hp]
  have h1 : (decide (st = 204) || decide (st = 304)) = false := by simp [ho.2.1, ho.2.2.1]
  simp only [Option.map_some, answer, h1]
  rfl

example : Silent [("X-A".toList, "1".toList)] ∧ Ordinary 404 ∧ web.phrase 404 = some "Not Found".toList :=
  ⟨by unfold Silent; decide, by decide, rfl⟩

/-- A dictionary or a list is answered with its JSON, whose type and length are stated. -/
theorem C118_json {J : Type} (e : Env J) (st : Nat) (v : J) (p : Str) (caller : Headers) (hs : Silent caller)
    (ho : Ordinary st) (hp : e.phrase st = some p) :
    ∃ fs, Answered (aborted e st (.json v) caller) st fs (e.encode v) ∧ Kept caller fs ∧ Framed fs (e.encode v) ∧
      fields fs "content-type".toList = ["application/json".toList] := by
  obtain ⟨hb, he⟩ := ordinary_body st ho
  refine ⟨makeHeaders (jsonConf st) (some (e.encode v)) caller, ?_, makeHeaders_kept _ _ _ he,
    makeHeaders_framed _ _ _ (silent_noLength _ hs) hb, makeHeaders_type _ _ _ _ hs hb json_type⟩
  unfold Answered aborted abort
  simp only
  rw [httpException_phrase e st _ _ (ordinary_nonzero st ho), hp]
  rfl

/-- A text is answered with itself, and its length is stated; an empty one too, when the status has a phrase. -/
theorem C118_text_partial {J : Type} (e : Env J) (st : Nat) (s : Str) (caller : Headers) (hs : Silent caller)
    (ho : Ordinary st) (hp : s ≠ [] ∨ ∃ p, e.phrase st = some p) :
    ∃ fs, Answered (aborted e st (.text s) caller) st fs s ∧ Kept caller fs ∧ Framed fs s := by
  obtain ⟨hb, he⟩ := ordinary_body st ho
  refine ⟨makeHeaders (bareConf st) (some s) caller, ?_, makeHeaders_kept _ _ _ he,
    makeHeaders_framed _ _ _ (silent_noLength _ hs) hb⟩
  unfold Answered aborted abort
  simp only
  by_cases h : s = []
  · obtain ⟨p, hq⟩ := hp.resolve_left (fun h' => h' h)
    subst h
    rw [httpException_phrase e st _ _ (ordinary_nonzero st ho), hq]
    rfl
  · rw [httpException_text e st s _ _ h (ordinary_nonzero st ho)]
    rfl

/-- The documentation shows `Content-Type: text/plain; charset=utf-8` for it; no type is stated at all, for any text. -/
theorem C118_type_false {J : Type} (e : Env J) (st : Nat) (s : Str) (caller : Headers) (hs : Silent caller)
    (st' : Nat) (fs : Headers) (b : Str) (h : Answered (aborted e st (.text s) caller) st' fs b) :
    fields fs "content-type".toList = [] := by
  unfold Answered aborted abort at h
  simp only at h
  cases hx : httpException e st s (newCaller (bareConf st) (.ready s) caller)
      (some (new (bareConf st) (.ready s) caller)) with
  | none => rw [hx] at h; cases h
  | some x =>
    have hr : x.response = some (new (bareConf st) (.ready s) caller) := by
      unfold httpException at hx
      simp only at hx
      split at hx
      · cases hp : e.phrase (if st = 0 then 500 else st) with
        | none => rw [hp] at hx; cases hx
        | some p => rw [hp] at hx; cases hx; rfl
      · cases hx; rfl
    rw [hx] at h
    simp only [Option.map_some, answer, hr, new_call, Option.some.injEq, List.cons.injEq, Msg.start.injEq] at h
    rw [← h.1.2]
    exact makeHeaders_typeless st s caller hs

example : Answered (aborted web 403 (.text "no".toList) []) 403 [("content-length".toList, "2".toList)] "no".toList :=
    by
  unfold Answered; decide +kernel

/-- Without a detail, 204 and 304 are answered without content and without a length. -/
theorem C118_empty_partial {J : Type} (e : Env J) (st : Nat) (p : Str) (caller : Headers) (hs : Silent caller)
    (h : st = 204 ∨ st = 304) (hp : e.phrase st = some p) :
    ∃ fs, Answered (aborted e st .none caller) st fs [] ∧ fields fs "content-length".toList = [] := by
  refine ⟨makeHeaders (bareConf st) (some []) caller, ?_, ?_⟩
  · unfold Answered aborted abort
    simp only
    rw [httpException_phrase e st _ _ (by omega), hp]
    have h1 : (decide (st = 204) || decide (st = 304)) = true := by simpa using h
    simp only [Option.map_some, answer, h1]
    rfl
  · refine noLength_makeHeaders_bodiless _ _ _ (silent_noLength _ hs) ?_
    rcases h with rfl | rfl <;> rfl

example : Silent [] ∧ web.phrase 204 = some "No Content".toList := ⟨by unfold Silent; decide, rfl⟩

/-- "For `204` or `304` responses, Lilya automatically sends no body": with a detail the body is sent, whatever it is.
-/
theorem C118_empty_false {J : Type} (e : Env J) (st : Nat) (s : Str) (caller : Headers) (h : st = 204 ∨ st = 304)
    (hs : s ≠ []) : ∃ fs, Answered (aborted e st (.text s) caller) st fs s := by
  refine ⟨makeHeaders (bareConf st) (some s) caller, ?_⟩
  unfold Answered aborted abort
  simp only
  rw [httpException_text e st s _ _ hs (by omega)]
  rfl

/-- A number that `http.HTTPStatus` does not know is not answered, unless a text comes with it. -/
theorem C118_unknown_false {J : Type} (e : Env J) (st : Nat) (v : J) (caller : Headers) (h0 : st ≠ 0)
    (hp : e.phrase st = none) : aborted e st .none caller = none ∧ aborted e st (.json v) caller = none := by
  unfold aborted abort
  simp only
  rw [httpException_phrase e st _ _ h0, httpException_phrase e st _ _ h0, hp]
  exact ⟨rfl, rfl⟩

example : web.phrase 499 = none := rfl

/-- "Any serializable value" may be given; a number other than zero, a date or any other object that counts as true
raises. -/
theorem C118_other_false {J : Type} (e : Env J) (st : Nat) (caller : Headers) :
    aborted e st (.other true) caller = none := rfl

/-! ## Handlers of the application -/

/-- A handler that was registered for `HTTPException` finds the status and the text that were given. -/
theorem C118_handler_partial {J : Type} (e : Env J) (st : Nat) (s : Str) (caller : Headers) (hs : s ≠ []) (h0 : st ≠
    0) :
    ∃ x, abort e st (.text s) caller = some x ∧ x.status = st ∧ x.detail = s := by
  unfold abort
  simp only
  rw [httpException_text e st s _ _ hs h0]
  exact ⟨_, rfl, rfl, rfl⟩

example : "no".toList ≠ [] := by decide

/-- It does not find a dictionary or a list: the text is the phrase of the status. -/
theorem C118_handler_false {J : Type} (e : Env J) (st : Nat) (v : J) (caller : Headers) (x : HttpExc) (h0 : st ≠ 0)
    (h : abort e st (.json v) caller = some x) : e.phrase st = some x.detail := by
  unfold abort at h
  simp only at h
  rw [httpException_phrase e st _ _ h0] at h
  cases hp : e.phrase st with
  | none => rw [hp] at h; cases h
  | some p => rw [hp] at h; cases h; rfl

/-- When it answers with the headers of the exception and a body of its own, the length of the text of `abort` is stated
instead of the length of the body. -/
theorem C118_length_false {J : Type} (e : Env J) (st : Nat) (s b : Str) (caller : Headers) (c : Conf) (x : HttpExc)
    (hc : Silent caller) (ho : Ordinary st) (ho' : c.status = st) (hs : s ≠ [])
    (h : abort e st (.text s) caller = some x) :
    ∃ fs v, (new c (.ready b) x.headers).call = [.start st fs, .body b] ∧
      fields fs "content-length".toList = [v] ∧ number v = some s.length := by
  unfold abort at h
  simp only at h
  rw [httpException_text e st s _ _ hs (ordinary_nonzero st ho)] at h
  cases h
  obtain ⟨hb, he⟩ := ordinary_body st ho
  obtain ⟨hm, hf⟩ := callerAfter_first (bareConf st) s caller (silent_noLength _ hc) hb he
  refine ⟨makeHeaders c (some b) (newCaller (bareConf st) (.ready s) caller), Path.natToDec s.length, ?_, ?_,
    number_natToDec _⟩
  · rw [new_call, ho']
  · rw [← hf]
    exact fields_stated c (.ready b) _ _ (by rw [ho']; exact he) hm

example : ∃ x, abort web 403 (.text "no".toList) [("X-A".toList, "1".toList)] = some x ∧
    x.headers = [("X-A".toList, "1".toList), ("content-length".toList, "2".toList)] :=
  ⟨_, rfl, by decide +kernel⟩

/-! ## The other shortcuts -/

/-- `send_json`, `json_error`, `unauthorized`, `forbidden` and `not_found` answer with their JSON and status, with its
length
and type; an error that is a text is put under `error`. -/
theorem C118_sent {J : Type} (e : Env J) (wrap : Str → J) (st : Nat) (v : J) (s : Str) (caller : Headers)
    (hs : Silent caller) (ho : Ordinary st) :
    ∀ r w, (r = sendJson e v st caller ∧ w = v) ∨ (r = jsonError e wrap (.inr v) st caller ∧ w = v) ∨
        (r = jsonError e wrap (.inl s) st caller ∧ w = wrap s) ∨ (r = refused e wrap st s caller ∧ w = wrap s) →
      ∃ fs, r.call = [.start st fs, .body (e.encode w)] ∧ Kept caller fs ∧ Framed fs (e.encode w) ∧
        fields fs "content-type".toList = ["application/json".toList] := by
  obtain ⟨hb, he⟩ := ordinary_body st ho
  have key : ∀ w, ∃ fs, (sendJson e w st caller).call = [.start st fs, .body (e.encode w)] ∧ Kept caller fs ∧
      Framed fs (e.encode w) ∧ fields fs "content-type".toList = ["application/json".toList] := fun w =>
    ⟨makeHeaders (jsonConf st) (some (e.encode w)) caller, rfl, makeHeaders_kept _ _ _ he,
      makeHeaders_framed _ _ _ (silent_noLength _ hs) hb, makeHeaders_type _ _ _ _ hs hb json_type⟩
  rintro r w (⟨rfl, rfl⟩ | ⟨rfl, rfl⟩ | ⟨rfl, rfl⟩ | ⟨rfl, rfl⟩) <;> exact key _

/-- `empty` sends nothing, and with an ordinary status says so. -/
theorem C118_nothing_partial (st : Nat) (caller : Headers) (hs : Silent caller) (ho : Ordinary st) :
    ∃ fs, (empty st caller).call = [.start st fs, .body []] ∧ Kept caller fs ∧ Framed fs [] := by
  obtain ⟨hb, he⟩ := ordinary_body st ho
  exact ⟨_, rfl, makeHeaders_kept _ _ _ he, makeHeaders_framed _ _ _ (silent_noLength _ hs) hb⟩

/-- "Sets `Content-Length: 0` automatically": not with the status 204 it has when none is given. -/
theorem C118_nothing_false (caller : Headers) (hs : Silent caller) :
    ∃ fs, (empty 204 caller).call = [.start 204 fs, .body []] ∧ fields fs "content-length".toList = [] :=
  ⟨makeHeaders (bareConf 204) (some []) caller, rfl,
    noLength_makeHeaders_bodiless (bareConf 204) (some []) caller (silent_noLength _ hs) rfl⟩

/-! ## `jsonify` -/

/-- One value is sent as it is, several as a list, named ones as a dictionary; both together are refused.  The cookies
follow
the other fields, in order. -/
theorem C118_jsonify {J : Type} (e : Env J) (arr : List J → J) (obj : List (Str × J) → J) (cookie : Str → Str → Str)
    (args : List J) (kwargs : List (Str × J)) (st : Nat) (caller : Headers) (cookies : List (Str × Str))
    (hs : Silent caller) (ho : Ordinary st) :
    ((args ≠ [] ∧ kwargs ≠ []) ↔ jsonify e arr obj cookie args kwargs st caller cookies = none) ∧
    ∀ v, ((args = [v] ∧ kwargs = []) ∨ (2 ≤ args.length ∧ kwargs = [] ∧ v = arr args) ∨
        (args = [] ∧ v = obj kwargs)) →
      ∃ r fs, jsonify e arr obj cookie args kwargs st caller cookies = some r ∧
        r.call = [.start st (fs ++ cookies.map fun c => ("set-cookie".toList, cookie c.1 c.2)), .body (e.encode v)] ∧
        Kept caller fs ∧ Framed fs (e.encode v) ∧ fields fs "content-type".toList = ["application/json".toList] := by
  obtain ⟨hb, he⟩ := ordinary_body st ho
  have key : ∀ w : J, Kept caller (makeHeaders (jsonConf st) (some (e.encode w)) caller) ∧
      Framed (makeHeaders (jsonConf st) (some (e.encode w)) caller) (e.encode w) ∧
      fields (makeHeaders (jsonConf st) (some (e.encode w)) caller) "content-type".toList
        = ["application/json".toList] := fun w =>
    ⟨makeHeaders_kept _ _ _ he, makeHeaders_framed _ _ _ (silent_noLength _ hs) hb,
      makeHeaders_type _ _ _ _ hs hb json_type⟩
  constructor
  · rcases args with _ | ⟨a, _ | ⟨b, as⟩⟩ <;> rcases kwargs with _ | ⟨k, ks⟩ <;> simp [jsonify]
  · intro v h
    rcases h with ⟨rfl, rfl⟩ | ⟨hl, rfl, rfl⟩ | ⟨rfl, rfl⟩
    · exact ⟨_, _, rfl, rfl, key v⟩
    · rcases args with _ | ⟨a, _ | ⟨b, as⟩⟩
      · simp at hl
      · simp at hl
      · exact ⟨_, _, rfl, rfl, key _⟩
    · rcases kwargs with _ | ⟨k, ks⟩
      · exact ⟨_, _, rfl, rfl, key _⟩
      · exact ⟨_, _, rfl, rfl, key _⟩

/-! ## `send_file` -/

/-- As an attachment the file is offered under the given name, or the name of the file, or `download`. -/
theorem C118_name_partial (src : Source) (name : Str) (age : Option Nat) :
    (name ≠ [] → sendName src name = name) ∧ (∀ l, sendName (.path l) [] = l) ∧
    sendName .file [] = "download".toList ∧
    (Disposition.Spec.Bytes (sendName src name) → '/' ∉ sendName src name →
      ∃ v, fields (sendFile src true name age) "content-disposition".toList = [v] ∧
        Disposition.Spec.read v = some ⟨"attachment".toList, some (sendName src name)⟩) := by
  refine ⟨fun h => ?_, fun l => rfl, rfl, fun hb hn => ?_⟩
  · unfold sendName
    cases name with
    | nil => exact absurd rfl h
    | cons c s => rfl
  · obtain ⟨v, hv, hr⟩ := Disposition.C57_name_partial (some "attachment".toList) _ (.inr rfl) hb (.inl hn)
    exact ⟨v, sendFile_disposition src true name age v hv, hr⟩

example : Disposition.Spec.Bytes (sendName .file []) ∧ '/' ∉ sendName .file [] := by
  unfold Disposition.Spec.Bytes; decide

/-- Unless it is sent as an attachment the name is not used: the disposition says `inline` and nothing else. -/
theorem C118_inline_false (src : Source) (name : Str) (age : Option Nat) :
    fields (sendFile src false name age) "content-disposition".toList = ["inline".toList] :=
  sendFile_disposition src false name age _ (by
    unfold Disposition.header
    simp only [Bool.false_eq_true, if_false]
    rw [if_pos trivial])

/-- With an age the file may be kept by caches for so many seconds; otherwise nothing is said about it. -/
theorem C118_age (src : Source) (att : Bool) (name : Str) :
    (∀ n, ∃ d, fields (sendFile src att name (some n)) "cache-control".toList = ["public, max-age=".toList ++ d] ∧
      number d = some n) ∧
    fields (sendFile src att name none) "cache-control".toList = [] := by
  refine ⟨fun n => ⟨Path.natToDec n, ?_, number_natToDec n⟩, ?_⟩
  · rw [sendFile_other src att name (some n) "cache-control".toList (by decide)]
    exact ageHeaders_fields _
  · rw [sendFile_other src att name none "cache-control".toList (by decide)]
    rfl

end Verif.Shortcuts.Props
