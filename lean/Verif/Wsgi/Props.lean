import Verif.Wsgi.Lemmas

/-!
# C104: applications of WSGI
-/

namespace Verif.Wsgi

open Verif Verif.Wsgi.Spec

/-- C104: an answer that is no error comes through as it is, whatever the settings are. -/
theorem C104_pass (w : World) (redirect : Bool) (handlers : List (Key × Handler)) (cls : Nat) (a : Answer)
    (h : ¬a.IsError) : serve w redirect handlers cls a.ran = ⟨a.messages, false⟩ := by
  cases redirect with
  | false => rfl
  | true => exact serve_fine w handlers cls a h

example (w : World) : serve w true [] 0 (Answer.ran ⟨200, [], ["hi".toList]⟩) =
    ⟨[.start 200 [], .body "hi".toList true, .body [] false], false⟩ :=
  C104_pass w true [] 0 ⟨200, [], ["hi".toList]⟩ (by unfold Answer.IsError; decide)

/-- C104: without redirection every answer comes through, and so does an exception. -/
theorem C104_plain (w : World) (handlers : List (Key × Handler)) (cls : Nat) (r : Ran) :
    serve w false handlers cls r = ⟨r.messages, r.raises⟩ := rfl

example (w : World) : serve w false [] 0 ⟨[.start 500 []], true⟩ = ⟨[.start 500 []], true⟩ := C104_plain ..

/-- C104: with redirection an error with a body is answered by the handler of the class, and by nothing else; the
handler gets the status, and the whole body as the detail.  Part: the handler is `async` and registered for the class
itself. -/
theorem C104_handled_partial (w : World) (handlers : List (Key × Handler)) (cls : Nat) (a : Answer) (h : Handler)
    (he : a.IsError) (hb : w.decode a.body ≠ []) (hh : aget handlers (.cls cls) = some h)
    (ha : h.isAsync = true) :
    serve w true handlers cls a.ran = ⟨h.respond ⟨cls, a.status, w.decode a.body, none⟩, false⟩ := by
  rw [serve_error w handlers cls a he, build_text w cls a.status _ hb]
  dsimp only
  rw [hh]
  exact if_pos ha

example : serve ⟨fun _ => none, fun _ => none, id⟩ true [(.cls 0, ⟨true, fun e => [.body e.detail false]⟩)] 0
    (Answer.ran ⟨400, [], ["bad ".toList, "request".toList]⟩) = ⟨[.body "bad request".toList false], false⟩ :=
  C104_handled_partial ⟨fun _ => none, fun _ => none, id⟩ [(.cls 0, ⟨true, fun e => [.body e.detail false]⟩)] 0
    ⟨400, [], ["bad ".toList, "request".toList]⟩ ⟨true, fun e => [.body e.detail false]⟩
    (by unfold Answer.IsError; decide) (by decide) rfl rfl

/-- C104: an error for whose class there is no handler comes through as it is.  Part: it has a body, or a status
that is known. -/
theorem C104_unhandled_partial (w : World) (handlers : List (Key × Handler)) (cls : Nat) (a : Answer)
    (hb : w.decode a.body ≠ [] ∨ ∃ p, w.phrase a.status = some p) (hh : aget handlers (.cls cls) = none) :
    serve w true handlers cls a.ran = ⟨a.messages, false⟩ := by
  by_cases he : a.IsError
  · have hbuild : ∃ x, build w cls a.status (w.decode a.body) = some x := by
      rcases hb with hb | ⟨p, hp⟩
      · exact ⟨_, build_text w cls a.status _ hb⟩
      · exact build_known w cls a.status _ p hp
    obtain ⟨x, hx⟩ := hbuild
    rw [serve_error w handlers cls a he, hx]
    dsimp only
    rw [build_cls w cls _ _ x hx, hh]
  · exact serve_fine w handlers cls a he

example : serve ⟨fun _ => none, fun _ => none, id⟩ true [] 0 (Answer.ran ⟨404, [], ["no".toList]⟩) =
    ⟨[.start 404 [], .body "no".toList true, .body [] false], false⟩ :=
  C104_unhandled_partial ⟨fun _ => none, fun _ => none, id⟩ _ 0 ⟨404, [], ["no".toList]⟩ (.inl (by decide)) rfl

/-- C104: messages without a start come through as they are. -/
theorem C104_no_start (w : World) (redirect : Bool) (handlers : List (Key × Handler)) (cls : Nat) (ms : List Msg)
    (h : ∀ s hs, Msg.start s hs ∉ ms) : serve w redirect handlers cls ⟨ms, false⟩ = ⟨ms, false⟩ := by
  have hn : ∀ l : List Msg, (∀ s hs, Msg.start s hs ∉ l) → startOf l = none := by
    intro l
    induction l with
    | nil => exact fun _ => rfl
    | cons m rest ih =>
      intro hl
      cases m with
      | start s hs => exact absurd (by simp) (hl s hs)
      | body b more => exact ih fun s hs hm => hl s hs (by simp [hm])
  cases redirect with
  | false => rfl
  | true =>
    show buffered w handlers cls ⟨ms, false⟩ = _
    unfold buffered
    rw [if_neg (by simp), hn ms h]

example : ∀ s hs, Msg.start s hs ∉ [Msg.body "a".toList false] := by simp

/-- C104: with redirection nothing is sent of an answer whose application raises. -/
theorem C104_raised (w : World) (handlers : List (Key × Handler)) (cls : Nat) (ms : List Msg) :
    serve w true handlers cls ⟨ms, true⟩ = ⟨[], true⟩ := rfl

example (w : World) : serve w true [] 0 ⟨[.start 200 [], .body "a".toList true], true⟩ = ⟨[], true⟩ := C104_raised ..

/-- C104 fails: an exception of the application is not turned into the class and does not reach its handler. -/
theorem C104_exception_false : ∃ (w : World) (h : Handler) (ms : List Msg), h.isAsync = true ∧
    serve w true [(.cls 0, h)] 0 ⟨ms, true⟩ = ⟨[], true⟩ :=
  ⟨⟨fun _ => none, fun _ => none, id⟩, ⟨true, fun _ => [.start 500 []]⟩, [.start 500 []], rfl, rfl⟩

/-- C104 fails: a handler for the status, or for a class above the class, is not used. -/
theorem C104_other_handler_false : ∃ (w : World) (h : Handler) (a : Answer), a.IsError ∧ h.isAsync = true ∧
    serve w true [(.status a.status, h), (.cls 0, h)] 1 a.ran = ⟨a.messages, false⟩ ∧
    ∀ e, h.respond e ≠ a.messages :=
  ⟨⟨fun _ => none, fun _ => none, id⟩, ⟨true, fun _ => []⟩, ⟨404, [], ["no".toList]⟩, by unfold Answer.IsError; decide,
    rfl, by decide +kernel, fun _ h => by cases h⟩

/-- C104 fails: a handler that is not `async`, which Lilya allows elsewhere, makes the error a failure of the
server. -/
theorem C104_sync_false : ∃ (w : World) (h : Handler) (a : Answer), a.IsError ∧
    serve w true [(.cls 0, h)] 0 a.ran = ⟨[], true⟩ :=
  ⟨⟨fun _ => none, fun _ => none, id⟩, ⟨false, fun _ => []⟩, ⟨404, [], ["no".toList]⟩, by unfold Answer.IsError; decide,
    by decide +kernel⟩

/-- C104 fails: an error without a body and with a status that Python does not know, such as 499, is a failure of the
server, with or without a handler. -/
theorem C104_status_false : ∃ (w : World) (a : Answer), a.status = 499 ∧ w.phrase 499 = none ∧
    ∀ handlers, serve w true handlers 0 a.ran = ⟨[], true⟩ :=
  ⟨⟨fun _ => none, fun n => if n = 404 then some "Not Found".toList else none, fun s => s⟩, ⟨499, [], []⟩, rfl, rfl,
    fun _ => rfl⟩

/-- C104 fails: the headers of the error are lost; the handler cannot answer as the application would. -/
theorem C104_headers_false (w : World) (h : Handler) (cls : Nat) (a b : Answer) (he : a.IsError)
    (hs : a.status = b.status) (hp : a.pieces = b.pieces) :
    serve w true [(.cls cls, h)] cls a.ran = serve w true [(.cls cls, h)] cls b.ran := by
  have hb : b.IsError := by unfold Answer.IsError at *; omega
  have hbody : a.body = b.body := by unfold Answer.body; rw [hp]
  rw [serve_error w _ cls a he, serve_error w _ cls b hb, hbody, hs]
  cases hx : build w cls b.status (w.decode b.body) with
  | none => rfl
  | some x =>
    dsimp only
    rw [build_cls w cls _ _ x hx]
    simp [aget]

example (w : World) (h : Handler) :
    serve w true [(.cls 0, h)] 0 (Answer.ran ⟨401, [("www-authenticate".toList, "Basic".toList)], []⟩) =
      serve w true [(.cls 0, h)] 0 (Answer.ran ⟨401, [], []⟩) :=
  C104_headers_false w h 0 ⟨401, [("www-authenticate".toList, "Basic".toList)], []⟩ ⟨401, [], []⟩
    (by unfold Answer.IsError; decide) rfl rfl

end Verif.Wsgi
