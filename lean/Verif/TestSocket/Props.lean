import Verif.TestSocket.Lemmas

/-!
# C96: the websocket session of the test client

Full statement: what the test sends reaches the application in order and the other way round, nothing twice; the session
is entered exactly when the application accepts it, and otherwise the test sees how it was refused: the close, the whole
denial response, the exception of the application, or an error; an exception of the application is seen by the test at
the
next call of `receive` or at the end.  Proved except for applications that do not answer by an accept, a close or a
denial
with all its keys, and for what a refused application receives.
-/

namespace Verif.TestSocket

open Verif Spec

variable {E : Type} [DecidableEq E]

/-- A sequence of acts is possible exactly when each side takes what the other sent, in order, and the application does
nothing after its end. -/
theorem C96_queues (h : List (Act E)) : (Sys.init.run h).isSome = true ↔ Proper h := by
  rw [Option.isSome_iff_exists]
  exact ⟨fun ⟨s, hs⟩ => run_proper h s hs, proper_run h⟩

/-- The test sends before the application takes. -/
example : (Sys.init.run [.testSends .connect, .testSends (.text "a".toList), .appTakes .connect,
    .appPuts (.accept none none), .appTakes (.text "a".toList), .testTakes (.msg (.accept none none)),
    .appRaises 7, .testTakes (.exc 7)] : Option (Sys Nat)).isSome = true := by decide

/-- Nothing is lost: what was sent and is not yet taken is in the queues. -/
theorem C96_nothing_lost (h : List (Act E)) (s : Sys E) (hs : Sys.init.run h = some s) :
    testSent h = appTook h ++ s.toApp ∧ appSent h = testTook h ++ s.toTest := by
  obtain ⟨h1, h2, _⟩ := run_inv h _ s hs
  exact ⟨h1, h2⟩

example : (Sys.init.run [.testSends .connect, .appPuts .other] : Option (Sys Nat)).isSome = true := by decide

/-- The exception of the application is raised at the end exactly when the test did not take it before; without one the
exception of the block, if any, goes on. -/
theorem C96_exit (h : List (Act E)) (s : Sys E) (hs : Sys.init.run h = some s) (block : Option E) :
    (∀ e, .appRaises e ∈ h → .testTakes (.exc e) ∉ h → exit s.toTest block = some e) ∧
      ((∀ e, .appRaises e ∈ h → .testTakes (.exc e) ∈ h) → exit s.toTest block = block) := by
  obtain ⟨_, h2, _⟩ := run_inv h _ s hs
  replace h2 : appSent h = testTook h ++ s.toTest := h2
  rcases appSent_shape h s hs with ⟨l, hl, hn⟩ | ⟨l, e, hl, he⟩
  · refine ⟨fun e he => absurd he (hn e), fun _ => ?_⟩
    rw [hl] at h2
    obtain ⟨l1, l2, rfl, _, h4⟩ := List.map_eq_append_iff.1 h2
    rw [← h4]
    exact exit_msgs l2 block
  · rw [hl] at h2
    rcases List.eq_nil_or_concat s.toTest with h0 | ⟨t, i, ht⟩
    · rw [h0, List.append_nil] at h2
      have hm : .testTakes (.exc e) ∈ h := (mem_testTook h _).1 (by rw [← h2]; simp)
      refine ⟨fun e' he' hn => ?_, fun _ => by rw [h0]; rfl⟩
      rw [(he e').1 he'] at hn
      exact absurd hm hn
    · rw [List.concat_eq_append] at ht
      rw [ht, ← List.append_assoc] at h2
      obtain ⟨h3, h4⟩ := List.append_inj' h2 rfl
      injection h4 with h4
      obtain ⟨l1, l2, rfl, h5, h6⟩ := List.map_eq_append_iff.1 h3
      rw [ht, ← h4, ← h6]
      refine ⟨fun e' he' _ => ?_, fun hall => ?_⟩
      · rw [(he e').1 he']
        exact exit_exc l2 e block
      · have := (mem_testTook h _).2 (hall e ((he e).2 rfl))
        rw [← h5] at this
        obtain ⟨m, _, hm⟩ := List.mem_map.1 this
        cases hm

example : (Sys.init.run [.appPuts .other, .appRaises 7, .testTakes (.msg .other)] : Option (Sys Nat)).isSome = true :=
    by
  decide

/-! ## Entering -/

omit [DecidableEq E] in
/-- **C96** (partial): how the session is entered or refused, by what the application puts first. -/
theorem C96_enter_partial (r : List (Item E)) :
    (∀ sub hs, enter (.msg (.accept sub hs) :: r) = (.value (sub, hs), r)) ∧
      (∀ code reason, enter (.msg (.close code reason) :: r) = (.disconnect (code.getD 1000) (reason.getD []), r)) ∧
      (∀ e, enter (.exc e :: r) = (.raised e, r)) ∧
      ∀ st hs (chunks : List Str) (last : Str),
        enter (.msg (.start st (some hs)) :: (chunks.map (fun d => Item.msg (.body (some d) true)) ++
          .msg (.body (some last) false) :: r)) = (.denied st hs (chunks.flatten ++ last), r) := by
  refine ⟨fun _ _ => rfl, fun _ _ => rfl, fun _ => rfl, fun st hs chunks last => ?_⟩
  show denial st hs [] _ = _
  rw [denial_chunks]
  simp

example : enter (E := Nat) [.msg (.start 403 (some [])), .msg (.body (some "no".toList) true),
    .msg (.body (some "pe".toList) false), .exc 1] = (.denied 403 [] "nope".toList, [.exc 1]) := rfl

omit [DecidableEq E] in
/-- **C96** is false for an application that sends data before it accepts: the session is entered and the data is
lost. -/
theorem C96_accept_false (d : Str) (r : List (Item E)) : enter (.msg (.text d) :: r) = (.value (none, none), r) := rfl

omit [DecidableEq E] in
/-- **C96** is false for a denial that leaves out its headers or a body, as ASGI allows: the test sees a `KeyError`. -/
theorem C96_denial_false (st : Nat) (hs : List (Str × Str)) (more : Bool) (r : List (Item E)) :
    (enter (.msg (.start st none) :: r)).1 = .key ∧
      (enter (.msg (.start st (some hs)) :: .msg (.body none more) :: r)).1 = .key := ⟨rfl, rfl⟩

omit [DecidableEq E] in
/-- **C96**: a message in a denial which is no body is an `AssertionError` of the test. -/
theorem C96_denial_other (st : Nat) (hs : List (Str × Str)) (m : Msg) (hm : ∀ d more, m ≠ .body d more)
    (r : List (Item E)) :
    (enter (.msg (.start st (some hs)) :: .msg m :: r)).1 = .assertion := by
  show (denial st hs [] (.msg m :: r)).1 = _
  cases m with
  | body d more => exact absurd rfl (hm d more)
  | _ => rfl

omit [DecidableEq E] in
/-- **C96**: an exception of the application within a denial is raised in the test. -/
theorem C96_denial_raised (st : Nat) (hs : List (Str × Str)) (d : Str) (e : E) (r : List (Item E)) :
    (enter (.msg (.start st (some hs)) :: .exc e :: r)).1 = .raised e ∧
    (enter (.msg (.start st (some hs)) :: .msg (.body (some d) true) :: .exc e :: r)).1 = .raised e := ⟨rfl, rfl⟩

/-- **C96** is false for an application that ends without a message: the test waits for one that never comes, whatever
happens after. -/
theorem C96_silent_false (h k : List (Act E)) (s : Sys E) (hs : Sys.init.run (h ++ .appEnds :: k) = some s)
    (hn : appSent h = []) : appSent (h ++ .appEnds :: k) = [] ∧ testTook (h ++ .appEnds :: k) = [] ∧
      (enter (appSent (h ++ .appEnds :: k))).1 = .waits := by
  have hp := run_proper _ s hs
  have hk : appSent k = [] := by
    unfold appSent
    rw [List.filterMap_eq_nil_iff]
    intro b hb
    have := hp.2 h _ k rfl rfl b hb
    cases b <;> first | rfl | cases this
  have he : appSent (h ++ .appEnds :: k) = [] := by
    rw [show h ++ Act.appEnds :: k = h ++ ([.appEnds] ++ k) from rfl, appSent_append, appSent_append, hn, hk]
    rfl
  have ht := (hp.1 _ (List.prefix_refl _)).2
  rw [he] at ht
  refine ⟨he, List.prefix_nil.1 ht, ?_⟩
  rw [he]
  rfl

example : (Sys.init.run [.testSends .connect, .appTakes .connect, .appEnds] : Option (Sys Nat)).isSome = true := by
    decide

omit [DecidableEq E] in
/-- **C96** is false for an application that is refused and then receives: the test has only sent the connect, and no
disconnect is ever there to be taken. -/
theorem C96_refused_false (h : List (Act E)) (hp : Proper h) (hs : testSent h = [.connect]) :
    ∀ code reason, .appTakes (.disconnect code reason) ∉ h := by
  intro code reason hm
  have h1 := (hp.1 h (List.prefix_refl _)).1
  rw [hs] at h1
  have h2 : In.disconnect code reason ∈ appTook h := List.mem_filterMap.2 ⟨_, hm, rfl⟩
  have h3 := h1.subset h2
  simp at h3

example : testSent (E := Nat) [.testSends .connect, .appTakes .connect, .appPuts (.close none none)] = [.connect] := rfl

/-! ## Receiving -/

omit [DecidableEq E] in
/-- Texts are received in the order in which the application sent them, and then how it closed. -/
theorem C96_texts (texts : List Str) (code : Option Nat) (reason : Option Str) (r : List (Item E)) :
    receiveTexts (texts.length + 1) (texts.map (fun t => .msg (.text t)) ++ .msg (.close code reason) :: r) =
      texts.map .value ++ [.disconnect (code.getD 1000) (reason.getD [])] := by
  induction texts with
  | nil => rfl
  | cons t texts ih =>
    show Res.value t :: receiveTexts (texts.length + 1) _ = _
    rw [show (receiveText (List.map (fun t => Item.msg (Msg.text t)) (t :: texts) ++
      Item.msg (Msg.close code reason) :: r)).2 = texts.map (fun t => .msg (.text t)) ++ .msg (.close code reason) :: r
      from rfl, ih]
    rfl

omit [DecidableEq E] in
/-- Every call of `receive_text` and `receive_bytes` sees a close, a denial and an exception, also in the middle of a
session; data of the other kind is a `KeyError`. -/
theorem C96_kinds (d : Str) (r : List (Item E)) :
    receiveText (.msg (.text d) :: r) = (.value d, r) ∧ receiveBytes (.msg (.bytes d) :: r) = (.value d, r) ∧
      receiveText (.msg (.bytes d) :: r) = (.key, r) ∧ receiveBytes (.msg (.text d) :: r) = (.key, r) ∧
      (∀ e, receiveText (.exc e :: r) = (.raised e, r) ∧ receiveBytes (.exc e :: r) = (.raised e, r)) ∧
      ∀ c reason, receiveBytes (.msg (.close c reason) :: r) = (.disconnect (c.getD 1000) (reason.getD []), r) :=
  ⟨rfl, rfl, rfl, rfl, fun _ => ⟨rfl, rfl⟩, fun _ _ => rfl⟩

omit [DecidableEq E] in
/-- JSON that the application echoes is read back in the same mode, for every text that the encoder makes. -/
theorem C96_json {X Y : Type} (dumps : X → Str) (loads : Str → Y) (mode : Mode) (x : X) (r : List (Item E)) :
    ∃ m, echo (sendJson dumps mode x) = some m ∧
      receiveJson loads mode (.msg m :: r) = (.value (loads (dumps x)), r) := by
  cases mode with
  | text => exact ⟨_, rfl, rfl⟩
  | binary =>
    refine ⟨_, rfl, ?_⟩
    show (Res.value (loads (ExtValue.utf8Decode (ExtValue.utf8 (dumps x)))), r) = _
    rw [ExtValue.decode_utf8]

example : (receiveJson (E := Nat) id .binary [.msg (.bytes (ExtValue.utf8 "é".toList))]).1 = .value "é".toList := by
  decide +kernel

end Verif.TestSocket
