import Verif.SocketController.Lemmas

/-!
# C76: a websocket controller hands over every message once and learns how the connection ended
-/

namespace Verif.SocketController

open Spec

variable {J : Type}

/-- An environment in which every text is its own value and bytes are their own text. -/
def exEnv : Env Str := ⟨some, some⟩

/-- A controller with an encoding whose methods do not raise. -/
def calm (enc : Enc) : Ctl Str := ⟨enc, false, fun _ _ => false⟩

/-- **C76 (partial), delivery.**  If every message has a content that the encoding can read and the methods
do not raise, `on_receive` gets exactly what was sent, in order, until the client leaves; then `on_disconnect`
is told the client's code, once.

The full statement is for all texts and codes.  Missing: empty texts without encoding (`C76_empty_false`) and
disconnects without code (`C76_code_false`). -/
theorem C76_delivery_partial (E : Env J) (c : Ctl J) (hc : c.connectRaises = false) (fs : List Frame)
    (ds : List (Data J)) (hs : Stream E c.enc fs ds)
    (hne : ∀ f ∈ fs, c.enc = .none → f.text ≠ some (some []))
    (hr : ∀ pre d post, ds = pre ++ d :: post → c.receiveRaises pre d = false) :
    dispatch E c (fs.map In.frame) = (.connected :: ds.map Event.received, .waiting) ∧
    ∀ n, n ≠ 0 → ∀ rest, dispatch E c (fs.map In.frame ++ .disconnect (some n) :: rest) =
      (.connected :: (ds.map Event.received ++ [.disconnected (clientCode (some n))]), .finished) := by
  have h := fun rest => loop_stream hs hne [] rest (by simpa using hr)
  have hd : ∀ ms, dispatch E c ms = (.connected :: (loop E c [] ms).1, (loop E c [] ms).2) := by
    intro ms; simp [dispatch, hc]
  refine ⟨?_, fun n hn rest => ?_⟩
  · have h0 := h []
    rw [List.append_nil] at h0
    rw [hd, h0]
    simp [loop]
  · rw [hd, h]
    obtain ⟨k, rfl⟩ : ∃ k, n = k + 1 := ⟨n - 1, by omega⟩
    simp [loop, closeCode, clientCode]

example : Stream exEnv (calm .none).enc [⟨some (some "hi".toList), none⟩, ⟨some none, some (some "b".toList)⟩]
      [.text "hi".toList, .bytes "b".toList] ∧
    ∀ f ∈ [(⟨some (some "hi".toList), none⟩ : Frame), ⟨some none, some (some "b".toList)⟩],
      (calm .none).enc = .none → f.text ≠ some (some []) :=
  ⟨.cons _ _ _ _ _ (.text _ _ (.inl rfl)) (.anyText _)
    (.cons _ _ _ _ _ (.bytes _ _ (.inr rfl)) (.anyBytes _) .nil), by decide +kernel⟩

example : Stream exEnv (calm .json).enc [⟨some (some "1".toList), none⟩, ⟨none, some (some "2".toList)⟩]
      [.json "1".toList, .json "2".toList] :=
  .cons _ _ _ _ _ (.text _ _ (.inl rfl)) (.jsonText _ _ rfl)
    (.cons _ _ _ _ _ (.bytes _ _ (.inl rfl)) (.jsonBytes _ _ _ rfl rfl) .nil)

/-- **C76, order.**  Whatever the messages are and whatever the methods do, what `on_receive` got are the
decoded first messages, in order and without gaps: all messages before the client left, unless an
exception ended the connection. -/
theorem C76_order (E : Env J) (c : Ctl J) (ms : List In) :
    ∃ n, ((frames ms).take n).map (decode E c.enc) = (handed (dispatch E c ms).1).map Decoded.ok ∧
      ((dispatch E c ms).2 ≠ .raised → n = (frames ms).length) := by
  unfold dispatch
  split
  · exact ⟨0, by simp [handed], fun h => absurd rfl h⟩
  · obtain ⟨n, h, h'⟩ := loop_handed E c ms []
    exact ⟨n, by simpa [handed] using h, h'⟩

example : handed (dispatch exEnv (calm .text)
    [.frame ⟨some (some "a".toList), none⟩, .frame ⟨some (some "b".toList), none⟩, .disconnect none]).1 =
    [.text "a".toList, .text "b".toList] := by decide +kernel

/-- **C76, the end.**  After a connection that `on_connect` let in, `on_disconnect` is called exactly once, as
the last thing, and not before the end; after an exception it is told 1011. -/
theorem C76_end (E : Env J) (c : Ctl J) (hc : c.connectRaises = false) (ms : List In) :
    ((dispatch E c ms).2 = .waiting → told (dispatch E c ms).1 = []) ∧
    ((dispatch E c ms).2 ≠ .waiting →
      ∃ es n, (dispatch E c ms).1 = es ++ [.disconnected n] ∧ told es = []) ∧
    ((dispatch E c ms).2 = .raised → told (dispatch E c ms).1 = [1011]) := by
  obtain ⟨h1, h2, h3⟩ := loop_told E c ms []
  have hd : dispatch E c ms = (.connected :: (loop E c [] ms).1, (loop E c [] ms).2) := by
    simp [dispatch, hc]
  rw [hd]
  refine ⟨fun h => h1 h, fun h => ?_, fun h => ?_⟩
  · obtain ⟨es, n, e1, e2⟩ := h2 h
    exact ⟨.connected :: es, n, by simp [e1], e2⟩
  · obtain ⟨es, e1⟩ := h3 h
    obtain ⟨es', n, e2, e3⟩ := h2 (by rw [show (loop E c [] ms).2 = .raised from h]; simp)
    have h4 := e1.symm.trans e2
    have h5 := List.append_inj' h4 rfl
    have h8 : told (.connected :: (loop E c [] ms).1) = [n] := by
      rw [show told (.connected :: (loop E c [] ms).1) = told (loop E c [] ms).1 from rfl, e2, told_append, e3]
      rfl
    rw [h8]
    injection h5.2 with h6
    injection h6 with h7
    rw [← h7]

example : (dispatch exEnv (calm .text) [.frame ⟨none, some (some "b".toList)⟩]).2 = .raised := by
  decide +kernel

/-- **C76, only readable messages.**  A message of the wrong kind is never handed over: it ends the
connection, which is closed with 1003 if the server leaves out the key without value. -/
theorem C76_kind (E : Env J) (c : Ctl J) (hc : c.connectRaises = false) (s : Str) (ms : List In) :
    (c.enc = .text → (dispatch E c (.frame ⟨none, some (some s)⟩ :: ms)).1 =
      [.connected, .closed 1003, .disconnected 1011]) ∧
    (c.enc = .bytes → (dispatch E c (.frame ⟨some (some s), none⟩ :: ms)).1 =
      [.connected, .closed 1003, .disconnected 1011]) ∧
    (c.enc = .json → E.loads s = none → (dispatch E c (.frame ⟨some (some s), none⟩ :: ms)).1 =
      [.connected, .disconnected 1011]) := by
  refine ⟨fun h => ?_, fun h => ?_, fun h hl => ?_⟩
  · simp [dispatch, hc, loop, h, decode, decodeText]
  · simp [dispatch, hc, loop, h, decode, decodeBytes]
  · simp [dispatch, hc, loop, h, decode, decodeJson, readJson, hl]

example : (calm .text).connectRaises = false ∧ (calm .text).enc = .text := ⟨rfl, rfl⟩

/-- **C76 is false for empty texts.**  Without encoding, an empty text ends the connection with an
exception. -/
theorem C76_empty_false : ∃ (c : Ctl Str) (f : Frame) (k : Content) (d : Data Str), c.connectRaises = false ∧
    Carries f k ∧ Reads exEnv c.enc k d ∧
    dispatch exEnv c [.frame f] = ([.connected, .disconnected 1011], .raised) :=
  ⟨calm .none, ⟨some (some []), none⟩, .text [], .text [], rfl, .text _ _ (.inl rfl), .anyText _, rfl⟩

/-- **C76 is false for messages of the wrong kind** when the server names both keys: with the encoding
`text`, bytes arrive as `None`. -/
theorem C76_none_false : ∃ (c : Ctl Str) (f : Frame) (k : Content), Carries f k ∧ c.enc = .text ∧
    (∀ d, ¬ Reads exEnv c.enc k d) ∧
    dispatch exEnv c [.frame f] = ([.connected, .received .none], .waiting) :=
  ⟨calm .text, ⟨some none, some (some "b".toList)⟩, .bytes "b".toList, .bytes _ _ (.inr rfl), rfl,
    (fun _ h => nomatch h), rfl⟩

/-- **C76 is false for the code of a disconnect without code**, which is 1005: the controller is told 1000, a
normal closure. -/
theorem C76_code_false : ∃ c : Ctl Str, c.connectRaises = false ∧ clientCode none = 1005 ∧
    dispatch exEnv c [.disconnect none] = ([.connected, .disconnected 1000], .finished) :=
  ⟨calm .text, rfl, rfl, rfl⟩

/-- **C76 is false for the code of a connection that the controller closed.**  It was closed with 1003, and
`on_disconnect` is told 1011. -/
theorem C76_closed_false : ∃ (c : Ctl Str) (f : Frame),
    (dispatch exEnv c [.frame f]).1 = [.connected, .closed 1003, .disconnected 1011] :=
  ⟨calm .text, ⟨none, some (some "b".toList)⟩, rfl⟩

/-- **C76 is false for connections whose `on_connect` raises**: `on_disconnect` is not called. -/
theorem C76_connect_false : ∃ c : Ctl Str, ∀ ms, dispatch exEnv c ms = ([], .raised) :=
  ⟨⟨.text, true, fun _ _ => false⟩, fun _ => rfl⟩

/-- **C76 is false for messages of the wrong kind** when the server names both keys, also the other way round:
with the encoding `bytes`, any text arrives as `None`. -/
theorem C76_none_bytes_false (E : Env J) (c : Ctl J) (hc : c.connectRaises = false) (he : c.enc = .bytes)
    (hr : c.receiveRaises [] .none = false) (s : Str) :
    Carries ⟨some (some s), some none⟩ (.text s) ∧ (∀ d, ¬ Reads E c.enc (.text s) d) ∧
    dispatch E c [.frame ⟨some (some s), some none⟩] = ([.connected, .received .none], .waiting) := by
  refine ⟨.text _ _ (.inr rfl), ?_, ?_⟩
  · rw [he]
    exact fun _ h => nomatch h
  · simp [dispatch, hc, loop, he, decode, decodeBytes, hr]

example : dispatch exEnv (calm .bytes) [.frame ⟨some (some "a".toList), some none⟩] =
    ([.connected, .received .none], .waiting) := rfl

end Verif.SocketController
