import Verif.Relay.Lemmas

/-!
# C36: the reverse proxy makes a bounded number of attempts and sends one response
-/

namespace Verif.Relay

open Spec

/-- **C36, the number of attempts.**  Whatever the upstream does, at most one more attempt than
the configured retries is made. -/
theorem C36_attempts (maxRetries : Nat) (retry : List Nat) (upstream : Nat → Attempt)
    (body : List Str) :
    (handle maxRetries retry upstream body).bodies.length ≤ maxRetries + 1 :=
  loop_attempts retry upstream maxRetries 0 body

/-- **C36, exactly how many.**  If no attempt breaks off in the middle of a response, the
attempts stop at the first one that settles the request, or when the retries are used up. -/
theorem C36_attempts_exact (maxRetries : Nat) (retry : List Nat) (upstream : Nat → Attempt)
    (body : List Str) (hu : ∀ n, Unbroken retry (upstream n)) (k : Nat)
    (hbefore : ∀ j, j < k → ¬ Final retry (upstream j))
    (hk : (k ≤ maxRetries ∧ Final retry (upstream k)) ∨ k = maxRetries) :
    (handle maxRetries retry upstream body).bodies.length = k + 1 :=
  loop_count retry upstream hu maxRetries 0 k body
    (fun j hj => by rw [Nat.zero_add]; exact hbefore j hj)
    (by rw [Nat.zero_add]; exact hk)

/-- An upstream for the examples: two refused connections, then a page. -/
def flaky : Nat → Attempt
  | 0 => ⟨0, .failed .retryable⟩
  | 1 => ⟨0, .failed .timeout⟩
  | _ => ⟨2, .response 200 ["hello".toList] none none⟩

example :
    handle 5 [502, 503, 504] flaky ["a".toList, "b".toList]
      = ⟨[["a".toList, "b".toList], ["a".toList, "b".toList], ["a".toList, "b".toList]],
         [.start 200, .body "hello".toList true, .body [] false], false⟩ := by decide

example : (handle 1 [502, 503, 504] flaky []).bodies.length = 2 ∧
    (handle 1 [502, 503, 504] flaky []).sent = sendText 504 "Gateway Timeout".toList := by decide

/-- **C36, one response, the part that holds.**  If no attempt breaks off after the response head
was passed on, and no attempt ends with a foreign exception or an unreadable retryable
response, the client gets exactly one whole response, with one response start, for any number
of retries.

The full property has no such conditions; it is false without them, see below. -/
theorem C36_one_response_partial (maxRetries : Nat) (retry : List Nat) (upstream : Nat → Attempt)
    (body : List Str) (hu : ∀ n, Unbroken retry (upstream n)) (ht : ∀ n, Tame retry (upstream n)) :
    WholeResponse (handle maxRetries retry upstream body).sent ∧
    starts (handle maxRetries retry upstream body).sent = 1 ∧
    (handle maxRetries retry upstream body).raised = false := by
  have h := loop_whole retry upstream hu ht maxRetries 0 body
  exact ⟨h.1, starts_whole _ h.1, h.2⟩

/-- The flaky upstream meets the conditions. -/
example : (∀ n, Unbroken [502] (flaky n)) ∧ (∀ n, Tame [502] (flaky n)) := by
  constructor
  · intro n code chunks f text h
    match n, h with
    | 0, h => cases h
    | 1, h => cases h
    | n + 2, h => cases h
  · intro n
    match n with
    | 0 => exact ⟨by decide, (fun c ch b h => by cases h)⟩
    | 1 => exact ⟨by decide, (fun c ch b h => by cases h)⟩
    | n + 2 => exact ⟨(fun h => by cases h), (fun c ch b h => by cases h; decide)⟩

/-- **C36, the answer when every attempt fails.**  When the upstream cannot be reached in any attempt, the client
gets 504 with the text "Gateway Timeout" if the attempts timed out, and 502 with a text that begins with
"Upstream error: " if they failed otherwise. -/
theorem C36_unreachable (maxRetries : Nat) (retry : List Nat) (upstream : Nat → Attempt) (body : List Str) :
    ((∀ n, (upstream n).outcome = .failed .timeout) →
      (handle maxRetries retry upstream body).sent = [.start 504, .body "Gateway Timeout".toList false]) ∧
    ((∀ n, (upstream n).outcome = .failed .retryable) ∨ (∀ n, (upstream n).outcome = .failed .request) →
      (handle maxRetries retry upstream body).sent = [.start 502, .body "Upstream error: ".toList false]) := by
  have key : ∀ (f : Failure) (msgs : List Msg), giveUp (.failure f) = some msgs →
      (∀ n, (upstream n).outcome = .failed f) → ∀ left n body, (loop retry upstream left n body).sent = msgs := by
    intro f msgs hg hf left
    induction left with
    | zero =>
      intro n body
      unfold loop stop
      rw [hf n]
      show (match giveUp (.failure f) with
        | some msgs => (⟨[body], [] ++ msgs, false⟩ : Trace)
        | none => ⟨[body], [], true⟩).sent = msgs
      rw [hg]
      rfl
    | succ left ih =>
      intro n body
      unfold loop
      by_cases hw : wantsRetry (forward retry (upstream n).outcome).2 = true
      · rw [if_pos hw]
        show (forward retry (upstream n).outcome).1 ++ _ = msgs
        rw [hf n]
        exact ih _ _
      · rw [if_neg hw]
        unfold stop
        rw [hf n]
        show (match giveUp (.failure f) with
          | some msgs => (⟨[body], [] ++ msgs, false⟩ : Trace)
          | none => ⟨[body], [], true⟩).sent = msgs
        rw [hg]
        rfl
  refine ⟨fun h => key .timeout _ rfl h _ _ _, ?_⟩
  rintro (h | h)
  · exact key .retryable _ rfl h _ _ _
  · exact key .request _ rfl h _ _ _

example : (handle 3 [503] (fun _ => ⟨0, .failed .retryable⟩) []).sent =
    [.start 502, .body "Upstream error: ".toList false] := by decide

/-- **C36, the same body, the part that holds.**  If the request has no body, or every attempt
that is retried failed before taking anything from the body, all attempts get the whole body. -/
theorem C36_same_body_partial (maxRetries : Nat) (retry : List Nat) (upstream : Nat → Attempt)
    (body : List Str)
    (h : body = [] ∨ ∀ n, wantsRetry (forward retry (upstream n).outcome).2 = true →
      (upstream n).taken = 0) :
    ∀ b ∈ (handle maxRetries retry upstream body).bodies, b = body :=
  loop_same_body retry upstream maxRetries 0 body h

/-- The flaky upstream takes the body only in its last attempt. -/
example : ∀ n, wantsRetry (forward [502] (flaky n).outcome).2 = true → (flaky n).taken = 0 := by
  intro n h
  match n, h with
  | 0, _ => rfl
  | 1, _ => rfl
  | n + 2, h => cases h

/-- **C36 is false of the body**: an upstream that reads the request and answers 503 gets an
empty body the second time, because the body iterator is created once. -/
theorem C36_body_false :
    (handle 1 [503]
        (fun n => if n = 0 then ⟨2, .response 503 [] none (some [])⟩
          else ⟨0, .response 200 [] none none⟩) ["a".toList, "b".toList]).bodies
      = [["a".toList, "b".toList], []] := by decide

/-- **C36 is false of the response start**: a response that breaks off after its first chunk is
followed by a second response start — an error text, or another attempt's response. -/
theorem C36_two_starts_false :
    (handle 0 [503] (fun _ => ⟨0, .response 200 ["ab".toList] (some .timeout) none⟩) []).sent
      = [.start 200, .body "ab".toList true, .start 504, .body "Gateway Timeout".toList false] ∧
    starts (handle 1 [503]
        (fun n => if n = 0 then ⟨0, .response 200 ["ab".toList] (some .retryable) none⟩
          else ⟨0, .response 200 ["abcd".toList] none none⟩) []).sent = 2 := by decide

/-- **C36 is false of a retryable status that is left at the end**: the streamed response has not
been read, so asking for its text raises and the client gets no response at all. -/
theorem C36_no_response_false :
    handle 0 [502, 503, 504] (fun _ => ⟨0, .response 503 ["busy".toList] none none⟩) []
      = ⟨[[]], [], true⟩ := by decide

end Verif.Relay
