import Verif.Relay.Spec

namespace Verif.Relay

open Spec

theorem starts_append (a b : List Msg) : starts (a ++ b) = starts a + starts b := by
  unfold starts; exact List.countP_append

theorem starts_pieces (cs : List Str) : starts (cs.map (fun c => Msg.body c true)) = 0 := by
  unfold starts
  induction cs with
  | nil => rfl
  | cons c cs ih => simp

theorem starts_whole (msgs : List Msg) (h : WholeResponse msgs) : starts msgs = 1 := by
  obtain ⟨code, pieces, last, rfl⟩ := h
  show starts ((.start code :: pieces.map (fun c => Msg.body c true)) ++ [.body last false]) = 1
  rw [starts_append]
  have : starts (.start code :: pieces.map (fun c => Msg.body c true))
      = 1 + starts (pieces.map (fun c => Msg.body c true)) := by
    unfold starts
    rw [List.countP_cons]
    simp only [if_pos]
    omega
  rw [this, starts_pieces]
  rfl

theorem loop_retry (retry : List Nat) (up : Nat → Attempt) (left n : Nat) (body : List Str)
    (h : wantsRetry (forward retry (up n).outcome).2 = true) :
    loop retry up (left + 1) n body
      = (loop retry up left (n + 1) (body.drop (up n).taken)).after body
          (forward retry (up n).outcome).1 := by
  rw [loop, if_pos h]

theorem loop_stop (retry : List Nat) (up : Nat → Attempt) (left n : Nat) (body : List Str)
    (h : wantsRetry (forward retry (up n).outcome).2 = false ∨ left = 0) :
    loop retry up left n body = stop retry (up n) body := by
  cases left with
  | zero => rfl
  | succ left =>
    rcases h with h | h
    · rw [loop, h, if_neg (by simp)]
    · cases h

theorem stop_bodies (retry : List Nat) (a : Attempt) (b : List Str) :
    (stop retry a b).bodies = [b] := by
  unfold stop
  cases giveUp (forward retry a.outcome).2 <;> rfl

theorem loop_attempts (retry : List Nat) (up : Nat → Attempt) :
    ∀ (left n : Nat) (body : List Str), (loop retry up left n body).bodies.length ≤ left + 1 := by
  intro left
  induction left with
  | zero =>
    intro n body
    rw [loop_stop retry up 0 n body (Or.inr rfl), stop_bodies]
    exact Nat.le_refl _
  | succ left ih =>
    intro n body
    cases h : wantsRetry (forward retry (up n).outcome).2 with
    | false =>
      rw [loop_stop retry up _ n body (Or.inl h), stop_bodies]
      show 1 ≤ _
      omega
    | true =>
      rw [loop_retry retry up left n body h]
      show (body :: (loop retry up left (n + 1) _).bodies).length ≤ _
      have := ih (n + 1) (body.drop (up n).taken)
      rw [List.length_cons]
      omega

/-- An attempt that is retried sent nothing, unless it broke off after the head. -/
theorem forward_retry_silent (retry : List Nat) (a : Attempt) (hu : Unbroken retry a)
    (h : wantsRetry (forward retry a.outcome).2 = true) : (forward retry a.outcome).1 = [] := by
  cases ho : a.outcome with
  | failed f => rfl
  | response code chunks broken text =>
    rw [ho] at h
    unfold forward at h ⊢
    dsimp only at h ⊢
    by_cases hc : code ∈ retry
    · rw [if_pos hc]
    · rw [if_neg hc] at h
      cases broken with
      | none => cases h
      | some f => exact absurd (hu code chunks f text ho) hc

/-- The last attempt gives one whole response. -/
theorem stop_whole (retry : List Nat) (a : Attempt) (hu : Unbroken retry a) (ht : Tame retry a) :
    ∃ msgs, giveUp (forward retry a.outcome).2 = some msgs ∧
      WholeResponse ((forward retry a.outcome).1 ++ msgs) := by
  cases ho : a.outcome with
  | failed f =>
    cases f with
    | timeout => exact ⟨_, rfl, 504, [], _, rfl⟩
    | retryable => exact ⟨_, rfl, 502, [], _, rfl⟩
    | request => exact ⟨_, rfl, 502, [], _, rfl⟩
    | other => exact absurd ho ht.1
  | response code chunks broken text =>
    unfold forward
    dsimp only
    by_cases hc : code ∈ retry
    · rw [if_pos hc]
      cases text with
      | none => exact absurd hc (ht.2 code chunks broken ho)
      | some t => exact ⟨_, rfl, code, [], t, rfl⟩
    · rw [if_neg hc]
      cases broken with
      | none =>
        refine ⟨[], rfl, code, chunks, [], ?_⟩
        rw [List.append_nil]
      | some f => exact absurd (hu code chunks f text ho) hc

theorem loop_whole (retry : List Nat) (up : Nat → Attempt)
    (hu : ∀ n, Unbroken retry (up n)) (ht : ∀ n, Tame retry (up n)) :
    ∀ (left n : Nat) (body : List Str),
      WholeResponse (loop retry up left n body).sent ∧ (loop retry up left n body).raised = false := by
  have hstop : ∀ (left n : Nat) (body : List Str),
      (wantsRetry (forward retry (up n).outcome).2 = false ∨ left = 0) →
      WholeResponse (loop retry up left n body).sent ∧ (loop retry up left n body).raised = false := by
    intro left n body h
    rw [loop_stop retry up left n body h]
    obtain ⟨msgs, h1, h2⟩ := stop_whole retry (up n) (hu n) (ht n)
    unfold stop
    rw [h1]
    exact ⟨h2, rfl⟩
  intro left
  induction left with
  | zero => intro n body; exact hstop 0 n body (Or.inr rfl)
  | succ left ih =>
    intro n body
    cases h : wantsRetry (forward retry (up n).outcome).2 with
    | false => exact hstop _ n body (Or.inl h)
    | true =>
      rw [loop_retry retry up left n body h]
      have := ih (n + 1) (body.drop (up n).taken)
      refine ⟨?_, this.2⟩
      show WholeResponse ((forward retry (up n).outcome).1 ++ _)
      rw [forward_retry_silent retry (up n) (hu n) h]
      exact this.1

theorem loop_same_body (retry : List Nat) (up : Nat → Attempt) :
    ∀ (left n : Nat) (body : List Str),
      (body = [] ∨ ∀ m, wantsRetry (forward retry (up m).outcome).2 = true → (up m).taken = 0) →
      ∀ b ∈ (loop retry up left n body).bodies, b = body := by
  intro left
  induction left with
  | zero =>
    intro n body _ b hb
    rw [loop_stop retry up 0 n body (Or.inr rfl), stop_bodies] at hb
    rcases List.mem_cons.mp hb with h | h
    · exact h
    · cases h
  | succ left ih =>
    intro n body hp b hb
    cases h : wantsRetry (forward retry (up n).outcome).2 with
    | false =>
      rw [loop_stop retry up _ n body (Or.inl h), stop_bodies] at hb
      rcases List.mem_cons.mp hb with h | h
      · exact h
      · cases h
    | true =>
      rw [loop_retry retry up left n body h] at hb
      have hb' : b ∈ body :: (loop retry up left (n + 1) (body.drop (up n).taken)).bodies := hb
      have hd : body.drop (up n).taken = body := by
        rcases hp with hp | hp
        · subst hp; exact List.drop_nil
        · rw [hp n h]; rfl
      rw [hd] at hb'
      rcases List.mem_cons.mp hb' with h1 | h1
      · exact h1
      · exact ih (n + 1) body hp b h1

theorem final_no_retry (retry : List Nat) (a : Attempt) (h : Final retry a) :
    wantsRetry (forward retry a.outcome).2 = false := by
  rcases h with ⟨code, chunks, text, ho, hc⟩ | ho | ho
  · rw [ho]; unfold forward; dsimp only; rw [if_neg hc]; rfl
  · rw [ho]; rfl
  · rw [ho]; rfl

theorem not_final_retry (retry : List Nat) (a : Attempt) (hu : Unbroken retry a)
    (h : ¬ Final retry a) : wantsRetry (forward retry a.outcome).2 = true := by
  cases ho : a.outcome with
  | failed f =>
    cases f with
    | timeout => rfl
    | retryable => rfl
    | request => exact absurd (Or.inr (Or.inl ho)) h
    | other => exact absurd (Or.inr (Or.inr ho)) h
  | response code chunks broken text =>
    unfold forward
    dsimp only
    by_cases hc : code ∈ retry
    · rw [if_pos hc]; rfl
    · cases broken with
      | none => exact absurd (Or.inl ⟨code, chunks, text, ho, hc⟩) h
      | some f => exact absurd (hu code chunks f text ho) hc

/-- The number of attempts: up to the first final one, but at most one more than the retries. -/
theorem loop_count (retry : List Nat) (up : Nat → Attempt) (hu : ∀ n, Unbroken retry (up n)) :
    ∀ (left n k : Nat) (body : List Str),
      (∀ j, j < k → ¬ Final retry (up (n + j))) →
      ((k ≤ left ∧ Final retry (up (n + k))) ∨ k = left) →
      (loop retry up left n body).bodies.length = k + 1 := by
  intro left
  induction left with
  | zero =>
    intro n k body hj hk
    have : k = 0 := by
      rcases hk with h | h
      · omega
      · exact h
    subst this
    rw [loop_stop retry up 0 n body (Or.inr rfl), stop_bodies]
    rfl
  | succ left ih =>
    intro n k body hj hk
    cases k with
    | zero =>
      have hf : Final retry (up n) := by
        rcases hk with h | h
        · exact h.2
        · omega
      rw [loop_stop retry up _ n body (Or.inl (final_no_retry retry _ hf)), stop_bodies]
      rfl
    | succ k =>
      have hn : ¬ Final retry (up n) := hj 0 (Nat.succ_pos k)
      rw [loop_retry retry up left n body (not_final_retry retry _ (hu n) hn)]
      show (_ :: (loop retry up left (n + 1) _).bodies).length = _
      rw [List.length_cons, ih (n + 1) k _ (fun j hjk => by
        have := hj (j + 1) (by omega)
        rwa [show n + 1 + j = n + (j + 1) by omega]) (by
        rcases hk with h | h
        · refine Or.inl ⟨by omega, ?_⟩
          rw [show n + 1 + k = n + (k + 1) by omega]; exact h.2
        · exact Or.inr (by omega))]

end Verif.Relay
