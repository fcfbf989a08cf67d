import Verif.Resend.Spec
import Verif.MultiDict.Lemmas

/-!
# Lemmas about response objects that are sent again
-/

namespace Verif.Resend

open Verif MultiDict Spec

/-- The object after some requests. -/
def after {ρ : Type} (layer : Layer ρ) (o : Object) : List ρ → Object
  | [] => o
  | r :: rs => after layer (send layer o r).2 rs

theorem sendAll_append {ρ : Type} (layer : Layer ρ) (o : Object) (rs ss : List ρ) :
    sendAll layer o (rs ++ ss) = sendAll layer o rs ++ sendAll layer (after layer o rs) ss := by
  induction rs generalizing o with
  | nil => rfl
  | cons r rs ih => rw [List.cons_append, sendAll, sendAll, ih, after, List.cons_append]

theorem getLast_sendAll {ρ : Type} (layer : Layer ρ) (o : Object) (before : List ρ) (r : ρ) :
    (sendAll layer o (before ++ [r])).getLast? =
      some (layer r ((after layer o before).headers, (after layer o before).body)) := by
  rw [sendAll_append]
  simp [sendAll, send]

theorem after_body {ρ : Type} (layer : Layer ρ) (o : Object) (rs : List ρ) :
    (after layer o rs).body = o.body ∧ (after layer o rs).shares = o.shares := by
  induction rs generalizing o with
  | nil => exact ⟨rfl, rfl⟩
  | cons r rs ih =>
    rw [after]
    obtain ⟨h1, h2⟩ := ih (send layer o r).2
    rw [h1, h2]
    unfold send
    simp only
    split <;> exact ⟨rfl, rfl⟩

/-- A layer that gives the same after it was applied to the headers before. -/
theorem independent_of_absorbing {ρ : Type} (layer : Layer ρ) (o : Object)
    (h : ∀ r r' hs, layer r' ((layer r (hs, o.body)).1, o.body) = layer r' (hs, o.body)) : Independent layer o := by
  intro before r
  have key : ∀ (rs : List ρ) (p : Object), p.body = o.body →
      layer r ((after layer p rs).headers, o.body) = layer r (p.headers, o.body) := by
    intro rs
    induction rs with
    | nil => intro p _; rfl
    | cons x rs ih =>
      intro p hp
      rw [after]
      have hb : (send layer p x).2.body = o.body := by
        unfold send
        simp only
        split <;> exact hp
      rw [ih _ hb]
      unfold send
      simp only
      split
      · show layer r ((layer x (p.headers, p.body)).1, o.body) = _
        rw [hp, h x r]
      · rfl
  rw [getLast_sendAll, (after_body layer o before).1, key before o rfl]
  rfl

theorem gzip_serve (c : Gzip.Codec) (min : Nat) (r hs : Headers) (b : Gzip.Bytes) :
    Gzip.serve c min r [.start hs, .body b false] =
      some [.start (gzip c min r (hs, b)).1, .body (gzip c min r (hs, b)).2 false] := by
  unfold gzip Gzip.serve
  cases hw : Gzip.wanted r with
  | false => simp
  | true =>
    rw [if_pos rfl]
    unfold Gzip.run
    simp only [Gzip.runFrom, Gzip.step, Gzip.onStart]
    cases he : (get lower hs "content-encoding".toList).isSome with
    | true => simp [Gzip.onEncoded, Gzip.initialMsg, Gzip.State.init]
    | false =>
      by_cases hl : b.length < min
      · simp [Gzip.onFirst, Gzip.initialMsg, Gzip.State.init, hl]
      · simp [Gzip.onFirst, Gzip.onStandard, Gzip.initialMsg, Gzip.State.init, Gzip.State.write, Gzip.State.close,
          compressed, hl]

end Verif.Resend
