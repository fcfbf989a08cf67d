import Verif.RelayRequest.Lemmas

/-!
# The reverse proxy, the body of a request: properties

C130: the upstream server gets the body that the client sent, and it gets a complete request only if the client sent
all of it; a request with the method `GET`, `HEAD` or `OPTIONS` arrives without its body.  This is false of clients
that leave while they send a body without a length (`C130_truncated_false`), and of requests with a body, its length
and a method such as `GET` (`C130_get_false`).
-/

namespace Verif.RelayRequest.Props

open Verif.RelayRequest Spec

/-- The body of a client that sends all of it arrives, whatever the pieces; the length, if announced, is right.
Missing: the methods `GET`, `HEAD` and `OPTIONS`. -/
theorem C130_partial (m : Str) (length : Option Nat) (es : List Event) (x : Str) (hm : ¬ Bodiless m)
    (hs : Sends es x) (hl : ∀ n, length = some n → n = x.length) : request m length es = .complete x := by
  obtain ⟨h1, h2⟩ := iter_sends hs
  rw [request, if_neg (fun h => hm ((bodiless_iff m).mp h))]
  cases length with
  | none => simp [framed, h1, h2]
  | some n => simp [framed, h1, h2, hl n rfl]

example : ¬ Bodiless "POST".toList := by unfold Bodiless; decide +kernel

example : Sends [.piece "ab".toList true, .other, .piece [] true, .piece "c".toList false, .gone] "abc".toList :=
  .more "ab".toList _ _ (.other _ _ (.more [] _ _ (.last "c".toList _)))

example : request "POST".toList (some 3) [.piece "ab".toList true, .other, .piece "c".toList false, .gone] =
    .complete "abc".toList := by decide +kernel

/-- If the request announces the length of its body, a complete request has exactly that length, and what arrived
is what was sent so far: nothing that was cut off passes for complete. -/
theorem C130_length (m : Str) (n : Nat) (es : List Event) (b : Str) (hm : ¬ Bodiless m)
    (h : request m (some n) es = .complete b) : b.length = n ∧ (Sends es b ∨ Leaves es b) := by
  rw [request, if_neg (fun h => hm ((bodiless_iff m).mp h)), framed] at h
  split at h
  · cases h
  · split at h
    · cases h
    · rename_i hw
      split at h
      · rename_i hl
        cases h
        refine ⟨hl, iter_ended ?_⟩
        cases he : (bodyIter es).2 with
        | ended => rfl
        | waiting => exact absurd he hw
      · cases h

example : request "PUT".toList (some 3) [.piece "abc".toList true, .gone] = .complete "abc".toList := by
  decide +kernel

/-- A client that leaves before the announced length is reached: the request is cut off for the upstream server
too. -/
theorem C130_left (m : Str) (n : Nat) (es : List Event) (x : Str) (hm : ¬ Bodiless m) (hs : Leaves es x)
    (hn : x.length < n) : request m (some n) es = .cut := by
  obtain ⟨h1, h2⟩ := iter_leaves hs
  rw [request, if_neg (fun h => hm ((bodiless_iff m).mp h)), framed]
  simp only [h1, h2]
  rw [if_neg (by omega), if_neg (by decide), if_neg (by omega)]

example : Leaves [.piece "ab".toList true, .gone] "ab".toList := .more "ab".toList [] _ (.gone [])

example : request "PUT".toList (some 3) [.piece "ab".toList true, .gone] = .cut := by decide +kernel

/-- Without an announced length, the part that a client sent before it left arrives as a complete request. -/
theorem C130_truncated_false (m : Str) (es : List Event) (x : Str) (hm : ¬ Bodiless m) (hs : Leaves es x) :
    request m none es = .complete x := by
  obtain ⟨h1, h2⟩ := iter_leaves hs
  rw [request, if_neg (fun h => hm ((bodiless_iff m).mp h)), framed]
  simp [h1, h2]

example : request "PUT".toList none [.piece "ab".toList true, .gone] = .complete "ab".toList := by decide +kernel

/-- A request with the method `GET`, `HEAD` or `OPTIONS` and the length of its body fails. -/
theorem C130_get_false (m : Str) (es : List Event) (x : Str) (hm : Bodiless m) (_ : Sends es x) (hx : x ≠ []) :
    request m (some x.length) es = .cut := by
  rw [request, if_pos ((bodiless_iff m).mpr hm), framed]
  have : x.length ≠ 0 := fun h => hx (List.eq_nil_of_length_eq_zero h)
  simp [this]

/-- Without the length, it arrives with no body.  Missing: requests with the length. -/
theorem C130_get_partial (m : Str) (es : List Event) (x : Str) (hm : Bodiless m) (_ : Sends es x) :
    request m none es = .complete [] := by
  rw [request, if_pos ((bodiless_iff m).mpr hm), framed]

example : Bodiless "GET".toList := .inl rfl

example : request "GET".toList (some 2) [.piece "{}".toList false] = .cut ∧
    request "GET".toList none [.piece "{}".toList false] = .complete [] := by decide +kernel

end Verif.RelayRequest.Props
