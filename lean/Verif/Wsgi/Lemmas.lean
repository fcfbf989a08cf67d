import Verif.Wsgi.Spec

/-!
# Lemmas for C104
-/

namespace Verif.Wsgi

open Verif Verif.Wsgi.Spec

theorem body_answer (a : Answer) : bodyOf a.messages = a.body := by
  have gen : ∀ ps : List Str, bodyOf (ps.map (fun p => Msg.body p true) ++ [.body [] false]) = ps.flatten := by
    intro ps
    induction ps with
    | nil => rfl
    | cons p ps ih => rw [List.map_cons, List.cons_append, bodyOf, ih, List.flatten_cons]
  exact gen a.pieces

/-- The middleware on an answer that is an error. -/
theorem serve_error (w : World) (handlers : List (Key × Handler)) (cls : Nat) (a : Answer) (he : a.IsError) :
    serve w true handlers cls a.ran =
      match build w cls a.status (w.decode a.body) with
      | none => ⟨[], true⟩
      | some e =>
        match aget handlers (.cls e.cls) with
        | some h => if h.isAsync then ⟨h.respond e, false⟩ else ⟨[], true⟩
        | none => ⟨a.messages, false⟩ := by
  rw [← body_answer]
  exact if_pos he

/-- The middleware on an answer that is no error. -/
theorem serve_fine (w : World) (handlers : List (Key × Handler)) (cls : Nat) (a : Answer) (he : ¬a.IsError) :
    serve w true handlers cls a.ran = ⟨a.messages, false⟩ := if_neg he

theorem build_text (w : World) (cls status : Nat) (d : Str) (h : d ≠ []) :
    build w cls status d = some ⟨cls, status, d, none⟩ := by
  cases d with
  | nil => exact absurd rfl h
  | cons c s => rfl

theorem build_cls (w : World) (cls status : Nat) (d : Str) (x : Exc) (hx : build w cls status d = some x) :
    x.cls = cls := by
  unfold build at hx
  split at hx
  · cases hx; rfl
  · split at hx
    · cases hx; rfl
    · cases hx

theorem build_known (w : World) (cls status : Nat) (d p : Str) (hp : w.phrase status = some p) :
    ∃ x, build w cls status d = some x := by
  unfold build
  split
  · exact ⟨_, rfl⟩
  · rw [hp]; exact ⟨_, rfl⟩

end Verif.Wsgi
