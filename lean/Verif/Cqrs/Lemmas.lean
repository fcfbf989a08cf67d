import Verif.Cqrs.Spec

/-!
# Lemmas for C35
-/

namespace Verif.Cqrs

open Verif Spec

theorem runChain_onion {M V : Type} (mws : List (Middleware M V)) (term : M → Comp M V) (pre : List (Middleware M V)) :
    runChain (pre ++ mws) term mws.length pre.length = onion mws term := by
  induction mws generalizing pre with
  | nil => funext msg; rfl
  | cons mw mws ih =>
    funext msg
    rw [List.length_cons, runChain]
    have : (pre ++ mw :: mws)[pre.length]? = some mw := by simp
    rw [this]
    dsimp only
    have h2 := ih (pre ++ [mw])
    rw [List.append_assoc, List.length_append, List.length_singleton] at h2
    rw [onion]
    have h3 : (fun n => runChain (pre ++ mw :: mws) term mws.length (pre.length + 1) n) = onion mws term := h2
    rw [h3]

theorem onion_around {M V : Type} (code : Nat → M → Comp M V) (h : Nat) (answer : M → Except Err V)
    (hcode : ∀ m t, code h m t = (answer m, t)) (as : List (Around M V)) (msg : M) (t : List (Ev M)) :
    onion (as.map Around.run) (terminal code h) msg t = expected h answer as msg t := by
  induction as generalizing msg t with
  | nil =>
    rw [List.map_nil, onion, terminal, hcode]
    unfold expected
    simp only [changed, List.foldl_nil, results, List.foldr_nil, wayIn, wayOut, List.append_nil]
    cases answer msg <;> rfl
  | cons a as ih =>
    have hrun : onion ((a :: as).map Around.run) (terminal code h) msg t =
        (match onion (as.map Around.run) (terminal code h) (a.change msg) (t ++ [.mark a.inMark msg]) with
        | (.ok v, t') => (.ok (a.result v), t' ++ [.mark a.outMark msg])
        | (.error e, t') => (.error e, t')) := rfl
    rw [hrun, ih]
    unfold expected
    simp only [changed, List.foldl_cons, results, List.foldr_cons, wayIn, wayOut]
    cases answer (List.foldl (fun m a => a.change m) (a.change msg) as) with
    | ok v => simp
    | error e => simp

theorem sinceClear_snoc_clear (ops : List Op) : sinceClear (ops ++ [.clear]) = [] := by
  unfold sinceClear
  simp

theorem sinceClear_snoc_register (ops : List Op) (ty h : Nat) :
    sinceClear (ops ++ [.register ty h]) = sinceClear ops ++ [.register ty h] := by
  unfold sinceClear
  simp

theorem apply_refused {r : Registry} {ty x : Nat} (h : aget r ty = some x) (h' : Nat) :
    apply r (.register ty h') = r := by
  unfold apply
  dsimp only
  unfold register
  rw [h]

theorem apply_new {r : Registry} {ty : Nat} (h : aget r ty = none) (h' : Nat) :
    apply r (.register ty h') = aset r ty h' := by
  unfold apply
  dsimp only
  unfold register
  rw [h]

theorem aget_apply (ops : List Op) (ty : Nat) : aget (ops.foldl apply []) ty = handlerOf ty ops := by
  suffices H : ∀ n (ops : List Op), ops.length = n → ∀ ty, aget (ops.foldl apply []) ty = handlerOf ty ops from
    H _ ops rfl ty
  intro n
  induction n with
  | zero =>
    intro ops h ty
    rw [List.length_eq_zero_iff.1 h]
    rfl
  | succ n ih =>
    intro ops h ty
    rcases List.eq_nil_or_concat ops with rfl | ⟨l, o, rfl⟩
    · cases h
    · rw [List.concat_eq_append] at h ⊢
      have hl : l.length = n := by simpa using h
      rw [List.foldl_append, List.foldl_cons, List.foldl_nil]
      cases o with
      | clear =>
        unfold handlerOf
        rw [sinceClear_snoc_clear]
        rfl
      | register ty' h' =>
        unfold handlerOf
        rw [sinceClear_snoc_register, handlersFor, List.filterMap_append, List.head?_append]
        have hi := ih l hl
        have hi1 := hi ty
        have hi2 := hi ty'
        unfold handlerOf handlersFor at hi1 hi2
        rw [← hi1]
        cases hg : aget (l.foldl apply []) ty' with
        | some x =>
          rw [apply_refused hg]
          by_cases e : ty' = ty
          · subst e
            rw [hg]
            rfl
          · simp [e]
        | none =>
          rw [apply_new hg]
          by_cases e : ty' = ty
          · subst e
            rw [hg, aget_aset_self]
            simp
          · rw [aget_aset_ne _ _ _ _ (Ne.symm e)]
            simp [e]

end Verif.Cqrs
