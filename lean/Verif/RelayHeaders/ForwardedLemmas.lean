import Verif.RelayHeaders.ForwardedSpec
import Verif.RelayHeaders.Lemmas
import Verif.SetCookie.Lemmas

/-!
# Lemmas about the forwarding headers
-/

namespace Verif.RelayHeaders

open Verif Spec

theorem aget_collected (cfg : Config) (headers : List (Str × Str)) (k : Str) (hu : Untouched cfg k)
    (h1 : ¬ OneHop k) : aget (collected cfg headers) k = lastField headers k := by
  have hnone : aget cfg.extra k = none := by
    rw [Verif.Environ.aget_none_iff]
    intro hm
    obtain ⟨kv, h1, h2⟩ := List.mem_map.mp hm
    exact hu.2 kv h1 h2
  unfold collected
  rw [aget_aupdate_of_notmem _ _ _ hnone]
  have hsk : skipRequest cfg k = false := by
    rw [← Bool.not_eq_true, skip_iff]
    rintro (h | h)
    · exact h1 h
    · exact hu.1 h
  have key : ∀ (l d : List (Str × Str)),
      aget (aupdate d (l.filter fun kv => !skipRequest cfg kv.1)) k = (lastField l k).or (aget d k) := by
    intro l
    induction l with
    | nil => intro d; rfl
    | cons kv t ih =>
      intro d
      have hl : lastField (kv :: t) k = (lastField t k).or (if kv.1 = k then some kv.2 else none) := by
        unfold lastField
        rw [List.filter_cons]
        by_cases he : kv.1 = k
        · rw [if_pos (by simpa using he), if_pos he, List.getLast?_cons]
          cases (t.filter fun kv => kv.1 = k).getLast? <;> rfl
        · rw [if_neg (by simpa using he), if_neg he, Option.or_none]
      rw [List.filter_cons, hl]
      by_cases hs : skipRequest cfg kv.1 = true
      · have hne : kv.1 ≠ k := by
          intro e
          rw [e, hsk] at hs
          cases hs
        rw [if_neg (by rw [hs]; exact Bool.false_ne_true), ih, if_neg hne, Option.or_none]
      · rw [if_pos (by simpa using hs)]
        show aget (aupdate (aset d kv.1 kv.2) _) k = _
        rw [ih, aget_aset]
        by_cases he : kv.1 = k
        · rw [if_pos he, if_pos he.symm, Option.or_assoc]
          rfl
        · rw [if_neg he, if_neg (fun e => he e.symm), Option.or_none]
  rw [key headers []]
  exact Option.or_none

theorem oneHop_for : ¬ OneHop "x-forwarded-for".toList := by rw [oneHop_iff]; decide
theorem oneHop_host : ¬ OneHop "host".toList := by rw [oneHop_iff]; decide

theorem aget_for (cfg : Config) (c : Client) (headers : List (Str × Str))
    (hu : Untouched cfg "x-forwarded-for".toList) :
    aget (prepareRequest cfg c headers) "x-forwarded-for".toList =
      some (forwardedFor (lastField headers "x-forwarded-for".toList) c.ip) := by
  unfold prepareRequest withForwarding
  dsimp only
  rw [aget_aset_ne _ _ _ _ (by decide), aget_aset_ne _ _ _ _ (by decide), aget_aset_self,
    aget_withHost _ _ _ (by decide), aget_collected cfg headers _ hu oneHop_for]

end Verif.RelayHeaders
