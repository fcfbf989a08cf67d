import Verif.RelayHeaders.Spec
import Verif.Environ.Lemmas

namespace Verif.RelayHeaders

open Spec Verif.Environ

theorem oneHop_iff (k : Str) : OneHop k ↔ lower k ∈ hopByHop := by
  have h : hopByHop = connectionHeaders.map lower := by decide
  rw [h]
  constructor
  · rintro ⟨n, hn, e⟩
    exact List.mem_map.mpr ⟨n, hn, e.symm⟩
  · intro hm
    obtain ⟨n, hn, e⟩ := List.mem_map.mp hm
    exact ⟨n, hn, e.symm⟩

theorem listed_iff (k : Str) (l : List Str) : Listed k l ↔ lower k ∈ l.map lower := by
  constructor
  · rintro ⟨n, hn, e⟩
    exact List.mem_map.mpr ⟨n, hn, e.symm⟩
  · intro hm
    obtain ⟨n, hn, e⟩ := List.mem_map.mp hm
    exact ⟨n, hn, e.symm⟩

theorem skip_iff (cfg : Config) (k : Str) :
    skipRequest cfg k = true ↔ OneHop k ∨ Listed k cfg.dropRequest := by
  rw [oneHop_iff, listed_iff]
  unfold skipRequest
  rw [Bool.or_eq_true, decide_eq_true_iff, decide_eq_true_iff]

theorem mem_collected (cfg : Config) (hs : List (Str × Str)) (kv : Str × Str)
    (h : kv ∈ collected cfg hs) :
    (kv ∈ hs ∧ ¬ OneHop kv.1 ∧ ¬ Listed kv.1 cfg.dropRequest) ∨ kv ∈ cfg.extra := by
  unfold collected at h
  rcases mem_aupdate _ _ _ h with h | h
  · rcases mem_aupdate _ _ _ h with h | h
    · cases h
    · refine Or.inl ?_
      rw [List.mem_filter] at h
      have hs : ¬ (OneHop kv.1 ∨ Listed kv.1 cfg.dropRequest) := by
        rw [← skip_iff]
        intro ht
        rw [ht] at h
        cases h.2
      exact ⟨h.1, fun hh => hs (Or.inl hh), fun hh => hs (Or.inr hh)⟩
  · exact Or.inr h

theorem mem_withHost (cfg : Config) (d : List (Str × Str)) (kv : Str × Str)
    (h : kv ∈ withHost cfg d) : kv.1 = "host".toList ∧ cfg.preserveHost = false ∨ kv ∈ d := by
  unfold withHost at h
  by_cases hp : cfg.preserveHost = true
  · rw [if_pos hp] at h; exact Or.inr h
  · rw [if_neg hp] at h
    rcases mem_aset _ _ _ _ h with h | h
    · exact Or.inl ⟨congrArg Prod.fst h, Bool.not_eq_true _ ▸ hp⟩
    · exact Or.inr h

theorem mem_withForwarding (c : Client) (d : List (Str × Str)) (kv : Str × Str)
    (h : kv ∈ withForwarding c d) :
    kv.1 ∈ ["x-forwarded-for".toList, "x-forwarded-proto".toList, "x-forwarded-host".toList]
      ∨ kv ∈ d := by
  unfold withForwarding at h
  rcases mem_aset _ _ _ _ h with h | h
  · refine Or.inl ?_
    rw [congrArg Prod.fst h]
    exact List.mem_cons_of_mem _ (List.mem_cons_of_mem _ List.mem_cons_self)
  · rcases mem_aset _ _ _ _ h with h | h
    · refine Or.inl ?_
      rw [congrArg Prod.fst h]
      exact List.mem_cons_of_mem _ List.mem_cons_self
    · rcases mem_aset _ _ _ _ h with h | h
      · refine Or.inl ?_
        rw [congrArg Prod.fst h]
        exact List.mem_cons_self
      · exact Or.inr h

theorem aget_withForwarding (c : Client) (d : List (Str × Str)) (k : Str)
    (h : k ∉ ownHeaders) : aget (withForwarding c d) k = aget d k := by
  have h' : k ≠ "host".toList ∧ k ≠ "x-forwarded-for".toList ∧ k ≠ "x-forwarded-proto".toList
      ∧ k ≠ "x-forwarded-host".toList := by
    unfold ownHeaders at h
    simp only [List.mem_cons, List.not_mem_nil, or_false, not_or] at h
    exact h
  unfold withForwarding
  rw [aget_aset_ne _ _ _ _ h'.2.2.2, aget_aset_ne _ _ _ _ h'.2.2.1, aget_aset_ne _ _ _ _ h'.2.1]

theorem aget_withHost (cfg : Config) (d : List (Str × Str)) (k : Str)
    (h : k ≠ "host".toList) : aget (withHost cfg d) k = aget d k := by
  unfold withHost
  split
  · rfl
  · exact aget_aset_ne _ _ _ _ h

/-- The last value of a name among the entries. -/
theorem aget_aupdate_last_mem (hs : List (Str × Str)) (k v : Str) (pre post : List (Str × Str))
    (hs_eq : hs = pre ++ (k, v) :: post) (hlast : ∀ kv ∈ post, kv.1 ≠ k) (d : List (Str × Str)) :
    aget (aupdate d hs) k = some v := by
  subst hs_eq
  have hnone : aget post k = none := by
    rw [aget_none_iff]
    intro hm
    obtain ⟨kv, h1, h2⟩ := List.mem_map.mp hm
    exact hlast kv h1 h2
  have : aupdate d (pre ++ (k, v) :: post) = aupdate (aset (aupdate d pre) k v) post := by
    unfold aupdate
    rw [List.foldl_append, List.foldl_cons]
  rw [this, aget_aupdate_of_notmem _ _ _ hnone, aget_aset_self]

end Verif.RelayHeaders
