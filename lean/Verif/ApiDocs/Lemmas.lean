import Verif.ApiDocs.Spec

/-!
# Lemmas for C103
-/

namespace Verif.ApiDocs

open Verif Verif.ApiDocs.Spec

theorem isSet_iff (o : Option Str) : isSet o = true ↔ ∃ u, o = some u ∧ u ≠ [] := by
  match o with
  | none => simp [isSet]
  | some [] => simp [isSet]
  | some (c :: s) => simp [isSet]

theorem mem_route (b : Bool) (u : Option Str) (p : Page) (x : Str × Page) :
    x ∈ route b u p ↔ b = true ∧ x = (u.getD [], p) := by
  unfold route
  cases b <;> simp

/-- What the state is made of. -/
theorem after_inv (c : Config) (asked : List Str) :
    (∀ u, u ∈ (after c asked).servers ↔ u ∈ (after c asked).known) ∧
      (∀ u, u ∈ (after c asked).servers ↔ u ∈ c.servers ∨
        c.rootPathInServers = true ∧ u ≠ [] ∧ u ∈ asked.map rootOf) := by
  unfold after
  have gen : ∀ (asked done : List Str) (s : State), (∀ u, u ∈ s.servers ↔ u ∈ s.known) →
      (∀ u, u ∈ s.servers ↔ u ∈ c.servers ∨ c.rootPathInServers = true ∧ u ≠ [] ∧ u ∈ done) →
      (∀ u, u ∈ (asked.foldl (note c) s).servers ↔ u ∈ (asked.foldl (note c) s).known) ∧
      (∀ u, u ∈ (asked.foldl (note c) s).servers ↔ u ∈ c.servers ∨
        c.rootPathInServers = true ∧ u ≠ [] ∧ u ∈ done ++ asked.map rootOf) := by
    intro asked
    induction asked with
    | nil => intro done s h1 h2; simpa using ⟨h1, h2⟩
    | cons a as ih =>
      intro done s h1 h2
      have step : (∀ u, u ∈ (note c s a).servers ↔ u ∈ (note c s a).known) ∧
          (∀ u, u ∈ (note c s a).servers ↔ u ∈ c.servers ∨
            c.rootPathInServers = true ∧ u ≠ [] ∧ u ∈ done ++ [rootOf a]) := by
        unfold note
        split
        · rename_i hk
          refine ⟨h1, fun u => ?_⟩
          rw [h2 u]
          have ha := (h2 (rootOf a)).1 ((h1 _).2 hk)
          constructor
          · rintro (h | ⟨p, q, r⟩)
            · exact .inl h
            · exact .inr ⟨p, q, List.mem_append_left _ r⟩
          · rintro (h | ⟨p, q, r⟩)
            · exact .inl h
            · rcases List.mem_append.1 r with r | r
              · exact .inr ⟨p, q, r⟩
              · rw [List.mem_singleton] at r; subst r; exact ha
        · split
          · rename_i hk hr
            constructor
            · intro u; simp only [List.mem_cons, h1 u]
            · intro u
              simp only [List.mem_cons, h2 u, List.mem_append, List.not_mem_nil, or_false]
              constructor
              · rintro (rfl | h | ⟨p, q, r⟩)
                · exact .inr ⟨hr.2, hr.1, .inr rfl⟩
                · exact .inl h
                · exact .inr ⟨p, q, .inl r⟩
              · rintro (h | ⟨p, q, r | r⟩)
                · exact .inr (.inl h)
                · exact .inr (.inr ⟨p, q, r⟩)
                · exact .inl r
          · rename_i hk hr
            refine ⟨h1, fun u => ?_⟩
            rw [h2 u]
            constructor
            · rintro (h | ⟨p, q, r⟩)
              · exact .inl h
              · exact .inr ⟨p, q, List.mem_append_left _ r⟩
            · rintro (h | ⟨p, q, r⟩)
              · exact .inl h
              · rcases List.mem_append.1 r with r | r
                · exact .inr ⟨p, q, r⟩
                · rw [List.mem_singleton] at r; subst r
                  exact absurd ⟨q, p⟩ hr
      have := ih (done ++ [rootOf a]) (note c s a) step.1 step.2
      simpa [List.append_assoc] using this
  have := gen asked [] (start c) (fun u => Iff.rfl) (fun u => by simp [start])
  simpa using this

theorem after_append (c : Config) (before : List Str) (r : Str) :
    note c (after c before) r = after c (before ++ [r]) := by
  simp [after]

theorem nodup_after (c : Config) (asked : List Str) (h : c.servers.Nodup) : (after c asked).servers.Nodup := by
  have gen : ∀ l : List Str, (after c l.reverse).servers.Nodup := by
    intro l
    induction l with
    | nil => exact h
    | cons a as ih =>
      rw [List.reverse_cons, ← after_append]
      unfold note
      split
      · exact ih
      · split
        · rename_i hk _
          exact List.nodup_cons.2 ⟨fun hm => hk (((after_inv c as.reverse).1 _).1 hm), ih⟩
        · exact ih
  have := gen asked.reverse
  rwa [List.reverse_reverse] at this

theorem starts_close (t : Str) (c : Char) (s : Str) (h : c ≠ '<') : startsWith (c :: s) ('<' :: t) = false := by
  simp [startsWith, List.isPrefixOf, Ne.symm h]

theorem readTitle_value (v rest : Str) (h : ∀ c ∈ v, c ≠ '<') :
    readTitle (v ++ "</title>".toList ++ rest) = v := by
  induction v with
  | nil =>
    have e : ([] : Str) ++ "</title>".toList ++ rest = '<' :: ("/title>".toList ++ rest) := rfl
    rw [e, readTitle, if_pos]
    rfl
  | cons c v ih =>
    have e : c :: v ++ "</title>".toList ++ rest = c :: (v ++ "</title>".toList ++ rest) := rfl
    rw [e, readTitle, if_neg, ih (fun d hd => h d (List.mem_cons_of_mem _ hd))]
    have : startsWith (c :: (v ++ "</title>".toList ++ rest)) "</title".toList = false :=
      starts_close "/title".toList c _ (h c List.mem_cons_self)
    rw [this]; decide

theorem readAttribute_value (v rest : Str) (h : ∀ c ∈ v, c ≠ '"') :
    readAttribute (v ++ "\"".toList ++ rest) = v := by
  induction v with
  | nil => rfl
  | cons c v ih =>
    have e : c :: v ++ "\"".toList ++ rest = c :: (v ++ "\"".toList ++ rest) := rfl
    rw [e, readAttribute, if_neg (h c List.mem_cons_self), ih (fun d hd => h d (List.mem_cons_of_mem _ hd))]

theorem readScript_value (v rest : Str) (h : ∀ c ∈ v, c ≠ '\'' ∧ c ≠ '\\' ∧ c ≠ '\n' ∧ c ≠ '\r') :
    readScript (v ++ "'".toList ++ rest) = some (v, rest) := by
  induction v with
  | nil => rfl
  | cons c v ih =>
    have e : c :: v ++ "'".toList ++ rest = c :: (v ++ "'".toList ++ rest) := rfl
    obtain ⟨h1, h2, h3, h4⟩ := h c List.mem_cons_self
    rw [e, readScript, if_neg h1, if_neg (by simp [h3, h4]), ih (fun d hd => h d (List.mem_cons_of_mem _ hd))]
    · rfl
    · intro d s hc _
      exact h2 hc

end Verif.ApiDocs
