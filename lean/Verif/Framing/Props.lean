import Verif.Framing.Lemmas

/-!
# C162: pages in frames
-/

namespace Verif.Framing.Props

open Verif Verif.Framing.Spec Verif.SecurityHeaders Verif.SecurityHeaders.Spec

/-- **C162**, others: behind any of the middlewares, in any number and order, with `DENY` or `SAMEORIGIN`, no page is
shown
in a frame of another origin.

The full statement has all headers of handlers and all settings; other words, and policies that speak of frames, let
    pages
through (`C162_handler_false`, `C162_value_false`, `C162_policy_false`). -/
theorem C162_foreign_partial (csp : List (List Str) → Bool) (headers : List (Str × Str)) (ls : List Layer) (hn : ls ≠
    [])
    (hh : Strict (options headers)) (ha : ancestors headers = []) (hs : ∀ l ∈ ls, Silent l)
    (hw : ∀ l ∈ ls, Strict (frameWords (written l))) : shown csp (page headers ls) false = false := by
  cases h : shown csp (page headers ls) false with
  | false => rfl
  | true =>
    exact absurd ((shown_strict csp _ false (page_silent ls headers hs ha) (page_all _ ls headers hw hh)
      (page_some ls headers hn)).1 h).1 (by decide)

/-- **C162**, the own origin: if all say `SAMEORIGIN`, the pages of the application show it in frames; if the handler
or a
security middleware says `DENY`, they do not. -/
theorem C162_own_partial (csp : List (List Str) → Bool) (headers : List (Str × Str)) (ls : List Layer) (hn : ls ≠ [])
    (hh : Strict (options headers)) (ha : ancestors headers = []) (hs : ∀ l ∈ ls, Silent l)
    (hw : ∀ l ∈ ls, Strict (frameWords (written l))) :
    ((∀ w ∈ options headers, w = sameorigin) → (∀ l ∈ ls, ∀ w ∈ frameWords (written l), w = sameorigin) →
      shown csp (page headers ls) true = true) ∧
    ((deny ∈ options headers ∨ ∃ c, .security c ∈ ls ∧ deny ∈ frameWords c.frame) →
      shown csp (page headers ls) true = false) := by
  have key := shown_strict csp (page headers ls) true (page_silent ls headers hs ha) (page_all _ ls headers hw hh)
    (page_some ls headers hn)
  refine ⟨fun h1 h2 => key.2 ⟨rfl, page_all _ ls headers h2 h1⟩, fun h => ?_⟩
  have hd : deny ∈ options (page headers ls) := by
    rcases h with h | ⟨c, hc, h⟩
    · exact page_keeps ls headers _ h
    · obtain ⟨inner, outer, e⟩ := List.append_of_mem hc
      have : ∀ (xs ys : List Layer) (hs : List (Str × Str)), page hs (xs ++ ys) = page (page hs xs) ys := by
        intro xs
        induction xs with
        | nil => exact fun _ _ => rfl
        | cons x xs ih =>
          intro ys hs
          obtain ⟨out, e1, _⟩ := send_headers x hs
          rw [List.cons_append, page, e1, page, e1]
          exact ih ys out
      rw [e, this]
      obtain ⟨out, e1, e2, _⟩ := page_cons (page headers inner) (.security c) outer
      rw [e1]
      refine page_keeps outer out _ ?_
      rw [e2]
      exact List.mem_append_right _ h
  cases hsh : shown csp (page headers ls) true with
  | false => rfl
  | true => exact absurd ((key.1 hsh).2 deny hd) (by decide)

/-- **C162**, the word of the handler: behind frame middlewares alone, what the handler says stands, whatever the
settings
are. -/
theorem C162_handler (csp : List (List Str) → Bool) (headers : List (Str × Str)) (settings : List (Option Str))
    (h : options headers ≠ []) (same : Bool) :
    shown csp (page headers (settings.map .frame)) same = shown csp headers same := by
  have key : ∀ (ss : List (Option Str)) (hs : List (Str × Str)), options hs ≠ [] →
      options (page hs (ss.map .frame)) = options hs ∧ ancestors (page hs (ss.map .frame)) = ancestors hs := by
    intro ss
    induction ss with
    | nil => exact fun _ _ => ⟨rfl, rfl⟩
    | cons s ss ih =>
      intro hs hne
      obtain ⟨out, h1, h2, h3⟩ := page_cons hs (.frame s) (ss.map .frame)
      simp only [if_neg hne] at h2 h3
      rw [List.map_cons, h1, ← h2, ← h3]
      exact ih out (by rw [h2]; exact hne)
  obtain ⟨k1, k2⟩ := key settings headers h
  unfold shown
  rw [k1, k2]

/-! ## Examples -/

/-- A security middleware. -/
def security (policy frame : String) : Config := ⟨policy.toList, [], [], [], [], frame.toList, []⟩

theorem strict_nil : Strict (options []) := fun _ h => absurd h List.not_mem_nil

example (csp : List (List Str) → Bool) : shown csp (page [] [.frame (some "sameorigin".toList),
    .security (security "default-src 'self'" "DENY")]) false = false := by
  refine C162_foreign_partial csp [] _ (List.cons_ne_nil _ _) strict_nil rfl ?_ ?_
  · intro l hl
    rcases List.mem_cons.1 hl with e | e
    · rw [e]; exact trivial
    · rw [List.mem_singleton.1 e]; exact (by decide +kernel :
        effective (security "default-src 'self'" "DENY").policy "frame-ancestors".toList = none)
  · intro l hl
    rcases List.mem_cons.1 hl with e | e
    · rw [e]; unfold Strict; decide +kernel
    · rw [List.mem_singleton.1 e]; unfold Strict; decide +kernel

example (csp : List (List Str) → Bool) : shown csp (page [] [.frame (some "sameorigin".toList)]) true = true := by
  refine (C162_own_partial csp [] [.frame (some "sameorigin".toList)] (List.cons_ne_nil _ _) strict_nil rfl ?_ ?_).1
    (fun _ h => absurd h List.not_mem_nil) ?_
  · intro l hl; rw [List.mem_singleton.1 hl]; exact trivial
  · intro l hl; rw [List.mem_singleton.1 hl]; unfold Strict; decide +kernel
  · intro l hl; rw [List.mem_singleton.1 hl]; decide +kernel

example (csp : List (List Str) → Bool) (same : Bool) :
    shown csp (page [("X-Frame-Options".toList, "SAMEORIGIN".toList)] [.frame none]) same =
      shown csp [("X-Frame-Options".toList, "SAMEORIGIN".toList)] same :=
  C162_handler csp _ [none] (by decide +kernel) same

/-! ## Where it fails -/

/-- A word without meaning in the settings, such as the old `ALLOW-FROM`, opens the page to everyone. -/
theorem C162_value_false (csp : List (List Str) → Bool) :
    shown csp (page [] [.frame (some "allow-from https://good.com".toList)]) false = true := by
  have h : ancestors (page [] [.frame (some "allow-from https://good.com".toList)]) = [] := by decide +kernel
  have ho : options (page [] [.frame (some "allow-from https://good.com".toList)]) =
      ["allow-from https://good.com".toList] := by decide +kernel
  unfold shown
  rw [if_neg (fun hn => hn h), ho]
  decide +kernel

/-- So does an empty value of a handler: the header is there, and the middleware adds none. -/
theorem C162_handler_false (csp : List (List Str) → Bool) :
    shown csp (page [("X-Frame-Options".toList, [])] [.frame none]) false = true := by
  have h : ancestors (page [("X-Frame-Options".toList, [])] [.frame none]) = [] := by decide +kernel
  have ho : options (page [("X-Frame-Options".toList, [])] [.frame none]) = [[]] := by decide +kernel
  unfold shown
  rw [if_neg (fun hn => hn h), ho]
  decide +kernel

/-- A policy that speaks of frames sets the frame options aside, `DENY` as well. -/
theorem C162_policy_false (csp : List (List Str) → Bool) (h : csp [["*".toList]] = true) :
    shown csp (page [] [.frame none, .security (security "frame-ancestors *" "DENY")]) false = true := by
  have ha : ancestors (page [] [.frame none, .security (security "frame-ancestors *" "DENY")]) = [["*".toList]] := by
    decide +kernel
  unfold shown
  rw [if_pos (by rw [ha]; exact List.cons_ne_nil _ _), ha, h]

/-- Behind the security middleware a handler cannot allow its own origin: two different words are a refusal. -/
theorem C162_loosen_false (csp : List (List Str) → Bool) :
    shown csp (page [("X-Frame-Options".toList, "SAMEORIGIN".toList)] [.security (security "default-src 'self'"
        "DENY")])
      true = false := by
  refine (C162_own_partial csp _ _ (List.cons_ne_nil _ _) (by unfold Strict; decide +kernel) (by decide +kernel) ?_
      ?_).2
    (.inr ⟨_, List.mem_singleton.2 rfl, by decide +kernel⟩)
  · intro l hl; rw [List.mem_singleton.1 hl]; exact (by decide +kernel :
      effective (security "default-src 'self'" "DENY").policy "frame-ancestors".toList = none)
  · intro l hl; rw [List.mem_singleton.1 hl]; unfold Strict; decide +kernel

end Verif.Framing.Props
