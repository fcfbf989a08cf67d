import Verif.SocketFactory.Spec

/-!
# Lemmas about controllers with constructor arguments
-/

namespace Verif.SocketFactory

open Spec

variable {A C : Type}

theorem run_wraps {c : Cls A} {n : Nat} {a : A} (h : Wraps c n a) (s : St C) (conn : C) (b : A) :
    (run s c conn b).2 = some ⟨n, conn, a⟩ := by
  induction h generalizing s b with
  | once i n a => simp [run]
  | again i n c a b' _ ih => simp [run, ih]

theorem inner_below {c : Cls A} {n : Nat} {a : A} (h : Below c n a) (s : St C) (conn : C) :
    (inner s c conn).2 = some ⟨n, conn, a⟩ := by
  induction h generalizing s with
  | top c n a hw =>
    cases hw with
    | once i n a => simp [inner, run]
    | again i n c a b hw => simp [inner, run_wraps hw]
  | sub i n p a _ ih => simp [inner, ih]

/-- Nothing is unmade. -/
def Le (s t : St C) : Prop := ∀ k, s.made k = true → t.made k = true

theorem Le.refl (s : St C) : Le s s := fun _ h => h

theorem Le.trans {s t u : St C} (h : Le s t) (h' : Le t u) : Le s u := fun k hk => h' k (h k hk)

theorem le_mark (s : St C) (i : Nat) : Le s (s.mark i) := by
  intro k hk
  simp [St.mark, hk]

theorem le_store (s : St C) (i : Nat) (c : C) : Le s (s.store i c) := by
  intro k hk
  simp [St.store, St.mark, hk]

mutual
theorem le_run (s : St C) (c : Cls A) (conn : C) (a : A) : Le s (run s c conn a).1 := by
  cases c with
  | plain n => rw [run]; exact Le.refl s
  | factory i base b => rw [run]; exact Le.trans (le_store s i conn) (le_run _ base conn b)
  | sub i p =>
    rw [run]
    split
    · exact Le.trans (le_store s i conn) (le_inner _ p conn)
    · split
      · exact Le.trans (le_store s i conn) (le_inner _ p conn)
      · split
        · exact Le.refl s
        · exact le_inner _ p _
theorem le_inner (s : St C) (c : Cls A) (conn : C) : Le s (inner s c conn).1 := by
  cases c with
  | plain n => rw [inner]; exact Le.refl s
  | factory i base b => rw [inner]; exact le_run _ base conn b
  | sub i p => rw [inner]; exact le_inner _ p conn
end

theorem le_empty (s : St C) (c : Cls A) : Le s (empty s c) := by
  cases c with
  | plain n => exact Le.refl s
  | factory i base b => exact le_mark s i
  | sub i p =>
    rw [empty]
    split
    · exact Le.refl s
    · exact le_mark s i

theorem le_step (a0 : A) (s : St C) (x : Step A C) : Le s (step a0 s x).1 := by
  cases x with
  | connect c conn => exact le_run s c conn a0
  | call c conn => exact Le.trans (le_empty s c) (le_inner _ c conn)
  | make c conn =>
    cases c with
    | plain n => exact Le.refl s
    | factory i base b => exact le_store s i conn
    | sub i p =>
      show Le s (build s (.sub i p) conn)
      rw [build]
      split
      · exact le_store s i conn
      · exact Le.refl s
  | wait c =>
    show Le s (wait s c).1
    rw [wait]
    split
    · exact Le.refl s
    · split
      · exact le_empty s c
      · exact Le.trans (le_empty s c) (le_inner _ c _)

theorem le_after (a0 : A) (s : St C) (h : List (Step A C)) : Le s (after a0 s h) := by
  induction h generalizing s with
  | nil => exact Le.refl s
  | cons x xs ih => exact Le.trans (le_step a0 s x) (ih _)

theorem after_append (a0 : A) (s : St C) (h h' : List (Step A C)) :
    after a0 s (h ++ h') = after a0 (after a0 s h) h' := by
  induction h generalizing s with
  | nil => rfl
  | cons x xs ih => exact ih _

/-- Only classes with an identity in `P` were added. -/
def Only (P : Nat → Prop) (s t : St C) : Prop := ∀ k, t.made k = true → s.made k = true ∨ P k

theorem Only.refl (P : Nat → Prop) (s : St C) : Only P s s := fun _ h => .inl h

theorem Only.trans {P : Nat → Prop} {s t u : St C} (h : Only P s t) (h' : Only P t u) : Only P s u := by
  intro k hk
  cases h' k hk with
  | inl h1 => exact h k h1
  | inr h1 => exact .inr h1

theorem Only.mono {P Q : Nat → Prop} {s t : St C} (h : Only P s t) (hp : ∀ k, P k → Q k) : Only Q s t := by
  intro k hk
  cases h k hk with
  | inl h1 => exact .inl h1
  | inr h1 => exact .inr (hp k h1)

theorem only_mark {P : Nat → Prop} (s : St C) (i : Nat) (h : P i) : Only P s (s.mark i) := by
  intro k hk
  by_cases hki : k = i
  · exact .inr (hki ▸ h)
  · left
    simpa [St.mark, hki] using hk

theorem only_store {P : Nat → Prop} (s : St C) (i : Nat) (c : C) (h : P i) : Only P s (s.store i c) := by
  intro k hk
  exact only_mark (P := P) s i h k hk

mutual
theorem only_run (s : St C) (c : Cls A) (conn : C) (a : A) : Only (Uses c) s (run s c conn a).1 := by
  cases c with
  | plain n => rw [run]; exact Only.refl _ s
  | factory i base b =>
    rw [run]
    exact Only.trans (only_store s i conn (.factory i base b))
      ((only_run _ base conn b).mono fun k hk => .base i k base b hk)
  | sub i p =>
    rw [run]
    have hp : ∀ (t : St C) (d : C), Only (Uses (.sub i p)) t (inner t p d).1 :=
      fun t d => (only_inner t p d).mono fun k hk => .up i k p hk
    split
    · exact Only.trans (only_store s i conn (.sub i p)) (hp _ _)
    · split
      · exact Only.trans (only_store s i conn (.sub i p)) (hp _ _)
      · split
        · exact Only.refl _ s
        · exact hp _ _
theorem only_inner (s : St C) (c : Cls A) (conn : C) : Only (Uses c) s (inner s c conn).1 := by
  cases c with
  | plain n => rw [inner]; exact Only.refl _ s
  | factory i base b =>
    rw [inner]
    exact (only_run _ base conn b).mono fun k hk => .base i k base b hk
  | sub i p =>
    rw [inner]
    exact (only_inner _ p conn).mono fun k hk => .up i k p hk
end

theorem only_empty (s : St C) (c : Cls A) : Only (Uses c) s (empty s c) := by
  cases c with
  | plain n => exact Only.refl _ s
  | factory i base b => exact only_mark s i (.factory i base b)
  | sub i p =>
    rw [empty]
    split
    · exact Only.refl _ s
    · exact only_mark s i (.sub i p)

theorem only_step (a0 : A) (s : St C) (x : Step A C) : Only (Uses (cls x)) s (step a0 s x).1 := by
  cases x with
  | connect c conn => exact only_run s c conn a0
  | call c conn => exact Only.trans (only_empty s c) (only_inner _ c conn)
  | make c conn =>
    cases c with
    | plain n => exact Only.refl _ s
    | factory i base b => exact only_store s i conn (.factory i base b)
    | sub i p =>
      show Only (Uses (.sub i p)) s (build s (.sub i p) conn)
      rw [build]
      split
      · exact only_store s i conn (.sub i p)
      · exact Only.refl _ s
  | wait c =>
    show Only (Uses c) s (wait s c).1
    rw [wait]
    split
    · exact Only.refl _ s
    · split
      · exact only_empty s c
      · exact Only.trans (only_empty s c) (only_inner _ c _)

theorem only_after (a0 : A) (P : Nat → Prop) (s : St C) (h : List (Step A C))
    (hp : ∀ x ∈ h, ∀ k, Uses (cls x) k → P k) : Only P s (after a0 s h) := by
  induction h generalizing s with
  | nil => exact Only.refl _ s
  | cons x xs ih =>
    exact Only.trans ((only_step a0 s x).mono (hp x List.mem_cons_self))
      (ih _ fun y hy => hp y (List.mem_cons_of_mem _ hy))

theorem found_none {s : St C} {c : Cls A} (h : ∀ k, Ancestor c k → s.made k = false) : found s c = none := by
  induction c with
  | plain n => rfl
  | factory i base b _ => simp [found, h i (.factory i base b)]
  | sub i p ih => simp [found, h i (.sub i p), ih fun k hk => h k (.up i k p hk)]

theorem run_sub_own (s : St C) (i n : Nat) (p : Cls A) (conn : C) (a b : A) (hp : Below p n a)
    (h : s.made i = true ∨ found s p = none) : (run s (.sub i p) conn b).2 = some ⟨n, conn, a⟩ := by
  rw [run]
  split
  · exact inner_below hp _ conn
  · rename_i hm
    cases h with
    | inl h => exact absurd h hm
    | inr h =>
      rw [h]
      exact inner_below hp _ conn

theorem made_run_sub (s : St C) (i : Nat) (p : Cls A) (conn : C) (b : A)
    (h : s.made i = true ∨ found s p = none) : (run s (.sub i p) conn b).1.made i = true := by
  have hs : (s.store i conn).made i = true := by simp [St.store, St.mark]
  rw [run]
  split
  · exact le_inner _ p conn i hs
  · rename_i hm
    cases h with
    | inl h => exact absurd h hm
    | inr h =>
      rw [h]
      exact le_inner _ p conn i hs

theorem fresh_found (a0 : A) (h : List (Step A C)) (p : Cls A)
    (hu : ∀ x ∈ h, ∀ k, Ancestor p k → ¬ Uses (cls x) k) : found (after a0 .start h) p = none := by
  apply found_none
  intro k hk
  cases hm : (after a0 St.start h).made k with
  | false => rfl
  | true =>
    have ho := only_after a0 (fun k => ¬ Ancestor p k) (St.start (C := C)) h
      (fun x hx k hu' ha => hu x hx k ha hu') k hm
    cases ho with
    | inl h1 => simp [St.start] at h1
    | inr h1 => exact absurd hk h1

end Verif.SocketFactory
