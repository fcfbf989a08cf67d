import Verif.Session.Spec

/-!
# A signer that meets the specification

Sessions are written as numbers in ticks; used to show that the hypotheses of C15 and C16 can be met.
-/

namespace Verif.Session

open Verif Spec

/-- A number as ticks. -/
def tick (n : Nat) : Str := List.replicate n 'i' ++ ['.']

/-- Read back a number of ticks. -/
def untick : Nat → Str → Option (Nat × Str)
  | n, 'i' :: cs => untick (n + 1) cs
  | n, '.' :: cs => some (n, cs)
  | _, _ => none

theorem untick_tick (n m : Nat) (r : Str) : untick m (tick n ++ r) = some (m + n, r) := by
  induction n generalizing m with
  | zero => rfl
  | succ n ih =>
    have : tick (n + 1) ++ r = 'i' :: (tick n ++ r) := rfl
    rw [this, untick, ih]
    congr 2
    omega

/-- A text as ticks. -/
def encStr (s : Str) : Str := tick s.length ++ s.flatMap fun c => tick c.toNat

/-- Read back some characters. -/
def decChars : Nat → Str → Option (Str × Str)
  | 0, r => some ([], r)
  | n + 1, r =>
    match untick 0 r with
    | none => none
    | some (k, r) =>
      match decChars n r with
      | none => none
      | some (s, r) => some (Char.ofNat k :: s, r)

/-- Read back a text. -/
def decStr (r : Str) : Option (Str × Str) :=
  match untick 0 r with
  | none => none
  | some (n, r) => decChars n r

theorem decChars_enc (s r : Str) :
    decChars s.length ((s.flatMap fun c => tick c.toNat) ++ r) = some (s, r) := by
  induction s with
  | nil => rfl
  | cons c s ih =>
    rw [List.flatMap_cons, List.append_assoc, List.length_cons, decChars, untick_tick]
    simp only
    rw [ih]
    simp [Char.ofNat_toNat]

theorem decStr_enc (s r : Str) : decStr (encStr s ++ r) = some (s, r) := by
  unfold decStr encStr
  rw [List.append_assoc, untick_tick]
  simp only [Nat.zero_add]
  exact decChars_enc s r

/-- A session as ticks. -/
def encSess : Sess → Str
  | [] => []
  | (k, none) :: s => encStr k ++ (tick 0 ++ encSess s)
  | (k, some v) :: s => encStr k ++ (tick 1 ++ (encStr v ++ encSess s))

/-- Read back a session. -/
def decSess : Nat → Str → Option Sess
  | _, [] => some []
  | 0, _ => none
  | n + 1, r =>
    match decStr r with
    | none => none
    | some (k, r) =>
      match untick 0 r with
      | some (0, r) => (decSess n r).map ((k, none) :: ·)
      | some (_, r) =>
        match decStr r with
        | none => none
        | some (v, r) => (decSess n r).map ((k, some v) :: ·)
      | none => none

theorem encStr_ne (s r : Str) : encStr s ++ r ≠ [] := by
  unfold encStr tick
  simp

theorem decSess_enc (s : Sess) (n : Nat) (h : s.length ≤ n) : decSess n (encSess s) = some s := by
  induction s generalizing n with
  | nil => cases n <;> rfl
  | cons kv s ih =>
    cases n with
    | zero => simp at h
    | succ n =>
      have hn : s.length ≤ n := by simpa using h
      obtain ⟨k, v⟩ := kv
      cases v with
      | none =>
        have : decSess (n + 1) (encStr k ++ (tick 0 ++ encSess s)) =
            (decSess n (encSess s)).map ((k, none) :: ·) := by
          rw [decSess]
          · rw [decStr_enc]; simp only; rw [untick_tick]; rfl
          · exact encStr_ne k _
        rw [encSess, this, ih n hn]; rfl
      | some v =>
        have : decSess (n + 1) (encStr k ++ (tick 1 ++ (encStr v ++ encSess s))) =
            (decSess n (encSess s)).map ((k, some v) :: ·) := by
          rw [decSess]
          · rw [decStr_enc]; simp only; rw [untick_tick]; simp only; rw [decStr_enc]
          · exact encStr_ne k _
        rw [encSess, this, ih n hn]; rfl

/-- A signer that signs with the letter `x`. -/
def ticks : Signer where
  sign := fun _ s => 'x' :: encSess s
  unsign := fun _ v => match v with
    | 'x' :: r => decSess r.length r
    | _ => none

theorem encStr_length (s : Str) : 1 ≤ (encStr s).length := by
  unfold encStr tick; simp; omega

theorem encSess_length (s : Sess) : s.length ≤ (encSess s).length := by
  induction s with
  | nil => simp [encSess]
  | cons kv s ih =>
    obtain ⟨k, v⟩ := kv
    have := encStr_length k
    cases v <;> simp only [encSess, List.length_append, List.length_cons] <;> omega

theorem tick_clean (n : Nat) : ∀ c ∈ tick n, c = 'i' ∨ c = '.' := by
  intro c hc
  unfold tick at hc
  rcases List.mem_append.1 hc with h | h
  · exact .inl (List.mem_replicate.1 h).2
  · exact .inr (List.mem_singleton.1 h)

theorem encStr_clean (s : Str) : ∀ c ∈ encStr s, c = 'i' ∨ c = '.' := by
  intro c hc
  unfold encStr at hc
  rcases List.mem_append.1 hc with h | h
  · exact tick_clean _ c h
  · obtain ⟨d, _, hd⟩ := List.mem_flatMap.1 h
    exact tick_clean _ c hd

theorem encSess_clean (s : Sess) : ∀ c ∈ encSess s, c = 'i' ∨ c = '.' := by
  induction s with
  | nil => intro c hc; cases hc
  | cons kv s ih =>
    obtain ⟨k, v⟩ := kv
    intro c hc
    cases v with
    | none =>
      rw [encSess] at hc
      rcases List.mem_append.1 hc with h | h
      · exact encStr_clean _ c h
      · rcases List.mem_append.1 h with h | h
        · exact tick_clean _ c h
        · exact ih c h
    | some v =>
      rw [encSess] at hc
      rcases List.mem_append.1 hc with h | h
      · exact encStr_clean _ c h
      · rcases List.mem_append.1 h with h | h
        · exact tick_clean _ c h
        · rcases List.mem_append.1 h with h | h
          · exact encStr_clean _ c h
          · exact ih c h

/-- The hypotheses on signers can be met. -/
theorem ticks_good : Good ticks (fun _ _ => True) where
  accepts := fun _ _ s _ => decSess_enc s _ (encSess_length s)
  clean := by
    intro t s c hc
    rcases List.mem_cons.1 hc with rfl | hc
    · decide
    · rcases encSess_clean s c hc with rfl | rfl <;> decide
  stays := fun _ _ _ _ h => h

end Verif.Session
