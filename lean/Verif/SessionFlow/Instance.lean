import Verif.SessionFlow.Spec
import Verif.Session.Instance

/-!
# A site that meets the specification

Used to show that the hypotheses of C142 can be met.
-/

namespace Verif.SessionFlow

open Verif Verif.Session Verif.SessionFlow.Spec

/-- Whether a time is within an age. -/
def recent (m : Option Int) (t t' : Nat) : Bool :=
  match m with
  | none => true
  | some n => decide ((t' : Int) ≤ t + n)

/-- A signer that signs with a letter and the time. -/
def stamp (l : Char) (m : Option Int) : Signer where
  sign := fun t s => l :: (tick t ++ encSess s)
  unsign := fun t' v => match v with
    | ch :: r =>
      if ch = l then
        match untick 0 r with
        | some (t, r) => if t ≤ t' ∧ recent m t t' = true then decSess r.length r else none
        | none => none
      else none
    | [] => none

/-- A site with this signer. -/
def site (l : Char) (m : Option Int) (path : String) (https : Bool) : Site :=
  ⟨stamp l m, "session".toList, m, path.toList, "lax".toList, https, none⟩

theorem recent_iff (l : Char) (m : Option Int) (path : String) (https : Bool) (t t' : Nat) :
    recent m t t' = true ↔ Fresh (site l m path https) t t' := by
  unfold recent Fresh site
  cases m with
  | none => simp
  | some n => simp

theorem site_timed (l : Char) (m : Option Int) (path : String) (https : Bool)
    (hl : l ≠ '"' ∧ l ≠ '\\' ∧ l ≠ ';' ∧ l ≠ '%') : Timed (site l m path https) where
  accepts := by
    intro t t' x h1 h2
    show (if l = l then match untick 0 (tick t ++ encSess x) with
        | some (t, r) => if t ≤ t' ∧ recent m t t' = true then decSess r.length r else none
        | none => none
      else none) = some x
    rw [if_pos rfl, untick_tick]
    simp only [Nat.zero_add]
    rw [if_pos ⟨h1, (recent_iff l m path https t t').mpr h2⟩]
    exact decSess_enc x _ (encSess_length x)
  rejects := by
    intro t t' x h
    show (if l = l then match untick 0 (tick t ++ encSess x) with
        | some (t, r) => if t ≤ t' ∧ recent m t t' = true then decSess r.length r else none
        | none => none
      else none) = none
    rw [if_pos rfl, untick_tick]
    simp only [Nat.zero_add]
    rw [if_neg (fun hh => h ((recent_iff l m path https t t').mp hh.2))]
  clean := by
    intro t x ch hch
    rcases List.mem_cons.mp hch with rfl | hch
    · exact hl
    · rcases List.mem_append.mp hch with hch | hch
      · rcases tick_clean _ ch hch with rfl | rfl <;> decide
      · rcases encSess_clean _ ch hch with rfl | rfl <;> decide

/-- A client of one host. -/
def client : SetCookie.Spec.Client :=
  ⟨"host".toList, "/".toList, fun d => if d = "Thu, 01 Jan 1970 00:00:00 GMT".toList then some 0 else none, 0⟩

theorem client_date : ReadsDate client := by
  show (if "Thu, 01 Jan 1970 00:00:00 GMT".toList = "Thu, 01 Jan 1970 00:00:00 GMT".toList then some (0 : Int)
    else none) = some 0
  rw [if_pos rfl]

theorem trimmed_of (x : Str) (h : ∀ ch ∈ x, isSpace ch = false) : Cookies.Spec.Trimmed x :=
  ⟨fun c hc => h c (List.mem_of_mem_head? hc), fun c hc => h c (List.mem_of_getLast? hc)⟩

theorem site_sane (l : Char) (m : Option Int) (path : String) (https : Bool)
    (hp : ∀ ch ∈ path.toList, isSpace ch = false ∧ ch ≠ ';') (hm : ∀ n, m = some n → 0 ≤ n) :
    Sane (site l m path https) := by
  refine ⟨⟨by show "session".toList ≠ []; decide, by
      show ∀ ch ∈ "session".toList, ch ∈ Cookies.Spec.tokenChars
      decide⟩, ⟨fun h => (hp _ h).2 rfl, trimmed_of _ fun ch h => (hp ch h).1⟩,
    ⟨by show ';' ∉ "lax".toList; decide, trimmed_of "lax".toList (by decide)⟩, (fun d hd => nomatch hd), hm⟩

end Verif.SessionFlow
