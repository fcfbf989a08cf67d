import Verif.Bodies.Spec
import Verif.Json.Props
import Verif.Base64.Lemmas
import Verif.ExtValue.Lemmas

/-!
# Lemmas about bodies
-/

namespace Verif.Bodies

open Verif Verif.Json Verif.Bodies.Spec

theorem reads_utf8 (j : Json) : readsJson (ExtValue.utf8 (encode j)) = some j := by
  unfold readsJson text
  rw [ExtValue.decode_utf8]
  exact C50_roundtrip j

theorem text_utf8 (s : Str) : text (ExtValue.utf8 s) = s := ExtValue.decode_utf8 s

theorem utf8_inj {s t : Str} (h : ExtValue.utf8 s = ExtValue.utf8 t) : s = t := by
  rw [← ExtValue.decode_utf8 s, h, ExtValue.decode_utf8]

/-! ### Quotes -/

theorem hexChar_ne : ∀ n < 16, hexChar n ≠ '"' := by decide

/-- The length of an escape is one only for harmless characters. -/
theorem escape_length (c : Char) : 1 ≤ (escape c).length ∧ ((escape c).length = 1 → Harmless c) := by
  unfold escape
  repeat' split
  all_goals try (refine ⟨by decide, fun h => ?_⟩; exact absurd h (by decide))
  · refine ⟨Nat.le_add_left _ _, fun h => ?_⟩
    exact absurd h (by simp)
  · rename_i h1 h2 _ _ _ _ _ h3
    exact ⟨Nat.le_refl _, fun _ => ⟨h2, h1, Nat.le_of_not_lt h3⟩⟩

theorem escape_harmless {c : Char} (h : Harmless c) : escape c = [c] := by
  obtain ⟨h1, h2, h3⟩ := h
  have hne : ∀ d : Char, d.toNat < 32 → c ≠ d := by
    intro d hd e
    rw [e] at h3
    omega
  unfold escape
  rw [if_neg h2, if_neg h1, if_neg (hne _ (by decide)), if_neg (hne _ (by decide)), if_neg (hne _ (by decide)),
    if_neg (hne _ (by decide)), if_neg (hne _ (by decide)), if_neg (by omega)]

theorem escape_head (c : Char) : ∃ x r, escape c = x :: r ∧ x ≠ '"' := by
  unfold escape
  repeat' split
  all_goals try exact ⟨_, _, rfl, by decide⟩
  · rename_i h _ _ _ _ _ _
    exact ⟨_, _, rfl, h⟩

theorem escape_last {c : Char} (hc : c ≠ '"') : ∃ x r, escape c = r ++ [x] ∧ x ≠ '"' := by
  unfold escape
  rw [if_neg hc]
  split
  · exact ⟨'\\', ['\\'], rfl, by decide⟩
  split
  · exact ⟨'b', ['\\'], rfl, by decide⟩
  split
  · exact ⟨'f', ['\\'], rfl, by decide⟩
  split
  · exact ⟨'n', ['\\'], rfl, by decide⟩
  split
  · exact ⟨'r', ['\\'], rfl, by decide⟩
  split
  · exact ⟨'t', ['\\'], rfl, by decide⟩
  split
  · exact ⟨hexChar (c.toNat % 16), ['\\', 'u', '0', '0', hexChar (c.toNat / 16)], rfl,
      hexChar_ne _ (Nat.mod_lt _ (by decide))⟩
  · exact ⟨c, [], rfl, hc⟩

theorem escapes_harmless {s : Str} (h : ∀ c ∈ s, Harmless c) : s.flatMap escape = s := by
  induction s with
  | nil => rfl
  | cons c s ih =>
    rw [List.flatMap_cons, escape_harmless (h c (by simp)), ih (fun x hx => h x (List.mem_cons_of_mem _ hx))]
    rfl

theorem escapes_length (s : Str) : s.length ≤ (s.flatMap escape).length ∧
    ((s.flatMap escape).length = s.length → ∀ c ∈ s, Harmless c) := by
  induction s with
  | nil => exact ⟨Nat.le_refl _, fun _ _ h => nomatch h⟩
  | cons c s ih =>
    have h1 := escape_length c
    rw [List.flatMap_cons, List.length_append, List.length_cons]
    refine ⟨by omega, fun h => ?_⟩
    intro x hx
    rcases List.mem_cons.mp hx with e | e
    · subst e
      exact h1.2 (by omega)
    · exact ih.2 (by omega) x e

/-- What remains of a quoted text. -/
theorem strip_quoted (s : Str) :
    stripQuotes (quoted s) = ((s.flatMap escape).reverse.dropWhile (· == '"')).reverse := by
  unfold stripQuotes quoted
  rw [List.cons_append, List.dropWhile_cons_of_pos (by decide)]
  cases s with
  | nil => decide
  | cons c s =>
    rw [List.flatMap_cons]
    obtain ⟨x, r, e, hx⟩ := escape_head c
    rw [e, List.cons_append, List.cons_append, List.dropWhile_cons_of_neg (by simpa using hx)]
    rw [← List.cons_append, List.reverse_append, List.reverse_singleton, List.singleton_append,
      List.dropWhile_cons_of_pos (by decide)]

theorem dropWhile_head {l : Str} : ∀ c ∈ (l.dropWhile (· == '"')).head?, c ≠ '"' := by
  intro c hc
  induction l with
  | nil => exact nomatch hc
  | cons x l ih =>
    by_cases hx : x = '"'
    · rw [List.dropWhile_cons_of_pos (by simpa using hx)] at hc
      exact ih hc
    · rw [List.dropWhile_cons_of_neg (by simpa using hx)] at hc
      rw [List.head?_cons, Option.mem_some_iff] at hc
      rw [← hc]
      exact hx

theorem strip_last (s t : Str) (c : Char) (h : stripQuotes (quoted s) = t ++ [c]) : c ≠ '"' := by
  rw [strip_quoted] at h
  have h' := congrArg List.reverse h
  rw [List.reverse_reverse, List.reverse_append, List.reverse_singleton, List.singleton_append] at h'
  exact dropWhile_head c (by rw [h']; rfl)

theorem strip_of_last (s : Str) (c : Char) (hc : c ≠ '"') :
    stripQuotes (quoted (s ++ [c])) = (s ++ [c]).flatMap escape := by
  rw [strip_quoted, List.flatMap_append, List.flatMap_singleton]
  obtain ⟨x, r, e, hx⟩ := escape_last hc
  rw [e, ← List.append_assoc, List.reverse_append, List.reverse_singleton, List.singleton_append,
    List.dropWhile_cons_of_neg (by simpa using hx), List.reverse_cons, List.reverse_reverse]

/-- A text survives being quoted and stripped only if it is harmless. -/
theorem strip_iff (s : Str) : stripQuotes (quoted s) = s ↔ ∀ c ∈ s, Harmless c := by
  rcases List.eq_nil_or_concat s with e | ⟨t, c, e⟩
  · subst e
    exact ⟨(fun _ _ h => nomatch h), (fun _ => by decide)⟩
  · rw [List.concat_eq_append] at e
    subst e
    constructor
    · intro h
      have hc := strip_last _ _ _ h
      rw [strip_of_last t c hc] at h
      exact (escapes_length _).2 (by rw [h])
    · intro h
      rw [strip_of_last t c (h c (by simp)).1, escapes_harmless h]

theorem toJson_means {c : Content} {j : Json} (h : toJson false c = some j) : Means c j := by
  cases c with
  | noReturn => exact nomatch h
  | bytes b =>
    refine Or.inr (Or.inr ⟨b, _, Or.inl rfl, (Option.some.inj h).symm, fun hb => ?_⟩)
    exact Base64.decode_encode b hb
  | view b =>
    refine Or.inr (Or.inr ⟨b, _, Or.inr rfl, (Option.some.inj h).symm, fun hb => ?_⟩)
    exact Base64.decode_encode b hb
  | array b => exact nomatch h
  | value v => exact Or.inl (by rw [Option.some.inj (show some v = some j from h)])
  | object v => exact Or.inr (Or.inl (by rw [show v = some j from h]))

theorem returned_of_toJson {c : Content} {j : Json} (h : toJson false c = some j) :
    returned c = some (ExtValue.utf8 (encode j)) := by
  cases c with
  | noReturn => exact nomatch h
  | array b => exact nomatch h
  | bytes b => cases h; rfl
  | view b => cases h; rfl
  | object v => cases (show v = some j from h); rfl
  | value v =>
    cases (show some v = some j from h)
    cases j <;> rfl

/-- Whether `None` is left out. -/
def leaves : Option Kw → Bool
  | some kw => kw.exclude
  | none => false

theorem jsonBody_eq {c : Content} {ctx : Option Kw} (hc : c ≠ .noReturn) :
    jsonBody ctx c = (toJson (leaves ctx) c).map fun j => ExtValue.utf8 (encode j) := by
  cases ctx <;> cases c <;> first | rfl | exact absurd rfl hc

theorem jsonBody_of_toJson {c : Content} {j : Json} {ctx : Option Kw} (h : toJson (leaves ctx) c = some j) :
    jsonBody ctx c = some (ExtValue.utf8 (encode j)) := by
  rw [jsonBody_eq (fun e => by rw [e] at h; exact nomatch h), h]
  rfl

end Verif.Bodies
