import Verif.ConsoleMail.Spec

/-!
# Lemmas on printed mails
-/

namespace Verif.ConsoleMail

open Verif Verif.ConsoleMail.Spec

/-- What stands before the first separator is determined. -/
theorem cut_inj {c : Char} : ∀ {a b r s : Str}, c ∉ a → c ∉ b → a ++ c :: r = b ++ c :: s → a = b ∧ r = s
  | [], [], _, _, _, _, h => ⟨rfl, (List.cons.inj h).2⟩
  | [], _ :: _, _, _, _, hb, h => absurd (List.mem_cons.2 (.inl (List.cons.inj h).1)) hb
  | _ :: _, [], _, _, ha, _, h => absurd (List.mem_cons.2 (.inl (List.cons.inj h).1.symm)) ha
  | x :: a, y :: b, _, _, ha, hb, h => by
    have h' := List.cons.inj h
    have ih := cut_inj (fun m => ha (List.mem_cons_of_mem _ m)) (fun m => hb (List.mem_cons_of_mem _ m)) h'.2
    exact ⟨by rw [h'.1, ih.1], ih.2⟩

/-- Printed lines are determined. -/
theorem print_inj {a b r s : Str} (ha : '\n' ∉ a) (hb : '\n' ∉ b) (h : print a ++ r = print b ++ s) :
    a = b ∧ r = s := by
  unfold print at h
  rw [List.append_assoc, List.append_assoc] at h
  exact cut_inj ha hb h

theorem commas_line : ∀ {l : List Str}, (∀ a ∈ l, Address a) → '\n' ∉ commas l
  | [], _, h => by cases h
  | [a], hl, h => (hl a (List.mem_cons_self ..)).2.2 h
  | a :: b :: l, hl, h => by
    unfold commas at h
    rcases List.mem_append.1 h with h | h
    · exact (hl a (List.mem_cons_self ..)).2.2 h
    · rcases List.mem_cons.1 h with h | h
      · exact absurd h (by decide)
      · rcases List.mem_cons.1 h with h | h
        · exact absurd h (by decide)
        · exact commas_line (fun x hx => hl x (List.mem_cons_of_mem _ hx)) h

theorem commas_inj : ∀ {k l : List Str}, (∀ a ∈ k, Address a) → (∀ a ∈ l, Address a) → commas k = commas l → k = l
  | [], [], _, _, _ => rfl
  | [], [b], _, hl, h => absurd h.symm (hl b (List.mem_cons_self ..)).1
  | [], b :: c :: l, _, _, h => by
    unfold commas at h
    cases b <;> cases h
  | [a], [], hk, _, h => absurd h (hk a (List.mem_cons_self ..)).1
  | a :: c :: l, [], _, _, h => by
    unfold commas at h
    cases a <;> cases h
  | [a], [b], _, _, h => by
    simp only [commas] at h
    rw [h]
  | [a], b :: c :: l, hk, _, h => by
    simp only [commas] at h
    have := (hk a (List.mem_cons_self ..)).2.1
    rw [h] at this
    exact absurd (List.mem_append_right _ (List.mem_cons_self ..)) this
  | b :: c :: l, [a], _, hk, h => by
    simp only [commas] at h
    have := (hk a (List.mem_cons_self ..)).2.1
    rw [← h] at this
    exact absurd (List.mem_append_right _ (List.mem_cons_self ..)) this
  | a :: b :: k, c :: d :: l, hk, hl, h => by
    unfold commas at h
    have e := cut_inj (hk a (List.mem_cons_self ..)).2.1 (hl c (List.mem_cons_self ..)).2.1 h
    have t := commas_inj (fun x hx => hk x (List.mem_cons_of_mem _ hx)) (fun x hx => hl x (List.mem_cons_of_mem _ hx))
      (List.cons.inj e.2).2
    rw [e.1, t]

theorem label_line {p t : Str} (hp : '\n' ∉ p) (ht : '\n' ∉ t) : '\n' ∉ p ++ t := by
  intro h
  rcases List.mem_append.1 h with h | h
  · exact hp h
  · exact ht h

/-- An optional line is determined if what follows cannot begin with its label. -/
theorem listed_inj {p : Str} (hp : '\n' ∉ p) {k l : List Str} {r s : Str} (hk : ∀ a ∈ k, Address a)
    (hl : ∀ a ∈ l, Address a) (hr : ¬ p <+: r) (hs : ¬ p <+: s) (h : listed p k ++ r = listed p l ++ s) :
    k = l ∧ r = s := by
  unfold listed at h
  split at h <;> split at h
  · rename_i e1 e2
    exact ⟨e1.trans e2.symm, h⟩
  · refine absurd ⟨commas l ++ (['\n'] ++ s), ?_⟩ hr
    simp only [List.nil_append] at h
    rw [h]
    simp [print]
  · refine absurd ⟨commas k ++ (['\n'] ++ r), ?_⟩ hs
    simp only [List.nil_append] at h
    rw [← h]
    simp [print]
  · obtain ⟨e1, e2⟩ := print_inj (label_line hp (commas_line hk)) (label_line hp (commas_line hl)) h
    exact ⟨commas_inj hk hl (List.append_cancel_left e1), e2⟩

/-- Texts that begin with different characters. -/
theorem not_prefix {a b : Char} {p r : Str} (h : a ≠ b) : ¬ (a :: p) <+: (b :: r) := by
  rintro ⟨t, e⟩
  exact h (List.cons.inj e).1

/-- What follows an optional line does not begin with another label, if neither the line nor the rest does. -/
theorem listed_skip {p q : Str} {l : List Str} {r : Str} (h1 : ∀ t, ¬ p <+: q ++ t) (h2 : ¬ p <+: r) :
    ¬ p <+: listed q l ++ r := by
  unfold listed
  split
  · exact h2
  · unfold print
    rw [List.append_assoc, List.append_assoc]
    exact h1 _

theorem mem_commas : ∀ {l : List Str} {a : Str}, a ∈ l → a <:+: commas l
  | [b], a, h => by
    rw [List.mem_singleton.1 h]
    exact List.infix_refl _
  | b :: c :: l, a, h => by
    unfold commas
    rcases List.mem_cons.1 h with h | h
    · rw [h]
      exact (List.prefix_append ..).isInfix
    · exact (mem_commas h).trans ((List.suffix_append [',', ' '] _).isInfix.trans (List.suffix_append b _).isInfix)

theorem infix_left {t a : Str} (b : Str) (h : t <:+: a) : t <:+: a ++ b := h.trans (List.prefix_append ..).isInfix

theorem infix_right {t b : Str} (a : Str) (h : t <:+: b) : t <:+: a ++ b := h.trans (List.suffix_append ..).isInfix

theorem infix_print {t a : Str} (h : t <:+: a) : t <:+: print a := infix_left _ h

theorem infix_listed {t : Str} {l : List Str} (p : Str) (h : t ∈ l) : t <:+: listed p l := by
  unfold listed
  rw [if_neg (fun e => by rw [e] at h; cases h)]
  exact infix_print (infix_right _ (mem_commas h))

theorem infix_section (p t : Str) : t <:+: section_ p (some t) := by
  show t <:+: if t = [] then [] else print (p ++ t)
  split
  · rename_i e
    rw [e]
    exact List.nil_infix
  · exact infix_print (infix_right _ (List.infix_refl _))

theorem infix_flatten {t : Str} : ∀ {l : List Str} {x : Str}, x ∈ l → t <:+: x → t <:+: l.flatten
  | y :: l, x, hx, h => by
    rw [List.flatten_cons]
    rcases List.mem_cons.1 hx with e | e
    · exact infix_left _ (e ▸ h)
    · exact infix_right _ (infix_flatten e h)

end Verif.ConsoleMail
