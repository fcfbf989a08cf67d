import Verif.ConsoleMail.Lemmas

/-!
# C166: mails on the console
-/

namespace Verif.ConsoleMail.Props

open Verif Verif.ConsoleMail Verif.ConsoleMail.Spec

/-- **C166**, shown: the sender, the subject, all addresses, also the blind ones, both bodies and the further headers
are in what is printed, whole and unchanged. -/
theorem C166_shown (m : Message) (t : Str) (h : Told m t) : t <:+: send m := by
  have hd : t <:+: head m → t <:+: send m := fun h => infix_right _ (infix_left _ h)
  have tl : t <:+: tail m → t <:+: send m := fun h => infix_right _ (infix_right _ h)
  rcases h with h | h | h | h | h | h | h | h | h
  · refine hd (infix_left _ (infix_print (infix_right _ ?_)))
    rw [h]
    exact List.infix_refl _
  · refine hd (infix_right _ (infix_right _ (infix_right _ (infix_right _ (infix_right _
      (infix_print (infix_right _ ?_)))))))
    rw [h]
    exact List.infix_refl _
  · exact hd (infix_right _ (infix_left _ (infix_print (infix_right _ (mem_commas h)))))
  · exact hd (infix_right _ (infix_right _ (infix_left _ (infix_listed _ h))))
  · exact hd (infix_right _ (infix_right _ (infix_right _ (infix_left _ (infix_listed _ h)))))
  · exact hd (infix_right _ (infix_right _ (infix_right _ (infix_right _ (infix_left _ (infix_listed _ h))))))
  · refine tl (infix_left _ ?_)
    rw [h]
    exact infix_section _ _
  · refine tl (infix_right _ (infix_left _ ?_))
    rw [h]
    exact infix_section _ _
  · obtain ⟨x, hx, e⟩ := h
    refine tl (infix_right _ (infix_right _ (infix_right _ (infix_right _ (infix_left _ ?_)))))
    unfold extra
    rw [if_neg (fun e => by rw [e] at hx; cases hx)]
    refine infix_right _ (infix_flatten (List.mem_map_of_mem hx) (infix_print ?_))
    rcases e with e | e
    · rw [e]
      exact infix_left _ (List.infix_refl _)
    · rw [e]
      exact infix_right _ (infix_right _ (List.infix_refl _))

/-- A message for the examples. -/
def sample : Message :=
  { subject := "Hi".toList, to := ["a@x".toList, "b@x".toList], sender := some "me@x".toList, text := some "T".toList,
    html := none, alternatives := [], cc := [], bcc := ["c@x".toList], replyTo := [], attachments := [], paths := [],
    headers := [("X-A".toList, "1".toList)] }

example : Told sample "c@x".toList := .inr (.inr (.inr (.inr (.inl (by decide +kernel)))))

/-- What is printed for it. -/
theorem C166_sample : send sample = ("====== Email (console) ======\nFrom: me@x\nTo: a@x, b@x\nBcc: c@x\n" ++
    "Subject: Hi\n\n-- text/plain --\nT\n\n-- headers --\nX-A: 1\n================================\n").toList := by
  decide +kernel

/-- A message with all parts. -/
def full : Message :=
  { sample with
    sender := none, html := some "U".toList, text := some [], cc := ["d@x".toList], replyTo := ["e@x".toList],
    alternatives := ["1".toList, "2".toList], attachments := ["3".toList], paths := ["4".toList, "5".toList] }

/-- What is printed for a message with all parts but a text: the parts beside the bodies are counted. -/
theorem C166_full : send full = ("====== Email (console) ======\nFrom: None\nTo: a@x, b@x\nCc: d@x\nBcc: c@x\n" ++
    "Reply-To: e@x\nSubject: Hi\n\n-- text/html --\nU\n\n-- alternatives -- (2 part(s))\n" ++
    "\n-- attachments -- (3)\n\n-- headers --\nX-A: 1\n================================\n").toList := by
  decide +kernel

/-- **C166**, told apart: messages with plain addresses and subjects that are printed alike have the same sender, the
same addresses in each list and in the same order, and the same subject, whatever their bodies are. -/
theorem C166_apart_partial (m n : Message) (hm : Plain m) (hn : Plain n) (h : send m = send n) :
    m.sender = n.sender ∧ m.to = n.to ∧ m.cc = n.cc ∧ m.bcc = n.bcc ∧ m.replyTo = n.replyTo ∧
      m.subject = n.subject := by
  have h := List.append_cancel_left h
  unfold head at h
  simp only [List.append_assoc] at h
  have line : ∀ k : Message, Plain k → '\n' ∉ shown k.sender := by
    intro k hk
    cases e : k.sender with
    | none => decide +kernel
    | some s => exact (hk.sender s e).1
  have nF : '\n' ∉ "From: ".toList := by decide +kernel
  have nT : '\n' ∉ "To: ".toList := by decide +kernel
  have nC : '\n' ∉ "Cc: ".toList := by decide +kernel
  have nB : '\n' ∉ "Bcc: ".toList := by decide +kernel
  have nR : '\n' ∉ "Reply-To: ".toList := by decide +kernel
  have nS : '\n' ∉ "Subject: ".toList := by decide +kernel
  have eC : "Cc: ".toList = 'C' :: "c: ".toList := by decide +kernel
  have eB : "Bcc: ".toList = 'B' :: "cc: ".toList := by decide +kernel
  have eR : "Reply-To: ".toList = 'R' :: "eply-To: ".toList := by decide +kernel
  have eS : "Subject: ".toList = 'S' :: "ubject: ".toList := by decide +kernel
  obtain ⟨e1, h⟩ := print_inj (label_line nF (line m hm)) (label_line nF (line n hn)) h
  obtain ⟨e2, h⟩ := print_inj (label_line nT (commas_line hm.to)) (label_line nT (commas_line hn.to)) h
  have sub : ∀ (a : Char) (p s r : Str), a ≠ 'S' → ¬ (a :: p) <+: print ("Subject: ".toList ++ s) ++ r := by
    intro a p s r ha
    rw [eS]
    exact not_prefix ha
  have rep : ∀ (a : Char) (p : Str) (l : List Str) (s r : Str), a ≠ 'S' → a ≠ 'R' →
      ¬ (a :: p) <+: listed "Reply-To: ".toList l ++ (print ("Subject: ".toList ++ s) ++ r) := by
    intro a p l s r ha hb
    refine listed_skip (fun t => ?_) (sub a p s r ha)
    rw [eR]
    exact not_prefix hb
  have bl : ∀ (p : Str) (k l : List Str) (s r : Str), ¬ ('C' :: p) <+: listed "Bcc: ".toList k ++
      (listed "Reply-To: ".toList l ++ (print ("Subject: ".toList ++ s) ++ r)) := by
    intro p k l s r
    refine listed_skip (fun t => ?_) (rep _ p l s r (by decide) (by decide))
    rw [eB]
    exact not_prefix (by decide)
  obtain ⟨e3, h⟩ := listed_inj nC hm.cc hn.cc (by rw [eC]; exact bl _ _ _ _ _) (by rw [eC]; exact bl _ _ _ _ _) h
  obtain ⟨e4, h⟩ := listed_inj nB hm.bcc hn.bcc (by rw [eB]; exact rep _ _ _ _ _ (by decide) (by decide))
    (by rw [eB]; exact rep _ _ _ _ _ (by decide) (by decide)) h
  obtain ⟨e5, h⟩ := listed_inj nR hm.replyTo hn.replyTo (by rw [eR]; exact sub _ _ _ _ (by decide))
    (by rw [eR]; exact sub _ _ _ _ (by decide)) h
  obtain ⟨e6, -⟩ := print_inj (label_line nS hm.subject) (label_line nS hn.subject) h
  refine ⟨?_, commas_inj hm.to hn.to (List.append_cancel_left e2), e3, e4, e5, List.append_cancel_left e6⟩
  have e1 := List.append_cancel_left e1
  cases em : m.sender with
  | none =>
    cases en : n.sender with
    | none => rfl
    | some s =>
      rw [em, en] at e1
      exact absurd e1.symm (hn.sender s en).2
  | some t =>
    cases en : n.sender with
    | none =>
      rw [em, en] at e1
      exact absurd e1 (hm.sender t em).2
    | some s =>
      rw [em, en] at e1
      exact congrArg some e1

example : Plain sample where
  sender := fun s h => by
    cases h
    exact ⟨by decide +kernel, by decide +kernel⟩
  subject := by decide +kernel
  to := by unfold Address; decide +kernel
  cc := by unfold Address; decide +kernel
  bcc := by unfold Address; decide +kernel
  replyTo := by unfold Address; decide +kernel

/-- The bodies are not told apart: a text that goes on like the section of a second body is printed as the two. -/
theorem C166_bodies_false : ¬ ∀ m n : Message, Plain m → Plain n → send m = send n →
    m.text = n.text ∧ m.html = n.html := by
  intro h
  have p : ∀ t u : Option Str, Plain { sample with text := t, html := u } := fun t u =>
    { sender := fun s h => by
        cases h
        exact ⟨by decide +kernel, by decide +kernel⟩
      subject := by show '\n' ∉ sample.subject; decide +kernel
      to := by show ∀ a ∈ sample.to, Address a; unfold Address; decide +kernel
      cc := by show ∀ a ∈ sample.cc, Address a; unfold Address; decide +kernel
      bcc := by show ∀ a ∈ sample.bcc, Address a; unfold Address; decide +kernel
      replyTo := by show ∀ a ∈ sample.replyTo, Address a; unfold Address; decide +kernel }
  have := h _ _ (p (some "T\n\n-- text/html --\nU".toList) none) (p (some "T".toList) (some "U".toList))
    (by decide +kernel)
  exact absurd this.2 (by decide +kernel)

/-- Without plain addresses not even the recipients are: an address with a comma is printed as two, and a subject with
a line break prints lines of its own. -/
theorem C166_addresses_false : ¬ ∀ m n : Message, send m = send n → m.to = n.to := by
  intro h
  exact absurd (h { sample with to := ["a@x, b@x".toList] } sample (by decide +kernel)) (by decide +kernel)

/-- Of attachments only the number is printed: neither their contents nor the paths can be seen. -/
theorem C166_files (m : Message) (a p : List Str) (ha : a.length = m.attachments.length)
    (hp : p.length = m.paths.length) : send { m with attachments := a, paths := p } = send m := by
  have e : ∀ {k l : List Str}, k.length = l.length → (k = [] ↔ l = []) := by
    intro k l h
    rw [← List.length_eq_zero_iff, ← List.length_eq_zero_iff, h]
  have f : files { m with attachments := a, paths := p } = files m := by
    simp only [files, e ha, e hp, ha, hp]
  unfold send
  refine congrArg _ ?_
  unfold tail
  rw [f]
  rfl

example : ["x".toList].length = ["y".toList].length := rfl

end Verif.ConsoleMail.Props
