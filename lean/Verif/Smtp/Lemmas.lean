import Verif.Smtp.Spec

/-!
# Lemmas about the connection
-/

namespace Verif.Smtp

open Spec

/-! ## What is said when connecting -/

theorem say_all (n : Nat) (cs : List Cmd) (k : Nat) (h : cs.length ≤ k) :
    say n cs k = say n cs cs.length := by
  induction cs generalizing k with
  | nil => rfl
  | cons c cs ih =>
    cases k with
    | zero => simp at h
    | succ k =>
      show _ :: say n cs k = _ :: say n cs cs.length
      rw [ih k (by simpa using h)]

theorem say_cut (n : Nat) (cs : List Cmd) (k : Nat) (h : k < cs.length) :
    ∃ pre e post, say n cs cs.length = pre ++ e :: post ∧
      say n cs k = pre ++ [{ e with accepted := false }] := by
  induction cs generalizing k with
  | nil => simp at h
  | cons c cs ih =>
    cases k with
    | zero => exact ⟨[], { conn := n, cmd := c, accepted := true }, say n cs cs.length, rfl, rfl⟩
    | succ k =>
      obtain ⟨pre, e, post, h1, h2⟩ := ih k (by simpa using h)
      refine ⟨{ conn := n, cmd := c, accepted := true } :: pre, e, post, ?_, ?_⟩
      · show _ :: say n cs cs.length = _
        rw [h1]; rfl
      · show _ :: say n cs k = _
        rw [h2]; rfl

theorem say_intro (n : Nat) (c : Config) : Introduced n c (say n (script c) (script c).length) := by
  obtain ⟨t, l⟩ := c
  cases t <;> cases l
  · exact .plain
  · exact .plainLogin
  · exact .tls
  · exact .tlsLogin

theorem say_conn (n : Nat) (cs : List Cmd) (k : Nat) : ∀ e ∈ say n cs k, e.conn = n := by
  induction cs generalizing k with
  | nil => intro e he; cases he
  | cons c cs ih =>
    cases k with
    | zero => intro e he; rw [List.mem_singleton.mp he]
    | succ k =>
      intro e he
      rcases List.mem_cons.mp he with rfl | he
      · rfl
      · exact ih k e he

theorem script_pos (c : Config) : script c ≠ [] := by
  unfold script; simp

/-! ## The invariant -/

/-- A conversation that is over. -/
def Finished (n : Nat) (c : Config) (l : List Event) : Prop :=
  CutShort n c l ∨ ∃ intro mails, Introduced n c intro ∧ (∀ e ∈ mails, IsMail e) ∧
    l = intro ++ mails ++ [⟨n, .quit, true, []⟩]

/-- A conversation that can go on. -/
def Ongoing (n : Nat) (c : Config) (l : List Event) : Prop :=
  ∃ intro mails, Introduced n c intro ∧ (∀ e ∈ mails, IsMail e) ∧ l = intro ++ mails

/-- What holds of the client. -/
def ClientOk (c : Config) (s : State) : Option (Nat × Bool) → Prop
  | none => ∀ n, n < s.next → Finished n c (on n s.log)
  | some (k, _) => s.next = k + 1 ∧ Ongoing k c (on k s.log) ∧ ∀ n, n < k → Finished n c (on n s.log)

/-- The invariant of all runs. -/
structure Inv (c : Config) (s : State) : Prop where
  below : ∀ e ∈ s.log, e.conn < s.next
  sorted : s.log.Pairwise fun a b => a.conn ≤ b.conn
  client : ClientOk c s s.client

theorem on_append (n : Nat) (l l' : List Event) : on n (l ++ l') = on n l ++ on n l' := by
  unfold on; exact List.filter_append ..

theorem on_same (n : Nat) (l : List Event) (h : ∀ e ∈ l, e.conn = n) : on n l = l := by
  unfold on
  rw [List.filter_eq_self]
  intro e he
  exact decide_eq_true (h e he)

theorem on_other (n m : Nat) (l : List Event) (h : ∀ e ∈ l, e.conn = m) (hne : n ≠ m) : on n l = [] := by
  unfold on
  rw [List.filter_eq_nil_iff]
  intro e he
  rw [decide_eq_true_eq, h e he]
  exact fun x => hne x.symm

theorem on_fresh (n : Nat) (l : List Event) (h : ∀ e ∈ l, e.conn < n) : on n l = [] := by
  unfold on
  rw [List.filter_eq_nil_iff]
  intro e he
  rw [decide_eq_true_eq]
  have := h e he
  omega

theorem sorted_append (l l' : List Event) (n : Nat) (h : l.Pairwise fun a b => a.conn ≤ b.conn)
    (hl : ∀ e ∈ l, e.conn ≤ n) (hl' : ∀ e ∈ l', e.conn = n) :
    (l ++ l').Pairwise fun a b => a.conn ≤ b.conn := by
  rw [List.pairwise_append]
  refine ⟨h, ?_, ?_⟩
  · rw [List.pairwise_iff_forall_sublist]
    intro a b hs
    have ha := hl' a (hs.subset (by simp))
    have hb := hl' b (hs.subset (by simp))
    omega
  · intro a ha b hb
    rw [hl' b hb]
    exact hl a ha

theorem inv_start (c : Config) : Inv c {} :=
  ⟨(fun e he => by cases he), List.Pairwise.nil, fun n hn => absurd hn (Nat.not_lt_zero n)⟩

theorem inv_open (c : Config) (k : Nat) (s : State) (h : Inv c s) : Inv c (doOpen c k s).1 := by
  unfold doOpen
  cases hc : s.client with
  | some x => simpa using h
  | none =>
    have hcl := h.client
    rw [hc] at hcl
    have hall := say_conn s.next (script c) k
    have hbelow : ∀ e ∈ s.log ++ say s.next (script c) k, e.conn < s.next + 1 := by
      intro e he
      rcases List.mem_append.mp he with he | he
      · have := h.below e he; omega
      · rw [hall e he]; omega
    have hsorted := sorted_append s.log (say s.next (script c) k) s.next h.sorted
      (fun e he => Nat.le_of_lt (h.below e he)) hall
    have hnew : on s.next (s.log ++ say s.next (script c) k) = say s.next (script c) k := by
      rw [on_append, on_fresh s.next s.log h.below, on_same _ _ hall, List.nil_append]
    have hold : ∀ n, n < s.next → on n (s.log ++ say s.next (script c) k) = on n s.log := by
      intro n hn
      rw [on_append, on_other n s.next _ hall (Nat.ne_of_lt hn), List.append_nil]
    by_cases hk : (script c).length ≤ k
    · simp only [if_pos hk]
      refine ⟨hbelow, hsorted, rfl, ?_, ?_⟩
      · refine ⟨say s.next (script c) k, [], ?_, (fun e he => by cases he), ?_⟩
        · rw [say_all _ _ _ hk]
          exact say_intro _ _
        · rw [List.append_nil]; exact hnew
      · intro n hn
        show Finished n c (on n (s.log ++ say s.next (script c) k))
        rw [hold n hn]
        exact hcl n hn
    · simp only [if_neg hk]
      refine ⟨hbelow, hsorted, ?_⟩
      intro n hn
      show Finished n c (on n (s.log ++ say s.next (script c) k))
      have hn' : n < s.next + 1 := hn
      by_cases he : n = s.next
      · subst he
        rw [hnew]
        left
        obtain ⟨pre, e, post, h1, h2⟩ := say_cut s.next (script c) k (by omega)
        exact ⟨pre, e, post, by rw [← h1]; exact say_intro _ _, h2⟩
      · rw [hold n (by omega)]
        exact hcl n (by omega)

theorem inv_close (c : Config) (s : State) (h : Inv c s) : Inv c (doClose s).1 := by
  have hcl := h.client
  unfold doClose
  match hc : s.client with
  | none => simpa using h
  | some (n, false) => simpa using h
  | some (n, true) =>
    rw [hc] at hcl
    obtain ⟨hn, ⟨intro, mails, hi, hm, ho⟩, hf⟩ := hcl
    have hall : ∀ e ∈ [(⟨n, .quit, true, []⟩ : Event)], e.conn = n := by
      intro e he; rw [List.mem_singleton.mp he]
    refine ⟨?_, ?_, ?_⟩
    · intro e he
      rcases List.mem_append.mp he with he | he
      · exact h.below e he
      · rw [hall e he]
        show n < s.next
        omega
    · exact sorted_append _ _ n h.sorted (fun e he => by have := h.below e he; omega) hall
    · intro k hk
      show Finished k c (on k (s.log ++ [⟨n, .quit, true, []⟩]))
      have hk' : k < s.next := hk
      by_cases he : k = n
      · subst he
        rw [on_append, on_same _ _ hall, ho]
        exact Or.inr ⟨intro, mails, hi, hm, rfl⟩
      · rw [on_append, on_other k n _ hall he, List.append_nil]
        exact hf k (by omega)

/-- Adding one mail keeps the invariant. -/
theorem inv_mail (c : Config) (s : State) (h : Inv c s) (n : Nat) (a : Bool) (hc : s.client = some (n, a))
    (m : Mail) (b : Bool) (acc : Bool) (r : List Str) :
    Inv c { s with client := some (n, b), log := s.log ++ [{ conn := n, cmd := .mail m, accepted := acc,
                                                             reached := r }] } := by
  have hcl := h.client
  rw [hc] at hcl
  obtain ⟨hn, ⟨intro, mails, hi, hm, ho⟩, hf⟩ := hcl
  have hall : ∀ e ∈ [({ conn := n, cmd := .mail m, accepted := acc, reached := r } : Event)], e.conn = n := by
    intro e he; rw [List.mem_singleton.mp he]
  refine ⟨?_, ?_, ?_⟩
  · intro e he
    rcases List.mem_append.mp he with he | he
    · exact h.below e he
    · rw [hall e he]
      show n < s.next
      omega
  · exact sorted_append _ _ n h.sorted (fun e he => by have := h.below e he; omega) hall
  · refine ⟨hn, ?_, ?_⟩
    · show Ongoing n c (on n (s.log ++ _))
      rw [on_append, on_same _ _ hall, ho]
      refine ⟨intro, mails ++ [{ conn := n, cmd := .mail m, accepted := acc, reached := r }], hi, ?_, by simp⟩
      intro e he
      rcases List.mem_append.mp he with he | he
      · exact hm e he
      · rw [List.mem_singleton.mp he]; exact ⟨m, rfl⟩
    · intro k hk
      show Finished k c (on k (s.log ++ _))
      rw [on_append, on_other k n _ hall (Nat.ne_of_lt hk), List.append_nil]
      exact hf k hk

theorem inv_send (c : Config) (m : Mail) (r : Reply) (s : State) (h : Inv c s) : Inv c (doSend m r s).1 := by
  unfold doSend
  match hc : s.client with
  | none => simpa using h
  | some (n, false) => simpa using h
  | some (n, true) =>
    have key := inv_mail c s h n true hc m
    cases r with
    | breaks => exact key false false []
    | refuses =>
      exact key true false []
    | takes l =>
      simp only
      split
      · exact key true false []
      · exact key true true (m.to.filter fun a => !l.contains a)

theorem inv_sendMany (c : Config) (l : List (Mail × Reply)) (s : State) (h : Inv c s) :
    Inv c (doSendMany l s).1 := by
  induction l generalizing s with
  | nil => exact h
  | cons x l ih =>
    obtain ⟨m, r⟩ := x
    unfold doSendMany
    have hs := inv_send c m r s h
    cases hd : doSend m r s with
    | mk s' o =>
      rw [hd] at hs
      cases o with
      | ok => exact ih s' hs
      | raised => exact hs

theorem inv_step (c : Config) (s : State) (o : Op) (h : Inv c s) : Inv c (step c s o).1 := by
  cases o with
  | opens k => exact inv_open c k s h
  | closes => exact inv_close c s h
  | sends m r => exact inv_send c m r s h
  | sendsMany l => exact inv_sendMany c l s h
  | drops =>
    refine ⟨h.below, h.sorted, ?_⟩
    have hcl := h.client
    show ClientOk c _ (s.client.map fun x => (x.1, false))
    cases hc : s.client with
    | none => rw [hc] at hcl; exact hcl
    | some x => rw [hc] at hcl; exact hcl

theorem inv_run (c : Config) (os : List Op) (s : State) (h : Inv c s) : Inv c (run c s os) := by
  induction os generalizing s with
  | nil => exact h
  | cons o os ih => exact ih _ (inv_step c s o h)

theorem finished_conversation {n : Nat} {c : Config} {l : List Event} (h : Finished n c l) :
    Conversation n c l := by
  rcases h with h | ⟨intro, mails, hi, hm, rfl⟩
  · exact .cut l h
  · exact .closed intro mails hi hm

/-! ## Encryption -/

theorem tls_intro {n : Nat} {l : Bool} {q : List Event} (h : Introduced n ⟨true, l⟩ q) :
    ∃ tail, q = ⟨n, .connect, true, []⟩ :: ⟨n, .ehlo, true, []⟩ :: ⟨n, .starttls, true, []⟩ :: tail := by
  cases h <;> exact ⟨_, rfl⟩

/-- A conversation of an encrypting client either gets past the encryption or stops there. -/
theorem tls_shape {n : Nat} {l : Bool} {L : List Event} (h : Conversation n ⟨true, l⟩ L) :
    (∃ tail, L = ⟨n, .connect, true, []⟩ :: ⟨n, .ehlo, true, []⟩ :: ⟨n, .starttls, true, []⟩ :: tail) ∨
    (∀ e ∈ L, e.cmd = .connect ∨ e.cmd = .ehlo ∨ e.cmd = .starttls) := by
  cases h with
  | none => right; intro e he; cases he
  | «open» intro mails hi hm =>
    obtain ⟨t, rfl⟩ := tls_intro hi
    exact Or.inl ⟨t ++ mails, rfl⟩
  | closed intro mails hi hm =>
    obtain ⟨t, rfl⟩ := tls_intro hi
    exact Or.inl ⟨t ++ mails ++ [⟨n, .quit, true, []⟩], rfl⟩
  | cut _ h =>
    obtain ⟨pre, x, post, hi, rfl⟩ := h
    obtain ⟨t, ht⟩ := tls_intro hi
    match pre, ht with
    | [], ht =>
      obtain ⟨rfl, _⟩ := List.cons.inj ht
      right; simp
    | [p], ht =>
      obtain ⟨rfl, h1⟩ := List.cons.inj ht
      obtain ⟨rfl, _⟩ := List.cons.inj h1
      right; simp
    | [p, q], ht =>
      obtain ⟨rfl, h1⟩ := List.cons.inj ht
      obtain ⟨rfl, h2⟩ := List.cons.inj h1
      obtain ⟨rfl, _⟩ := List.cons.inj h2
      right; simp
    | p :: q :: z :: pre', ht =>
      obtain ⟨rfl, h1⟩ := List.cons.inj ht
      obtain ⟨rfl, h2⟩ := List.cons.inj h1
      obtain ⟨rfl, _⟩ := List.cons.inj h2
      exact Or.inl ⟨pre' ++ [{ x with accepted := false }], rfl⟩

/-! ## Many mails -/

theorem sendMany_log (l : List (Mail × Reply)) (s : State) :
    ∃ evs : List Event, (doSendMany l s).1.log = s.log ++ evs ∧
      (∃ rest, l.map (fun x => Cmd.mail x.1) = evs.map (·.cmd) ++ rest) ∧
      ((doSendMany l s).2 = .ok → evs.map (·.cmd) = l.map (fun x => Cmd.mail x.1) ∧
        ∀ e ∈ evs, e.accepted = true) ∧
      ((doSendMany l s).2 = .raised → ∃ good bad, evs = good ++ bad ∧ (∀ e ∈ good, e.accepted = true) ∧
        (∀ e ∈ bad, e.accepted = false) ∧ bad.length ≤ 1 ∧ good.length < l.length) := by
  induction l generalizing s with
  | nil =>
    refine ⟨[], by simp [doSendMany], ⟨[], rfl⟩, fun _ => ⟨rfl, (fun e he => by cases he)⟩, ?_⟩
    intro h; cases h
  | cons x l ih =>
    obtain ⟨m, r⟩ := x
    have one : (∃ e : Event, (doSend m r s).1.log = s.log ++ [e] ∧ e.cmd = .mail m ∧
          (((doSend m r s).2 = .ok ∧ e.accepted = true) ∨ ((doSend m r s).2 = .raised ∧ e.accepted = false))) ∨
        ((doSend m r s).1.log = s.log ∧ (doSend m r s).2 = .raised) := by
      unfold doSend
      match hc : s.client with
      | none => right; exact ⟨rfl, rfl⟩
      | some (n, false) => right; exact ⟨rfl, rfl⟩
      | some (n, true) =>
        left
        cases r with
        | breaks => exact ⟨_, rfl, rfl, Or.inr ⟨rfl, rfl⟩⟩
        | refuses => exact ⟨_, rfl, rfl, Or.inr ⟨rfl, rfl⟩⟩
        | takes t =>
          simp only
          split
          · exact ⟨_, rfl, rfl, Or.inr ⟨rfl, rfl⟩⟩
          · exact ⟨_, rfl, rfl, Or.inl ⟨rfl, rfl⟩⟩
    unfold doSendMany
    cases hd : doSend m r s with
    | mk s' o =>
      rw [hd] at one
      cases o with
      | raised =>
        simp only
        rcases one with ⟨e, hl, hcmd, ho⟩ | ⟨hl, _⟩
        · have hacc : e.accepted = false := by
            rcases ho with ⟨h, _⟩ | ⟨_, h⟩
            · cases h
            · exact h
          refine ⟨[e], hl, ⟨l.map (fun x => Cmd.mail x.1), by simp [hcmd]⟩, (fun h => by cases h), fun _ => ?_⟩
          exact ⟨[], [e], rfl, (fun x hx => by cases hx), (fun x hx => by rw [List.mem_singleton.mp hx]; exact hacc),
            by simp, by simp⟩
        · refine ⟨[], by simpa using hl, ⟨_, rfl⟩, (fun h => by cases h), fun _ => ?_⟩
          exact ⟨[], [], rfl, (fun x hx => by cases hx), (fun x hx => by cases hx), by simp, by simp⟩
      | ok =>
        simp only
        rcases one with ⟨e, hl, hcmd, ho⟩ | ⟨_, h⟩
        · have hacc : e.accepted = true := by
            rcases ho with ⟨_, h⟩ | ⟨h, _⟩
            · exact h
            · cases h
          obtain ⟨evs, h1, ⟨rest, h2⟩, h3, h4⟩ := ih s'
          refine ⟨e :: evs, ?_, ⟨rest, by simp [h2, hcmd]⟩, ?_, ?_⟩
          · rw [h1, show s'.log = s.log ++ [e] from hl]; simp
          · intro hok
            obtain ⟨h5, h6⟩ := h3 hok
            refine ⟨by simp [h5, hcmd], ?_⟩
            intro x hx
            rcases List.mem_cons.mp hx with rfl | hx
            · exact hacc
            · exact h6 x hx
          · intro hr
            obtain ⟨good, bad, rfl, hg, hb, hl1, hl2⟩ := h4 hr
            refine ⟨e :: good, bad, rfl, ?_, hb, hl1, by simpa using hl2⟩
            intro x hx
            rcases List.mem_cons.mp hx with rfl | hx
            · exact hacc
            · exact hg x hx
        · cases h

end Verif.Smtp
