import Verif.Smtp.Lemmas

/-!
# C80: the SMTP connection

The backend talks to one server connection at a time: introduction (encrypted before the login, if so
configured), mails, `quit`.  A mail whose sending returned was taken by the server, one after the other in the
order of the calls; and after the server went away the backend can be closed, opened and used again.
-/

namespace Verif.Smtp

open Spec

/-- **C80** (conversations): whatever is called and whatever the server answers, what is said on each connection
is a conversation, and a new connection is begun only after the earlier ones ended. -/
theorem C80_conversation (c : Config) (ops : List Op) :
    (∀ n, Conversation n c (on n (run c {} ops).log)) ∧
    (run c {} ops).log.Pairwise (fun a b => a.conn ≤ b.conn) ∧
    (∀ n k, n < k → on k (run c {} ops).log ≠ [] → CutShort n c (on n (run c {} ops).log) ∨
      ∃ before, on n (run c {} ops).log = before ++ [⟨n, .quit, true, []⟩]) := by
  have h := inv_run c ops {} (inv_start c)
  generalize run c {} ops = s at h ⊢
  refine ⟨?_, h.sorted, ?_⟩
  · intro n
    by_cases hn : n < s.next
    · have hcl := h.client
      match hc : s.client with
      | none => rw [hc] at hcl; exact finished_conversation (hcl n hn)
      | some (k, b) =>
        rw [hc] at hcl
        obtain ⟨hk, ⟨intro, mails, hi, hm, ho⟩, hf⟩ := hcl
        by_cases he : n = k
        · subst he
          rw [ho]
          exact .open intro mails hi hm
        · exact finished_conversation (hf n (by omega))
    · rw [on_fresh n s.log (fun e he => by have := h.below e he; omega)]
      exact .none
  · intro n k hnk hne
    have hk : k < s.next := by
      rcases Nat.lt_or_ge k s.next with hk | hk
      · exact hk
      · exact absurd (on_fresh k s.log (fun e he => by have := h.below e he; omega)) hne
    have hfin : Finished n c (on n s.log) := by
      have hcl := h.client
      match hc : s.client with
      | none => rw [hc] at hcl; exact hcl n (by omega)
      | some (j, b) =>
        rw [hc] at hcl
        exact hcl.2.2 n (by have := hcl.1; omega)
    rcases hfin with h | ⟨intro, mails, _, _, h⟩
    · exact Or.inl h
    · exact Or.inr ⟨_, h⟩

/-- A mail for the examples. -/
def letter : Mail := { id := 1, to := ["a@x".toList, "b@x".toList] }

example : (run ⟨true, true⟩ {} [.opens 9, .sends letter (.takes []), .closes, .opens 2]).log =
    [⟨0, .connect, true, []⟩, ⟨0, .ehlo, true, []⟩, ⟨0, .starttls, true, []⟩, ⟨0, .ehlo, true, []⟩,
     ⟨0, .login, true, []⟩, ⟨0, .mail letter, true, letter.to⟩, ⟨0, .quit, true, []⟩,
     ⟨1, .connect, true, []⟩, ⟨1, .ehlo, true, []⟩, ⟨1, .starttls, false, []⟩] := by decide

/-- **C80** (the password is not sent in the clear): with encryption configured, whenever the login or a mail is
said on a connection, the server has accepted to start the encryption on that connection before. -/
theorem C80_encrypted (l : Bool) (ops : List Op) (before after : List Event) (e : Event)
    (h : (run ⟨true, l⟩ {} ops).log = before ++ e :: after) (he : e.cmd = .login ∨ IsMail e) :
    ∃ t ∈ before, t.conn = e.conn ∧ t.cmd = .starttls ∧ t.accepted = true := by
  have hc := (C80_conversation ⟨true, l⟩ ops).1 e.conn
  rw [h, on_append] at hc
  have hon : on e.conn (e :: after) = e :: on e.conn after := by
    unfold on; rw [List.filter_cons_of_pos (by simp)]
  rw [hon] at hc
  suffices hs : ∃ t ∈ on e.conn before, t.cmd = .starttls ∧ t.accepted = true by
    obtain ⟨t, ht, h1, h2⟩ := hs
    obtain ⟨hm, hn⟩ := List.mem_filter.mp ht
    exact ⟨t, hm, of_decide_eq_true hn, h1, h2⟩
  generalize on e.conn before = b at hc ⊢
  generalize on e.conn after = a at hc
  generalize e.conn = n at hc
  have hne : e.cmd ≠ .connect ∧ e.cmd ≠ .ehlo ∧ e.cmd ≠ .starttls := by
    rcases he with he | ⟨m, he⟩ <;> rw [he] <;> exact ⟨by simp, by simp, by simp⟩
  rcases tls_shape hc with ⟨tail, ht⟩ | hall
  · match b, ht with
    | [], ht =>
      obtain ⟨rfl, _⟩ := List.cons.inj ht
      exact absurd rfl hne.1
    | [p], ht =>
      obtain ⟨_, h1⟩ := List.cons.inj ht
      obtain ⟨rfl, _⟩ := List.cons.inj h1
      exact absurd rfl hne.2.1
    | [p, q], ht =>
      obtain ⟨_, h1⟩ := List.cons.inj ht
      obtain ⟨_, h2⟩ := List.cons.inj h1
      obtain ⟨rfl, _⟩ := List.cons.inj h2
      exact absurd rfl hne.2.2
    | p :: q :: z :: b', ht =>
      obtain ⟨_, h1⟩ := List.cons.inj ht
      obtain ⟨_, h2⟩ := List.cons.inj h1
      obtain ⟨rfl, _⟩ := List.cons.inj h2
      exact ⟨⟨n, .starttls, true, []⟩, by simp, rfl, rfl⟩
  · rcases hall e (by simp) with h | h | h
    · exact absurd h hne.1
    · exact absurd h hne.2.1
    · exact absurd h hne.2.2

example : ∃ before after, (run ⟨true, true⟩ {} [.opens 9]).log = before ++ ⟨0, .login, true, []⟩ :: after :=
  ⟨[⟨0, .connect, true, []⟩, ⟨0, .ehlo, true, []⟩, ⟨0, .starttls, true, []⟩, ⟨0, .ehlo, true, []⟩], [],
    by decide⟩

/-- **C80** (a mail that was sent): sending returns without an exception exactly when the connection is alive and
the server takes the mail for some of its addresses; then one mail was said on that connection, and it reached
the addresses the server did not refuse.  Without a connection nothing is said. -/
theorem C80_send (m : Mail) (r : Reply) (s : State) :
    ((doSend m r s).2 = .ok ↔
      ∃ n except, s.client = some (n, true) ∧ r = .takes except ∧ ∃ a ∈ m.to, a ∉ except) ∧
    ((doSend m r s).2 = .ok → ∃ n reached, (doSend m r s).1.log = s.log ++ [⟨n, .mail m, true, reached⟩] ∧
      s.client = some (n, true) ∧ reached ≠ [] ∧
      ∀ a, a ∈ reached ↔ a ∈ m.to ∧ ∀ except, r = .takes except → a ∉ except) ∧
    ((doSend m r s).2 = .raised → (doSend m r s).1.log = s.log ∨
      ∃ n, (doSend m r s).1.log = s.log ++ [⟨n, .mail m, false, []⟩]) ∧
    (s.client = none → doSend m r s = (s, .raised)) := by
  unfold doSend
  match hc : s.client with
  | none => simp
  | some (n, false) => simp
  | some (n, true) =>
    cases r with
    | breaks => simp
    | refuses => simp
    | takes t =>
      simp only
      by_cases hall : (m.to.all fun x => t.contains x) = true
      · rw [if_pos hall]
        have hno : ¬ ∃ a ∈ m.to, a ∉ t := by
          rintro ⟨a, ha, hn⟩
          have := List.all_eq_true.mp hall a ha
          exact hn (by simpa using this)
        refine ⟨⟨(fun h => by cases h), ?_⟩, (fun h => by cases h), fun _ => Or.inr ⟨n, rfl⟩, fun h => by cases h⟩
        rintro ⟨n', t', _, ht, ha⟩
        cases ht
        exact absurd ha hno
      · rw [if_neg hall]
        have hyes : ∃ a ∈ m.to, a ∉ t := by
          simpa using hall
        refine ⟨⟨fun _ => ⟨n, t, rfl, rfl, hyes⟩, fun _ => rfl⟩, fun _ => ?_, (fun h => by cases h),
          fun h => by cases h⟩
        refine ⟨n, _, rfl, rfl, ?_, ?_⟩
        · obtain ⟨a, ha, hn⟩ := hyes
          intro h
          have : a ∈ m.to.filter fun a => !t.contains a := List.mem_filter.mpr ⟨ha, by simpa using hn⟩
          rw [h] at this
          cases this
        · intro a
          rw [List.mem_filter]
          constructor
          · rintro ⟨h1, h2⟩
            refine ⟨h1, ?_⟩
            intro t' ht
            cases ht
            simpa using h2
          · rintro ⟨h1, h2⟩
            exact ⟨h1, by simpa using h2 t rfl⟩

/-- **C80** (partial): a mail whose sending returned was delivered, if the server refuses none of its addresses.
The full statement — without that condition — is false: `C80_refused_false`. -/
theorem C80_delivered_partial (m : Mail) (s : State) (h : (doSend m (.takes []) s).2 = .ok) :
    Delivered m (doSend m (.takes []) s).1.log := by
  obtain ⟨n, reached, hl, _, _, hr⟩ := (C80_send m (.takes []) s).2.1 h
  refine ⟨⟨n, .mail m, true, reached⟩, by rw [hl]; simp, rfl, rfl, ?_⟩
  intro a ha
  exact (hr a).mpr ⟨ha, fun t ht => by cases ht; simp⟩

example : (doSend letter (.takes []) { client := some (3, true), next := 4 }).2 = .ok := by decide

/-- **C80** (false in full): a mail some of whose addresses the server refused is reported as sent. -/
theorem C80_refused_false : ¬ ∀ (m : Mail) (r : Reply) (s : State), (doSend m r s).2 = .ok →
    Delivered m (doSend m r s).1.log := by
  intro h
  obtain ⟨e, he, _, _, ha⟩ := h letter (.takes ["b@x".toList]) { client := some (0, true), next := 1 } (by decide)
  have hlog : (doSend letter (.takes ["b@x".toList]) { client := some (0, true), next := 1 }).1.log =
      [⟨0, .mail letter, true, ["a@x".toList]⟩] := by decide
  rw [hlog] at he
  rw [List.mem_singleton.mp he] at ha
  exact absurd (ha "b@x".toList (by decide)) (by decide)

/-- **C80** (many mails): the mails are said one by one in the order given, each once, up to the first one that
fails; the call returns only if all were taken. -/
theorem C80_many (l : List (Mail × Reply)) (s : State) :
    ∃ evs : List Event, (doSendMany l s).1.log = s.log ++ evs ∧
      (∃ rest, l.map (fun x => Cmd.mail x.1) = evs.map (·.cmd) ++ rest) ∧
      ((doSendMany l s).2 = .ok → evs.map (·.cmd) = l.map (fun x => Cmd.mail x.1) ∧
        ∀ e ∈ evs, e.accepted = true) ∧
      ((doSendMany l s).2 = .raised → ∃ good bad, evs = good ++ bad ∧ (∀ e ∈ good, e.accepted = true) ∧
        (∀ e ∈ bad, e.accepted = false) ∧ bad.length ≤ 1 ∧ good.length < l.length) :=
  sendMany_log l s

example : (doSendMany [(letter, .takes []), ({ letter with id := 2 }, .refuses), ({ letter with id := 3 }, .takes [])]
    { client := some (0, true), next := 1 }).1.log =
    [⟨0, .mail letter, true, letter.to⟩, ⟨0, .mail { letter with id := 2 }, false, []⟩] := by decide

/-- **C80** (opening and closing twice): opening an open backend and closing a closed one do nothing at all. -/
theorem C80_idempotent (c : Config) (k : Nat) (s : State) :
    (s.client ≠ none → doOpen c k s = (s, .ok)) ∧ (s.client = none → doClose s = (s, .ok)) := by
  constructor
  · intro h
    unfold doOpen
    cases hc : s.client with
    | none => exact absurd hc h
    | some x => rfl
  · intro h
    unfold doClose
    rw [h]

example : doOpen ⟨false, false⟩ 0 { client := some (0, true), next := 1 } =
    ({ client := some (0, true), next := 1 }, .ok) := by decide

/-- **C80** (partial): a backend that is not connected, or whose connection is alive, can be closed and opened
again: with a server that answers it then has a fresh connection.  The full statement — in every state — is
false: `C80_stuck_false`. -/
theorem C80_recover_partial (c : Config) (s : State) (k : Nat) (hk : (script c).length ≤ k)
    (h : ∀ n, s.client ≠ some (n, false)) :
    (run c s [.closes, .opens k]).client = some (s.next, true) ∧
    (doOpen c k (doClose s).1).2 = .ok := by
  have hopen : ∀ t : State, t.client = none → (doOpen c k t).1.client = some (t.next, true) ∧
      (doOpen c k t).2 = .ok := by
    intro t ht
    unfold doOpen
    rw [ht]
    simp only
    rw [if_pos hk]
    exact ⟨rfl, rfl⟩
  show (doOpen c k (doClose s).1).1.client = _ ∧ _
  have hcl : (doClose s).1.client = none ∧ (doClose s).1.next = s.next := by
    unfold doClose
    match hc : s.client with
    | none => exact ⟨hc, rfl⟩
    | some (n, false) => exact absurd hc (h n)
    | some (n, true) => exact ⟨rfl, rfl⟩
  have := hopen (doClose s).1 hcl.1
  rw [hcl.2] at this
  exact this

example : (run ⟨true, false⟩ { client := some (4, true), next := 5 } [.closes, .opens 7]).client =
    some (5, true) := by decide

/-- **C80** (false in full): once the server has gone away, the backend never says anything again: closing it
raises and keeps the dead connection, opening it does nothing, every mail fails — for all further calls. -/
theorem C80_stuck_false (c : Config) (s : State) (n : Nat) (h : s.client = some (n, false)) :
    (∀ ops, run c s ops = s) ∧ (∀ m r, (doSend m r s).2 = .raised) ∧ (doClose s).2 = .raised := by
  have hsend : ∀ m r, doSend m r s = (s, .raised) := by
    intro m r
    unfold doSend
    rw [h]
  have hclose : doClose s = (s, .raised) := by
    unfold doClose
    rw [h]
  refine ⟨?_, (fun m r => by rw [hsend]), by rw [hclose]⟩
  have hstep : ∀ o, (step c s o).1 = s := by
    intro o
    cases o with
    | opens k =>
      show (doOpen c k s).1 = s
      rw [(C80_idempotent c k s).1 (by rw [h]; simp)]
    | closes => show (doClose s).1 = s; rw [hclose]
    | sends m r => show (doSend m r s).1 = s; rw [hsend]
    | sendsMany l =>
      show (doSendMany l s).1 = s
      cases l with
      | nil => rfl
      | cons x l =>
        obtain ⟨m, r⟩ := x
        unfold doSendMany
        rw [hsend]
    | drops =>
      show { s with client := s.client.map fun x => (x.1, false) } = s
      rw [h]
      show { s with client := some (n, false) } = s
      rw [← h]
  intro ops
  induction ops with
  | nil => rfl
  | cons o ops ih =>
    show run c (step c s o).1 ops = s
    rw [hstep o]
    exact ih

/-- The state is reached: the server goes away while the backend is open. -/
example : (run ⟨true, true⟩ {} [.opens 5, .sends letter .breaks, .closes, .opens 5]).client = some (0, false) := by
  decide

end Verif.Smtp
