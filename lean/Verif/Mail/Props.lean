import Verif.Mail.Lemmas

/-!
# C79: what an outgoing email says, and who gets it

An email that is sent goes to exactly the addresses in `to`, `cc` and `bcc`; it shows the bodies of the
message as forms of the same thing and its attachments beside them, all of them in order; it has the headers
the message asks for, each in one line; the blind copies are in none of them; and a message without
recipients or without content is refused.
-/

namespace Verif.Mail

open Spec

/-- An environment for the examples: no files, all addresses readable. -/
def exampleEnv : Env :=
  { files := fun _ => none, addresses := fun _ => true, address := fun v => v, msgid := "<1@host>".toList }

/-- A message for the examples. -/
def exampleMessage : Message :=
  { subject := "Hi".toList, to := ["a@x".toList, "b@x".toList], sender := some "me@x".toList,
    text := some "hello".toList, bcc := ["c@x".toList],
    attachments := [{ filename := "r.pdf".toList, content := "PDF".toList,
                      mimetype := some "application/pdf".toList }],
    headers := [("X-Campaign".toList, "welcome".toList)] }

/-! ## The content -/

/-- The full statement: a message against which nothing stands is built, and shows its bodies and its
attachments. -/
def ContentFull (env : Env) (m : Message) : Prop :=
  Sound env m → ∃ b c, build env m = .ok b ∧ b.content = some c ∧ things c = shows env m

/-- **C79** (content; missing: messages with both text and HTML, and with alternatives that are text; see
`C79_both_false` and `C79_alternative_false`).  A message is built exactly when nothing stands against it and
it has one body, and then the mail shows the body and all the attachments. -/
theorem C79_content_partial (env : Env) (hid : OneLine env.msgid) (m : Message)
    (_hc : NoContentHeaders m) :
    (∀ b, build env m = .ok b → Sound env m ∧ OneBody m) ∧
    (Sound env m → OneBody m →
      ∃ b c, build env m = .ok b ∧ b.content = some c ∧ things c = shows env m) := by
  constructor
  · intro b h
    obtain ⟨h1, h2, _⟩ := (build_iff env hid m b).mp h
    exact ⟨h1, h2⟩
  · intro h1 h2
    refine ⟨_, _, (build_iff env hid m _).mpr ⟨h1, h2, rfl⟩, rfl, ?_⟩
    rw [things_wrap, things_body m h2]
    rfl

example : (match build exampleEnv exampleMessage with
    | .ok b => b.content.map things
    | .error _ => none) = some (shows exampleEnv exampleMessage) := by with_unfolding_all rfl

example : shows exampleEnv exampleMessage =
    [[{ type := "text/plain".toList, content := "hello".toList }],
     [{ type := "application/pdf".toList, content := "PDF".toList, filename := some "r.pdf".toList,
        attached := true }]] := by decide +kernel

/-- **C79** (a text beside HTML is refuted): no message with both a text and an HTML body is ever built; the
call ends in an exception.  The HTML is passed to `add_alternative` as bytes, without the main type which
bytes require. -/
theorem C79_both_false (env : Env) (m : Message) (b : Built) (h : Present m.text ∧ Present m.html) :
    build env m ≠ .ok b := by
  intro hb
  unfold build at hb
  simp only [bind_ok] at hb
  obtain ⟨b1, h1, b2, h2, _⟩ := hb
  have hc : b1 = { headers := asked m } := by
    rw [headersOf_eq] at h1
    exact ((setHeaders_iff env _ _ _).mp h1).1
  rw [hc] at h2
  exact ((addBody_iff env m _ _).mp h2).1 h

/-- The message of the quick start of the documentation (docs/en/docs/contrib/mail.md). -/
def quickStart : Message :=
  { subject := "Welcome!".toList, to := ["john@example.com".toList],
    text := some "Hello John, thanks for signing up!".toList,
    html := some "<h1>Hello John</h1>".toList }

example : Present quickStart.text ∧ Present quickStart.html := by decide

example : (match build exampleEnv quickStart with | .error e => some e | .ok _ => none) = some .type := by
  decide +kernel

/-- **C79** (the full statement is refuted): nothing stands against the message of the quick start, but it is
not built. -/
theorem C79_content_false : ¬ ContentFull exampleEnv quickStart := by
  intro h
  have hid : OneLine exampleEnv.msgid := (broken_iff _).mp (by decide)
  have hs : Sound exampleEnv { quickStart with html := none } := by
    have hb : ∃ b, build exampleEnv { quickStart with html := none } = .ok b := ⟨_, rfl⟩
    obtain ⟨b, hb⟩ := hb
    exact ((build_iff exampleEnv hid _ b).mp hb).1
  obtain ⟨b, _, hb, _⟩ := h hs
  exact C79_both_false exampleEnv quickStart b (by decide) hb

/-- **C79** (alternatives that are text are refuted): no message with an alternative of type `text/…` is ever
built. -/
theorem C79_alternative_false (env : Env) (hid : OneLine env.msgid) (m : Message) (b : Built)
    (h : ∃ a ∈ m.alternatives, IsText a.1) : build env m ≠ .ok b := by
  intro hb
  obtain ⟨a, ha, ht⟩ := h
  exact ((build_iff env hid m b).mp hb).2.1.2 a ha ht

example : (match build exampleEnv { quickStart with
      html := none, alternatives := [("text/calendar".toList, "BEGIN:VCALENDAR".toList)] } with
    | .error e => some e | .ok _ => none) = some .type := by
  decide +kernel

/-! ## The headers -/

/-- **C79** (headers; missing: the header `MIME-Version` of a mail with only HTML, see `C79_mime_false`).  The
headers of a mail are those asked for in their order, then the MIME version unless it is there already, then
the message id unless it is there already. -/
theorem C79_headers_partial (env : Env) (hid : OneLine env.msgid) (m : Message) (_hc : NoContentHeaders m)
    (b : Built) (h : build env m = .ok b) :
    (¬ Present m.html → b.headers = Spec.headers env m) ∧
    (Present m.html → b.headers = asked m ++
      (if Has (asked m) "Message-Id".toList then [] else [("Message-Id".toList, env.msgid)])) := by
  obtain ⟨_, _, rfl⟩ := (build_iff env hid m b).mp h
  constructor
  · intro hh
    show afterId env (afterBody m (asked m)) = _
    unfold afterId afterBody Spec.headers
    rw [if_neg hh]
    congr 1
    have hiff : Has (asked m ++ if Has (asked m) "MIME-Version".toList then []
        else [("MIME-Version".toList, "1.0".toList)]) "Message-Id".toList ↔
        Has (asked m) "Message-Id".toList := by
      constructor
      · rintro ⟨x, hx, he⟩
        rcases List.mem_append.mp hx with hx | hx
        · exact ⟨x, hx, he⟩
        · exfalso
          split at hx
          · cases hx
          · rw [List.mem_singleton] at hx
            rw [hx] at he
            exact absurd (show lower "MIME-Version".toList = lower "Message-Id".toList from he) (by decide)
      · rintro ⟨x, hx, he⟩
        exact ⟨x, List.mem_append_left _ hx, he⟩
    by_cases hi : Has (asked m) "Message-Id".toList
    · rw [if_pos hi, if_pos (hiff.mpr hi)]
    · rw [if_neg hi, if_neg (fun x => hi (hiff.mp x))]
  · intro hh
    show afterId env (afterBody m (asked m)) = _
    unfold afterId afterBody
    rw [if_pos hh]

example : (match build exampleEnv exampleMessage with | .ok b => b.headers | .error _ => []) =
    [("Subject".toList, "Hi".toList), ("From".toList, "me@x".toList), ("To".toList, "a@x, b@x".toList),
     ("X-Campaign".toList, "welcome".toList), ("MIME-Version".toList, "1.0".toList),
     ("Message-Id".toList, "<1@host>".toList)] := by decide +kernel

/-- **C79** (the MIME version is refuted): a mail with only an HTML body is sent without the header
`MIME-Version`, which a mail with parts must have. -/
theorem C79_mime_false : ∃ m b, build exampleEnv m = .ok b ∧ b.headers ≠ Spec.headers exampleEnv m := by
  refine ⟨{ quickStart with text := none }, _, rfl, ?_⟩
  decide +kernel

/-- **C79** (no header smuggles in another one): every header of a mail is in one line, and no two headers of
a kind that may occur once are in it. -/
theorem C79_one_line (env : Env) (hid : OneLine env.msgid) (m : Message) (b : Built)
    (h : build env m = .ok b) :
    (∀ x ∈ b.headers, OneLine x.2) ∧
    ∀ pre x post, b.headers = pre ++ x :: post → Once x.1 → ∀ y ∈ pre, ¬ SameName y.1 x.1 := by
  obtain ⟨hs, _, rfl⟩ := (build_iff env hid m b).mp h
  have hG := (good_iff env (asked m)).mpr hs.1
  have step : ∀ (hs : List (Str × Str)) (n v : Str),
      (∀ pre h post, hs = pre ++ h :: post → Good env ([] ++ pre) h) → ¬ Has hs n → OneLine v →
      ¬ Addressed n →
      ∀ pre h post, hs ++ [(n, v)] = pre ++ h :: post → Good env ([] ++ pre) h := by
    intro hs n v hg hn hv ha pre x post e
    rcases List.eq_nil_or_concat post with rfl | ⟨post', y, rfl⟩
    · obtain ⟨e1, e2⟩ := List.append_inj' e rfl
      obtain ⟨rfl, _⟩ := List.cons.inj e2
      rw [← e1]
      exact ⟨fun hh => hn hh.2, hv, fun hh => absurd hh ha⟩
    · have e' : hs ++ [(n, v)] = (pre ++ x :: post') ++ [y] := by rw [e]; simp
      obtain ⟨e1, _⟩ := List.append_inj' e' rfl
      exact hg pre x post' e1
  have h1 : ∀ pre h post, afterBody m (asked m) = pre ++ h :: post → Good env ([] ++ pre) h := by
    unfold afterBody
    split
    · exact hG
    · split
      · simpa using hG
      · rename_i hn
        exact step _ _ _ hG hn ((broken_iff _).mp (by decide))
          (fun ha => absurd ((addressed_iff _).mpr ha) (by decide))
  have h2 : ∀ pre h post, afterId env (afterBody m (asked m)) = pre ++ h :: post →
      Good env ([] ++ pre) h := by
    unfold afterId
    split
    · simpa using h1
    · rename_i hn
      exact step _ _ _ h1 hn hid
        (fun ha => absurd ((addressed_iff "Message-Id".toList).mpr ha) (by decide))
  have := (good_iff env _).mp h2
  exact ⟨fun x hx => (this.1 x hx).1, this.2⟩

example : (match build exampleEnv { exampleMessage with subject := "Hi\nBcc: evil@x".toList } with
    | .error e => some e | .ok _ => none) = some .header := by decide +kernel

example : OneLine "Hi".toList := (broken_iff _).mp (by decide)

/-! ## The recipients -/

/-- **C79** (recipients): what is given to the server names each address as often as `to`, `cc` and `bcc` do
together; a message built with other blind copies is the same message; and no header of what is given to the
server is for blind copies, also when the message asks for one. -/
theorem C79_recipients (env : Env) (d : Option Str) (m : Message) (o : Outgoing)
    (h : (prepare env d m).2 = .ok o) :
    (∀ a, o.recipients.count a = m.to.count a + m.cc.count a + m.bcc.count a) ∧
    (∀ l : List Str, ∃ o', (prepare env d { m with bcc := l }).2 = .ok o' ∧ o'.headers = o.headers ∧
      o'.content = o.content) ∧
    ∀ x ∈ o.headers, ¬ Blind x.1 := by
  have hb : ∀ l : List Str, (prepare env d { m with bcc := l }).2 = .ok
      { mailFrom := o.mailFrom, recipients := m.to ++ m.cc ++ l, headers := o.headers,
        content := o.content } := by
    intro l
    unfold prepare at h ⊢
    simp only at h ⊢
    by_cases hd : (given m.sender).isNone = true ∧ (given d).isSome = true
    · simp only [if_pos hd] at h ⊢
      have e : build env { m with sender := d, bcc := l } = build env { m with sender := d } := rfl
      rw [e]
      cases hx : build env { m with sender := d } with
      | error er => rw [hx] at h; cases h
      | ok b => rw [hx] at h; cases h; rfl
    · simp only [if_neg hd] at h ⊢
      have e : build env { m with bcc := l } = build env m := rfl
      rw [e]
      cases hx : build env m with
      | error er => rw [hx] at h; cases h
      | ok b => rw [hx] at h; cases h; rfl
  have hme := hb m.bcc
  rw [show ({ m with bcc := m.bcc } : Message) = m from rfl, h] at hme
  refine ⟨?_, fun l => ⟨_, hb l, rfl, rfl⟩, ?_⟩
  · intro a
    rw [Except.ok.inj hme]
    simp [List.count_append, Nat.add_assoc]
  · intro x hx
    have : ∃ hs, o.headers = transmitted hs := by
      unfold prepare at h
      simp only at h
      split at h
      · cases h; exact ⟨_, rfl⟩
      · cases h
    obtain ⟨hs, e⟩ := this
    rw [e] at hx
    have hp := (List.mem_filter.mp hx).2
    rw [decide_eq_true_eq] at hp
    rintro (hbl | hbl)
    · exact hp.1 hbl
    · exact hp.2 hbl

example : (match (prepare exampleEnv none exampleMessage).2 with
    | .ok o => o.recipients | .error _ => []) = ["a@x".toList, "b@x".toList, "c@x".toList] := by
  decide +kernel

/-- **C79** (the sender): the mail names the sender of the message, or else the default of the backend. -/
theorem C79_sender_partial (env : Env) (hid : OneLine env.msgid) (d : Option Str) (m : Message) (o : Outgoing)
    (h : (prepare env d m).2 = .ok o) (s : Str)
    (hs : m.sender = some s ∧ s ≠ [] ∨ ¬ Present m.sender ∧ d = some s ∧ s ≠ []) :
    ("From".toList, s) ∈ o.headers := by
  have key : ∀ m' : Message, m'.sender = some s → s ≠ [] → ∀ b, build env m' = .ok b →
      ("From".toList, s) ∈ transmitted b.headers := by
    intro m' he hne b hb
    obtain ⟨_, _, rfl⟩ := (build_iff env hid m' b).mp hb
    have hp : Present m'.sender := ⟨s, he, hne⟩
    have ha : ("From".toList, s) ∈ asked m' := by
      unfold asked
      rw [if_pos hp, he]
      simp
    refine List.mem_filter.mpr ⟨?_, show decide (lower "From".toList ≠ "bcc".toList ∧
      lower "From".toList ≠ "resent-bcc".toList) = true by decide⟩
    show _ ∈ afterId env (afterBody m' (asked m'))
    unfold afterId afterBody
    refine List.mem_append_left _ ?_
    split
    · exact ha
    · exact List.mem_append_left _ ha
  unfold prepare at h
  simp only at h
  rcases hs with ⟨he, hne⟩ | ⟨hnp, he, hne⟩
  · have hg : ¬ ((given m.sender).isNone = true ∧ (given d).isSome = true) := by
      rintro ⟨hn, _⟩
      exact given_none (Option.isNone_iff_eq_none.mp hn) ⟨s, he, hne⟩
    simp only [if_neg hg] at h
    cases hb : build env m with
    | error er => rw [hb] at h; cases h
    | ok b => rw [hb] at h; cases h; exact key m he hne b hb
  · have hg : (given m.sender).isNone = true ∧ (given d).isSome = true := by
      constructor
      · rcases given_present m.sender with h' | h'
        · rw [h'.1]; rfl
        · exact absurd h'.2 hnp
      · rcases given_present d with h' | h'
        · exact absurd ⟨s, he, hne⟩ h'.2
        · rw [h'.1, he]; rfl
    simp only [if_pos hg] at h
    cases hb : build env { m with sender := d } with
    | error er => rw [hb] at h; cases h
    | ok b => rw [hb] at h; cases h; exact key { m with sender := d } he hne b hb

example : (match (prepare exampleEnv (some "noreply@x".toList) { quickStart with html := none }).2 with
    | .ok o => decide (("From".toList, "noreply@x".toList) ∈ o.headers) | .error _ => false) = true := by
  decide +kernel

/-- Two headers of the same name, of a kind that may occur once, are the same. -/
theorem unique_header (hs : List (Str × Str))
    (h : ∀ pre x post, hs = pre ++ x :: post → Once x.1 → ∀ y ∈ pre, ¬ SameName y.1 x.1)
    (x y : Str × Str) (hx : x ∈ hs) (hy : y ∈ hs) (ho : Once x.1) (hn : SameName y.1 x.1) : y = x := by
  obtain ⟨pre, post, rfl⟩ := List.append_of_mem hx
  rcases List.mem_append.mp hy with hy | hy
  · exact absurd hn (h pre x post rfl ho y hy)
  · rcases List.mem_cons.mp hy with rfl | hy
    · rfl
    · obtain ⟨p, q, rfl⟩ := List.append_of_mem hy
      have hoy : Once y.1 := by
        obtain ⟨k, hk, e⟩ := ho
        exact ⟨k, hk, hn.trans e⟩
      exact absurd hn.symm (h (pre ++ x :: p) y q (by simp) hoy x (by simp))

/-- **C79** (the sender of the envelope): the server is told the address of the header `Sender` if the message
asks for one, and otherwise the sender of the message. -/
theorem C79_envelope (env : Env) (hid : OneLine env.msgid) (m : Message) (b : Built)
    (h : build env m = .ok b) :
    (∀ v, ("Sender".toList, v) ∈ m.headers → mailFrom env b.headers = env.address v) ∧
    (∀ s, m.sender = some s → s ≠ [] → ¬ Has m.headers "Sender".toList →
      mailFrom env b.headers = env.address s) := by
  have hu := (C79_one_line env hid m b h).2
  obtain ⟨_, _, rfl⟩ := (build_iff env hid m b).mp h
  have hsub : ∀ x ∈ asked m, x ∈ afterId env (afterBody m (asked m)) := by
    intro x hx
    unfold afterId afterBody
    refine List.mem_append_left _ ?_
    split
    · exact hx
    · exact List.mem_append_left _ hx
  have hmem : ∀ x ∈ afterId env (afterBody m (asked m)), x ∈ m.headers ∨ lower x.1 ≠ "sender".toList := by
    intro x hx
    unfold afterId at hx
    rcases List.mem_append.mp hx with hx | hx
    · unfold afterBody at hx
      have hx' : x ∈ asked m ∨ lower x.1 ≠ "sender".toList := by
        split at hx
        · exact Or.inl hx
        · rcases List.mem_append.mp hx with hx | hx
          · exact Or.inl hx
          · right
            split at hx
            · cases hx
            · rw [List.mem_singleton.mp hx]
              exact (by decide : lower "MIME-Version".toList ≠ "sender".toList)
      rcases hx' with hx | hx
      · unfold asked Spec.addresses at hx
        simp only [List.mem_append] at hx
        rcases hx with ((((hx | hx) | hx) | hx) | hx) | hx
        · right
          rw [List.mem_singleton.mp hx]
          exact (by decide : lower "Subject".toList ≠ "sender".toList)
        · right
          split at hx
          · rw [List.mem_singleton.mp hx]
            exact (by decide : lower "From".toList ≠ "sender".toList)
          · cases hx
        · right
          split at hx
          · cases hx
          · rw [List.mem_singleton.mp hx]
            exact (by decide : lower "To".toList ≠ "sender".toList)
        · right
          split at hx
          · cases hx
          · rw [List.mem_singleton.mp hx]
            exact (by decide : lower "Cc".toList ≠ "sender".toList)
        · right
          split at hx
          · cases hx
          · rw [List.mem_singleton.mp hx]
            exact (by decide : lower "Reply-To".toList ≠ "sender".toList)
        · exact Or.inl hx
      · exact Or.inr hx
    · right
      split at hx
      · cases hx
      · rw [List.mem_singleton.mp hx]
        exact (by decide : lower "Message-Id".toList ≠ "sender".toList)
  show (∀ v, ("Sender".toList, v) ∈ m.headers →
      mailFrom env (afterId env (afterBody m (asked m))) = env.address v) ∧ _
  generalize hB : afterId env (afterBody m (asked m)) = hs at hu hsub hmem ⊢
  constructor
  · intro v hv
    have hin : ("Sender".toList, v) ∈ hs := hsub _ (by unfold asked; exact List.mem_append_right _ hv)
    unfold mailFrom
    cases hf : hs.find? (fun h => decide (lower h.1 = "sender".toList)) with
    | none =>
      exact absurd (List.find?_eq_none.mp hf _ hin) (by
        show ¬ ¬ decide (lower "Sender".toList = "sender".toList) = true
        decide)
    | some x =>
      have hx := List.find?_some hf
      have hxm := List.mem_of_find?_eq_some hf
      have := unique_header hs hu ("Sender".toList, v) x hin hxm
        ⟨"Sender", by decide, rfl⟩ (of_decide_eq_true (p := lower x.1 = _) hx)
      rw [this]
  · intro s he hne hns
    have hp : Present m.sender := ⟨s, he, hne⟩
    have hin : ("From".toList, s) ∈ hs := by
      refine hsub _ ?_
      unfold asked
      rw [if_pos hp, he]
      simp
    unfold mailFrom
    have hf : hs.find? (fun h => decide (lower h.1 = "sender".toList)) = none := by
      rw [List.find?_eq_none]
      intro x hx
      rcases hmem x hx with hm | hm
      · intro hd
        exact hns ⟨x, hm, of_decide_eq_true (p := lower x.1 = _) hd⟩
      · intro hd
        exact hm (of_decide_eq_true hd)
    rw [hf]
    cases hg : hs.find? (fun h => decide (lower h.1 = "from".toList)) with
    | none =>
      exact absurd (List.find?_eq_none.mp hg _ hin) (by
        show ¬ ¬ decide (lower "From".toList = "from".toList) = true
        decide)
    | some x =>
      have hx := List.find?_some hg
      have hxm := List.mem_of_find?_eq_some hg
      have := unique_header hs hu ("From".toList, s) x hin hxm
        ⟨"From", by decide, rfl⟩ (of_decide_eq_true (p := lower x.1 = _) hx)
      rw [this]

example : (match (prepare exampleEnv none exampleMessage).2 with
    | .ok o => o.mailFrom | .error _ => []) = "me@x".toList := by
  decide +kernel

/-- **C79** (the sender of a message sent twice is refuted): the default of the first backend stays in the
message, so that a second backend, with another default, sends it under the sender of the first. -/
theorem C79_default_false : ∃ (env : Env) (m : Message) (d₁ d₂ : Str) (o : Outgoing), d₁ ≠ d₂ ∧
    ¬ Present m.sender ∧ (prepare env (some d₂) (prepare env (some d₁) m).1).2 = .ok o ∧
    ("From".toList, d₁) ∈ o.headers ∧ ("From".toList, d₂) ∉ o.headers := by
  refine ⟨exampleEnv, { quickStart with html := none }, "sales@x".toList, "support@x".toList, _,
    by decide, by decide, rfl, ?_, ?_⟩ <;> decide +kernel

/-- **C79** (every mail has a sender is refuted): a message without a sender, sent without a default, goes to
the server as a mail from the address `None`. -/
theorem C79_nobody_false : ∃ (m : Message) (o : Outgoing), ¬ Present m.sender ∧
    (prepare exampleEnv none m).2 = .ok o ∧ o.mailFrom = "None".toList ∧
    ¬ Has o.headers "From".toList := by
  refine ⟨{ quickStart with html := none }, _, by decide, rfl, ?_, ?_⟩ <;> decide +kernel

/-! ## What the mailer refuses -/

/-- **C79** (refusal): `send` hands a message to the backend exactly when it has a recipient and something to
say. -/
theorem C79_refuses (m : Message) : (mailerSend m = some [m] ↔ Valid m) ∧ (mailerSend m = none ↔ ¬ Valid m) := by
  have hp : ∀ t : Option Str, (given t).isSome = true ↔ Present t := by
    intro t
    rcases given_present t with h | h
    · rw [h.1]; exact ⟨(fun x => by cases x), fun x => absurd x h.2⟩
    · rw [h.1]
      obtain ⟨s, hs, _⟩ := h.2
      exact ⟨fun _ => h.2, fun _ => by rw [hs]; rfl⟩
  have he : ∀ {α : Type} (l : List α), (!l.isEmpty) = true ↔ l ≠ [] := by
    intro α l
    cases l <;> simp
  have hr : allRecipients m ≠ [] ↔ ∃ a, a ∈ m.to ∨ a ∈ m.cc ∨ a ∈ m.bcc := by
    unfold allRecipients
    constructor
    · intro h
      obtain ⟨a, ha⟩ := List.exists_mem_of_ne_nil _ h
      refine ⟨a, ?_⟩
      simpa [or_assoc] using ha
    · rintro ⟨a, ha⟩ h
      have : a ∈ m.to ++ m.cc ++ m.bcc := by simpa [or_assoc] using ha
      rw [h] at this
      cases this
  have ha : accepted m = true ↔ Valid m := by
    unfold accepted Valid
    simp only [Bool.and_eq_true, Bool.or_eq_true, hp, he, hr, or_assoc]
  unfold mailerSend
  by_cases h : accepted m = true
  · simp [h, ha.mp h]
  · simp only [if_neg h]
    exact ⟨⟨(fun x => by cases x), fun x => absurd (ha.mpr x) h⟩, ⟨fun _ x => h (ha.mpr x), fun _ => trivial⟩⟩

example : Valid exampleMessage :=
  ⟨⟨"a@x".toList, Or.inl (by decide)⟩, Or.inl (by decide)⟩

/-- **C79** (refusal in a batch is refuted): `send_many` hands over messages that `send` refuses. -/
theorem C79_many_false : ∃ m, ¬ Valid m ∧ mailerSend m = none ∧ mailerSendMany [m] = some [m] := by
  refine ⟨{ subject := [], to := [] }, ?_, by decide, rfl⟩
  rintro ⟨⟨a, ha⟩, _⟩
  rcases ha with ha | ha | ha <;> cases ha

/-- **C79** (alternatives that are text are refuted): after an attachment the reason is another one: what is
`multipart/mixed` cannot become `multipart/alternative`. -/
theorem C79_mixed_false (b : Built) (ps : List Part) (h : b.content = some (.multi "mixed".toList ps))
    (c : Str) (rest : List (Str × Str)) :
    addAlternatives b (("text/calendar".toList, c) :: rest) = .error .convert := by
  have h1 : (partitionType "text/calendar".toList).1 = "text".toList := by decide
  have h2 : intoMulti "alternative".toList b.content = .error .convert := by
    rw [h]; rfl
  have h3 : addAlternativeBytes b (partitionType "text/calendar".toList).2 c = .error .convert := by
    unfold addAlternativeBytes; rw [h2]
  unfold addAlternatives
  simp only [h1, if_true, h3]

example : (match build exampleEnv { quickStart with
      html := none, alternatives := [("image/png".toList, "x".toList), ("text/calendar".toList, "y".toList)] } with
    | .error e => some e | .ok _ => none) = some .convert := by
  decide +kernel

end Verif.Mail
