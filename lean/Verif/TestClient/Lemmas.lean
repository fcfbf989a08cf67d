import Verif.TestClient.Spec
import Verif.ExtValue.Lemmas
import Verif.Ranges.Lemmas

/-!
# Lemmas for C95
-/

namespace Verif.TestClient

open Verif

/-! ## The scope -/

theorem decode_ascii (e : Str) (h : Spec.Ascii e) : ExtValue.utf8Decode e = e := by
  have := ExtValue.decode_utf8 e
  rwa [ExtValue.utf8_ascii e h] at this

theorem unquote_plain (s : Str) (h : '%' ∉ s) : Url.unquote s = s := by
  induction s with
  | nil => rfl
  | cons c s ih =>
    simp only [List.mem_cons, not_or] at h
    rw [ExtValue.unquote_cons c s (Ne.symm h.1), ih h.2]

theorem unquoteRun_plain (run s : Str) (hr : Spec.Ascii run) (hp : '%' ∉ run) (h : '%' ∉ s) :
    ExtValue.unquoteRun run s = run ++ s := by
  induction s generalizing run with
  | nil => rw [ExtValue.unquoteRun, unquote_plain run hp, decode_ascii run hr, List.append_nil]
  | cons c s ih =>
    simp only [List.mem_cons, not_or] at h
    rw [ExtValue.unquoteRun]
    by_cases hc : c.toNat < 0x80
    · rw [if_pos hc, ih (run ++ [c]) (by
        intro x hx
        rcases List.mem_append.1 hx with hx | hx
        · exact hr x hx
        · rw [List.mem_singleton.1 hx]; exact hc) (by
        simp only [List.mem_append, List.mem_singleton, not_or]
        exact ⟨hp, h.1⟩) h.2]
      simp
    · rw [if_neg hc, unquote_plain run hp, decode_ascii run hr, ih [] (fun x hx => by simp at hx) (by simp) h.2]
      rfl

theorem unquoteText_plain (s : Str) (h : '%' ∉ s) : ExtValue.unquoteText s = s :=
  unquoteRun_plain [] s (fun x hx => by simp at hx) (by simp) h

theorem unquoteText_ascii (s : Str) (h : Spec.Ascii s) :
    ExtValue.unquoteText s = ExtValue.utf8Decode (Url.unquote s) := by
  unfold ExtValue.unquoteText
  rw [ExtValue.unquoteRun_ascii [] s h, List.nil_append]

theorem intText_nat (n : Nat) : intText (n : Int) = Path.natToDec n := by
  unfold intText
  rw [if_neg (by omega)]
  rfl

theorem lower_ascii (s : Str) (h : Spec.Ascii s) : Spec.Ascii (lower s) := by
  intro c hc
  unfold lower at hc
  obtain ⟨x, hx, rfl⟩ := List.mem_map.1 hc
  have key : ∀ n < 128, (Char.ofNat n).toLower.toNat < 0x80 := by decide +kernel
  have := key x.toNat (h x hx)
  rwa [Char.ofNat_toNat] at this

theorem map_ascii (given : List (Str × Str)) (h : ∀ kv ∈ given, Spec.Ascii kv.1 ∧ Spec.Ascii kv.2) :
    (given.map fun kv => (ExtValue.utf8 (lower kv.1), ExtValue.utf8 kv.2)) =
      given.map fun kv => (lower kv.1, kv.2) := by
  apply List.map_congr_left
  intro kv hkv
  rw [ExtValue.utf8_ascii _ (lower_ascii _ (h kv hkv).1), ExtValue.utf8_ascii _ (h kv hkv).2]

theorem digits_ascii (n : Nat) : Spec.Ascii (Path.natToDec n) := by
  intro c hc
  have h := (Path.natToDec_spec n).1.2 c hc
  exact (show ∀ c ∈ ("0123456789".toList : Str), c.toNat < 0x80 by decide) c h

theorem headers_eq (given : List (Str × Str)) (h : ∀ kv ∈ given, Spec.Ascii kv.1 ∧ Spec.Ascii kv.2) (host : Str)
    (hh : Spec.Ascii host) (port default : Nat) :
    buildHeaders given host port default =
      Spec.hostHeader given host port default ++ given.map fun kv => (lower kv.1, kv.2) := by
  unfold buildHeaders Spec.hostHeader
  rw [map_ascii given h, intText_nat, ExtValue.utf8_ascii host hh, ExtValue.utf8_ascii]
  · congr 1
    by_cases hx : ∃ kv ∈ given, lower kv.1 = "host".toList
    · rw [if_pos hx, if_pos (by simpa using hx)]
    · rw [if_neg hx, if_neg (by simpa using hx)]
      by_cases hp : port = default
      · rw [if_pos (by rw [hp]), if_pos hp]
      · rw [if_neg (by omega), if_neg hp]
  · intro c hc
    rcases List.mem_append.1 hc with hc | hc
    · exact hh c hc
    · rcases List.mem_cons.1 hc with rfl | hc
      · decide
      · exact digits_ascii port c hc

/-! ## The exchange -/

/-- The messages of the response, one after the other. -/
def sendAll (c : Conf) (method : Str) (s : St) : List Msg → Except Err St
  | [] => .ok s
  | m :: ms =>
    match s.send c method m with
    | .error e => .error e
    | .ok s' => sendAll c method s' ms

/-- Other values for what the messages of the response do not change. -/
def St.mark (s : St) (r : Bool) (t : Option Str) : St := { s with received := r, template := t }

theorem send_mark (c : Conf) (method : Str) (s : St) (r : Bool) (t : Option Str) (m : Msg)
    (h : ∃ a, Spec.wire a = some m) :
    (s.mark r t).send c method m = (s.send c method m).map fun s' => s'.mark r t := by
  obtain ⟨a, ha⟩ := h
  obtain ⟨rc, sta, st0, hs0, ct, p, cm, tm⟩ := s
  obtain ⟨ra, ch, mo⟩ := c
  cases m with
  | start st hs => cases sta <;> rfl
  | body b d more =>
    unfold St.send
    generalize isHead method = hd
    cases hd <;> cases sta <;> cases mo <;> cases cm <;> cases ch <;> cases b <;> cases more <;> rfl
  | debug t' => unfold Spec.wire at ha; split at ha <;> cases ha
  | other => unfold Spec.wire at ha; split at ha <;> cases ha

theorem sendAll_mark (c : Conf) (method : Str) (r : Bool) (t : Option Str) (M : List Msg) (s : St)
    (h : ∀ m ∈ M, ∃ a, Spec.wire a = some m) :
    sendAll c method (s.mark r t) M = (sendAll c method s M).map fun s' => s'.mark r t := by
  induction M generalizing s with
  | nil => rfl
  | cons m M ih =>
    rw [sendAll, sendAll, send_mark c method s r t m (h m (by simp))]
    cases s.send c method m with
    | error e => rfl
    | ok s' => exact ih s' (fun x hx => h x (by simp [hx]))

theorem wires (acts : List Act) : ∀ m ∈ acts.filterMap Spec.wire, ∃ a, Spec.wire a = some m := by
  intro m hm
  obtain ⟨a, _, ha⟩ := List.mem_filterMap.1 hm
  exact ⟨a, ha⟩

theorem mark_self (s : St) : s.mark s.received s.template = s := rfl

theorem mark_mark (s : St) (r r' : Bool) (t t' : Option Str) : (s.mark r t).mark r' t' = s.mark r' t' := rfl

theorem map_ok {s' : St} {f : St → St} {x : Except Err St} (h : x = .ok s') : x.map f = .ok (f s') := by
  rw [h]
  rfl

theorem map_error {e : Err} {f : St → St} {x : Except Err St} (h : x = .error e) : x.map f = .error e := by
  rw [h]
  rfl

theorem send_kept (c : Conf) (method : Str) (s s' : St) (m : Msg) (h : ∃ a, Spec.wire a = some m)
    (hs : s.send c method m = .ok s') : s'.received = s.received ∧ s'.template = s.template := by
  have := send_mark c method s s.received s.template m h
  rw [mark_self, map_ok hs, hs] at this
  injection this with e
  rw [e]
  exact ⟨rfl, rfl⟩

theorem lastTemplate_cons (a : Act) (acts : List Act) (t : Option Str) :
    (Spec.lastTemplate (a :: acts)).or t = (Spec.lastTemplate acts).or
      (match a with | .send (.debug x) => some x | _ => t) := by
  unfold Spec.lastTemplate
  cases a with
  | receive => rfl
  | send m =>
    cases m with
    | debug x =>
      rw [List.filterMap_cons]
      dsimp only
      rw [List.getLast?_cons]
      cases List.getLast? (List.filterMap _ acts) <;> rfl
    | start st hs => rfl
    | body b d more => rfl
    | other => rfl

/-- What happens depends on the messages of the response only. -/
theorem play_ok (c : Conf) (method : Str) (acts : List Act) (s s' : St)
    (h : sendAll c method s (acts.filterMap Spec.wire) = .ok s') :
    play c method s acts =
      (s'.mark (s.received || acts.contains .receive) ((Spec.lastTemplate acts).or s.template), none) := by
  induction acts generalizing s s' with
  | nil =>
    have e : s = s' := by injection h
    subst e
    simp [play, St.mark, Spec.lastTemplate]
  | cons a acts ih =>
    rw [lastTemplate_cons]
    cases a with
    | receive =>
      have h' : sendAll c method (s.mark true s.template) (acts.filterMap Spec.wire) =
          .ok (s'.mark true s.template) := by
        rw [sendAll_mark c method true s.template _ s (wires acts)]
        exact map_ok h
      have := ih _ _ h'
      rw [mark_mark] at this
      rw [play]
      refine Eq.trans this ?_
      simp [St.mark]
    | send m =>
      have hnr : (Act.send m :: acts).contains .receive = acts.contains .receive := by simp
      rw [hnr, play]
      cases m with
      | start st hs =>
        rw [show (Act.send (.start st hs) :: acts).filterMap Spec.wire =
          .start st hs :: acts.filterMap Spec.wire from rfl, sendAll] at h
        cases hs1 : s.send c method (.start st hs) with
        | error e => rw [hs1] at h; cases h
        | ok s1 =>
          rw [hs1] at h
          have hk := send_kept c method s s1 _ ⟨.send (.start st hs), rfl⟩ hs1
          rw [← hk.1, ← hk.2]
          exact ih s1 s' h
      | body b d more =>
        rw [show (Act.send (.body b d more) :: acts).filterMap Spec.wire =
          .body b d more :: acts.filterMap Spec.wire from rfl, sendAll] at h
        cases hs1 : s.send c method (.body b d more) with
        | error e => rw [hs1] at h; cases h
        | ok s1 =>
          rw [hs1] at h
          have hk := send_kept c method s s1 _ ⟨.send (.body b d more), rfl⟩ hs1
          rw [← hk.1, ← hk.2]
          exact ih s1 s' h
      | debug t =>
        have h' : sendAll c method (s.mark s.received (some t)) (acts.filterMap Spec.wire) =
            .ok (s'.mark s.received (some t)) := by
          rw [sendAll_mark c method _ _ _ s (wires acts)]
          exact map_ok h
        have := ih _ _ h'
        rw [mark_mark] at this
        exact this
      | other => exact ih s s' h

theorem play_error (c : Conf) (method : Str) (acts : List Act) (s : St) (e : Err)
    (h : sendAll c method s (acts.filterMap Spec.wire) = .error e) : (play c method s acts).2 = some e := by
  induction acts generalizing s with
  | nil => cases h
  | cons a acts ih =>
    cases a with
    | receive =>
      exact ih (s.mark true s.template) (by
        rw [sendAll_mark c method true s.template _ s (wires acts)]
        exact map_error h)
    | send m =>
      rw [play]
      cases m with
      | start st hs =>
        rw [show (Act.send (.start st hs) :: acts).filterMap Spec.wire =
          .start st hs :: acts.filterMap Spec.wire from rfl, sendAll] at h
        cases hs1 : s.send c method (.start st hs) with
        | error e' => rw [hs1] at h; injection h with h; rw [h]
        | ok s1 => rw [hs1] at h; exact ih s1 h
      | body b d more =>
        rw [show (Act.send (.body b d more) :: acts).filterMap Spec.wire =
          .body b d more :: acts.filterMap Spec.wire from rfl, sendAll] at h
        cases hs1 : s.send c method (.body b d more) with
        | error e' => rw [hs1] at h; injection h with h; rw [h]
        | ok s1 => rw [hs1] at h; exact ih s1 h
      | debug t =>
        exact ih (s.mark s.received (some t)) (by
          rw [sendAll_mark c method _ _ _ s (wires acts)]
          exact map_error h)
      | other => exact ih s h

/-! ## The messages of a response -/

/-- What is written of a body. -/
def shown (method d : Str) : Str := if isHead method then [] else d

theorem send_body (c : Conf) (method : Str) (s : St) (d : Str) (more : Bool) (hs : s.started = true)
    (hc : s.complete = false) (hp : s.pos = s.content.length) :
    s.send c method (.body true d more) = .ok { s with
      content := s.content ++ shown method d
      pos := if more then (s.content ++ shown method d).length else 0
      complete := !more } := by
  obtain ⟨rc, sta, st0, hs0, ct, p, cm, tm⟩ := s
  obtain ⟨ra, ch, mo⟩ := c
  dsimp only at hs hc hp
  subst hs hc hp
  unfold St.send shown
  generalize isHead method = hd
  cases hd <;> cases mo <;> cases ch <;> cases more <;> simp [St.write]

theorem sendAll_append (c : Conf) (method : Str) (s s' : St) (M N : List Msg)
    (h : sendAll c method s M = .ok s') : sendAll c method s (M ++ N) = sendAll c method s' N := by
  induction M generalizing s with
  | nil => injection h with h; rw [h]; rfl
  | cons m M ih =>
    rw [sendAll] at h
    rw [List.cons_append, sendAll]
    cases hm : s.send c method m with
    | error e => rw [hm] at h; cases h
    | ok s1 => rw [hm] at h; exact ih s1 h

theorem sendAll_chunks (c : Conf) (method : Str) (chunks : List Str) (s : St) (hs : s.started = true)
    (hc : s.complete = false) (hp : s.pos = s.content.length) :
    sendAll c method s (chunks.map fun d => .body true d true) = .ok { s with
      content := s.content ++ shown method chunks.flatten
      pos := (s.content ++ shown method chunks.flatten).length } := by
  induction chunks generalizing s with
  | nil =>
    have : shown method [] = [] := by unfold shown; split <;> rfl
    simp only [List.map_nil, sendAll, List.flatten_nil, this, List.append_nil, ← hp]
  | cons d chunks ih =>
    rw [List.map_cons, sendAll, send_body c method s d true hs hc hp]
    have := ih ⟨s.received, s.started, s.status, s.headers, s.content ++ shown method d,
      (s.content ++ shown method d).length, false, s.template⟩ hs rfl rfl
    refine Eq.trans this ?_
    have e : shown method (d :: chunks).flatten = shown method d ++ shown method chunks.flatten := by
      unfold shown
      split <;> simp
    simp only [e, List.append_assoc, hc]

theorem sendAll_begun (c : Conf) (method : Str) (st : Nat) (hs : List ((Bool × Str) × (Bool × Str)))
    (chunks : List Str) : sendAll c method .init (Spec.begun st hs chunks) =
      .ok ⟨false, true, st, hs, shown method chunks.flatten, (shown method chunks.flatten).length, false, none⟩ := by
  unfold Spec.begun
  rw [sendAll]
  show sendAll c method ⟨false, true, st, hs, [], 0, false, none⟩ _ = _
  rw [sendAll_chunks c method chunks _ rfl rfl rfl]
  rfl

theorem sendAll_whole (c : Conf) (method : Str) (st : Nat) (hs : List ((Bool × Str) × (Bool × Str)))
    (chunks : List Str) (last : Str) : sendAll c method .init (Spec.whole st hs chunks last) =
      .ok ⟨false, true, st, hs, shown method (chunks.flatten ++ last), 0, true, none⟩ := by
  unfold Spec.whole
  rw [sendAll_append c method _ _ _ _ (sendAll_begun c method st hs chunks), sendAll,
    send_body c method _ last false rfl rfl rfl]
  dsimp only
  rw [sendAll]
  have : shown method (chunks.flatten ++ last) = shown method chunks.flatten ++ shown method last := by
    unfold shown
    split <;> simp
  rw [this]
  rfl

/-- A message that is sent after the end of a response or at a wrong place is refused. -/
theorem refused_after (c : Conf) (method : Str) (hc : c.mode = .sync) (s : St) (m : Msg) (M : List Msg)
    (hw : ∃ a, Spec.wire a = some m) (h1 : s.started = true) (h2 : s.complete = true) :
    sendAll c method s (m :: M) = .error .assertion := by
  obtain ⟨a, ha⟩ := hw
  rw [sendAll]
  cases m with
  | start st hs => unfold St.send; simp [h1]
  | body b d more => unfold St.send; simp [h1, h2, hc]
  | debug t' => unfold Spec.wire at ha; split at ha <;> cases ha
  | other => unfold Spec.wire at ha; split at ha <;> cases ha

/-- The messages after the beginning of a response are more of it, or they are refused. -/
theorem after_begun (c : Conf) (method : Str) (hc : c.mode = .sync) (M : List Msg)
    (hw : ∀ m ∈ M, ∃ a, Spec.wire a = some m) (hb : ∀ b d more, Msg.body b d more ∈ M → b = true) (s : St)
    (h1 : s.started = true) (h2 : s.complete = false) (h3 : s.pos = s.content.length) :
    (∃ chunks : List Str, (M = chunks.map fun d => .body true d true) ∨
        ∃ last, M = (chunks.map fun d => .body true d true) ++ [.body true last false]) ∨
      sendAll c method s M = .error .assertion := by
  induction M generalizing s with
  | nil => exact Or.inl ⟨[], Or.inl rfl⟩
  | cons m M ih =>
    obtain ⟨a, ha⟩ := hw m (by simp)
    cases m with
    | start st hs => right; rw [sendAll]; unfold St.send; simp [h1]
    | debug t' => unfold Spec.wire at ha; split at ha <;> cases ha
    | other => unfold Spec.wire at ha; split at ha <;> cases ha
    | body b d more =>
      have hbt := hb b d more (by simp)
      subst hbt
      rw [sendAll, send_body c method s d more h1 h2 h3]
      dsimp only
      cases more with
      | true =>
        rcases ih (fun x hx => hw x (by simp [hx])) (fun b d m hx => hb b d m (by simp [hx]))
          ⟨s.received, s.started, s.status, s.headers, s.content ++ shown method d,
            (s.content ++ shown method d).length, false, s.template⟩ h1 rfl rfl with ⟨chunks, h⟩ | h
        · left
          refine ⟨d :: chunks, ?_⟩
          rcases h with h | ⟨last, h⟩
          · exact Or.inl (by rw [h]; rfl)
          · exact Or.inr ⟨last, by rw [h]; rfl⟩
        · exact Or.inr h
      | false =>
        cases M with
        | nil => exact Or.inl ⟨[], Or.inr ⟨d, rfl⟩⟩
        | cons m' M' => exact Or.inr (refused_after c method hc _ m' M' (hw m' (by simp)) h1 rfl)

theorem sendAll_any (c : Conf) (method : Str) (hc : c.mode = .sync) (M : List Msg)
    (hw : ∀ m ∈ M, ∃ a, Spec.wire a = some m) (hb : ∀ b d more, Msg.body b d more ∈ M → b = true) :
    Spec.Beginning M ∨ sendAll c method .init M = .error .assertion := by
  cases M with
  | nil => exact Or.inl (Or.inl rfl)
  | cons m M =>
    obtain ⟨a, ha⟩ := hw m (by simp)
    cases m with
    | body b d more => exact Or.inr rfl
    | debug t' => unfold Spec.wire at ha; split at ha <;> cases ha
    | other => unfold Spec.wire at ha; split at ha <;> cases ha
    | start st hs =>
      rcases after_begun c method hc M (fun x hx => hw x (by simp [hx])) (fun b d m hx => hb b d m (by simp [hx]))
        ⟨false, true, st, hs, [], 0, false, none⟩ rfl rfl rfl with ⟨chunks, h⟩ | h
      · left
        right
        refine ⟨st, hs, chunks, ?_⟩
        rcases h with h | ⟨last, h⟩
        · exact Or.inl (by rw [h]; rfl)
        · exact Or.inr ⟨last, by rw [h]; rfl⟩
      · exact Or.inr h

theorem sendAll_beginning (c : Conf) (method : Str) (M : List Msg) (h : Spec.Beginning M) :
    ∃ s, sendAll c method .init M = .ok s := by
  rcases h with rfl | ⟨st, hs, chunks, rfl | ⟨last, rfl⟩⟩
  · exact ⟨_, rfl⟩
  · exact ⟨_, sendAll_begun c method st hs chunks⟩
  · exact ⟨_, sendAll_whole c method st hs chunks last⟩

/-- The response is complete when its last body was sent. -/
theorem send_complete (c : Conf) (method : Str) (s s' : St) (m : Msg) (h : s.send c method m = .ok s') :
    s'.complete = true ↔ s.complete = true ∨ ∃ b d, m = .body b d false := by
  cases m with
  | start st hs =>
    unfold St.send at h
    dsimp only at h
    split at h
    · cases h
    · injection h with h
      rw [← h]
      simp
  | body b d more =>
    unfold St.send at h
    dsimp only at h
    split at h
    · cases h
    split at h
    · cases h
    split at h
    · cases h
    split at h
    · cases h
    injection h with h
    rw [← h]
    cases more
    · simp
    · generalize isHead method = hd
      cases hd <;> simp [St.write]
  | debug t =>
    injection h with h
    rw [← h]
    simp
  | other =>
    injection h with h
    rw [← h]
    simp

theorem play_complete (c : Conf) (method : Str) (acts : List Act) (s : St) (h : (play c method s acts).2 = none) :
    ((play c method s acts).1.complete = true ↔ s.complete = true ∨ ∃ b d, .send (.body b d false) ∈ acts) ∧
      ((play c method s acts).1.received = true ↔ s.received = true ∨ .receive ∈ acts) := by
  induction acts generalizing s with
  | nil => simp [play]
  | cons a acts ih =>
    cases a with
    | receive =>
      have := ih _ (show (play c method { s with received := true } acts).2 = none from h)
      rw [play]
      refine ⟨?_, ?_⟩
      · rw [this.1]; simp
      · rw [this.2]; simp
    | send m =>
      rw [play] at h ⊢
      cases hm : s.send c method m with
      | error e => rw [hm] at h; cases h
      | ok s1 =>
        rw [hm] at h
        have := ih s1 h
        have h1 := send_complete c method s s1 m hm
        have h2 : s1.received = s.received := by
          cases m with
          | start st hs => exact (send_kept c method s s1 _ ⟨.send (.start st hs), rfl⟩ hm).1
          | body b d more => exact (send_kept c method s s1 _ ⟨.send (.body b d more), rfl⟩ hm).1
          | debug t => injection hm with hm; rw [← hm]
          | other => injection hm with hm; rw [← hm]
        refine ⟨?_, ?_⟩
        · dsimp only
          rw [this.1, h1]
          constructor
          · rintro ((h | ⟨b, d, h⟩) | ⟨b, d, h⟩)
            · exact Or.inl h
            · exact Or.inr ⟨b, d, by rw [h]; simp⟩
            · exact Or.inr ⟨b, d, by simp [h]⟩
          · rintro (h | ⟨b, d, h⟩)
            · exact Or.inl (Or.inl h)
            · rcases List.mem_cons.1 h with h | h
              · injection h with h
                exact Or.inl (Or.inr ⟨b, d, h.symm⟩)
              · exact Or.inr ⟨b, d, h⟩
        · dsimp only
          rw [this.2, h2]
          simp

end Verif.TestClient
