import Verif.MailFiles.Lemmas

/-! # Theorems about mails in files (C127) -/

namespace Verif.MailFiles

open Verif.MailFiles.Spec

/-- **C127**: whatever the subject, the file is one in the directory itself. -/
theorem C127_child (alnum : Char → Bool) (ha : Sane alnum) (t : Moment) (s : Str) : Child (fileName alnum t s) := by
  have hmem : ∀ c ∈ fileName alnum t s,
      ((48 ≤ c.toNat ∧ c.toNat ≤ 57) ∨ c = '-') ∨ c = '-' ∨ (alnum c = true ∨ c = '-' ∨ c = '_') ∨
        c ∈ ".eml".toList := by
    intro c h
    unfold fileName at h
    rw [List.mem_append, List.mem_cons, List.mem_append] at h
    rcases h with h | h | h | h
    · exact .inl (stamp_chars t c h)
    · exact .inr (.inl h)
    · exact .inr (.inr (.inl (safe_chars alnum s c h)))
    · exact .inr (.inr (.inr h))
  have hlen : 22 < (fileName alnum t s).length := by
    unfold fileName
    rw [List.length_append, stamp_length, List.length_cons]
    omega
  refine ⟨fun h => ?_, fun h => ?_, fun h => ?_, fun h => ?_⟩
  · rcases hmem _ h with (h | h) | h | (h | h | h) | h
    · exact absurd h (by decide)
    · exact absurd h (by decide)
    · exact absurd h (by decide)
    · rw [ha.slash] at h; cases h
    · exact absurd h (by decide)
    · exact absurd h (by decide)
    · exact absurd h (by decide)
  · rcases hmem _ h with (h | h) | h | (h | h | h) | h
    · exact absurd h (by decide)
    · exact absurd h (by decide)
    · exact absurd h (by decide)
    · rw [ha.zero] at h; cases h
    · exact absurd h (by decide)
    · exact absurd h (by decide)
    · exact absurd h (by decide)
  · rw [h] at hlen; exact absurd hlen (by decide)
  · rw [h] at hlen; exact absurd hlen (by decide)

/-- ASCII letters and digits. -/
def ascii (c : Char) : Bool := c.isAlphanum

/-- A moment. -/
def noon : Moment := ⟨2026, 1, 2, 12, 0, 0, 7⟩

example : Sane ascii := ⟨by decide, by decide⟩

/-- A subject that tries to leave the directory. -/
example : fileName ascii noon "../../etc/passwd".toList = "20260102-120000-000007-etcpasswd.eml".toList := by
  decide +kernel

/-- **C127**: the names are listed in the order of the moments, whatever the subjects. -/
theorem C127_order (alnum : Char → Bool) (a b : Moment) (s u : Str) (hb : Proper b) (h : Earlier a b) :
    Before (fileName alnum a s) (fileName alnum b u) :=
  fileName_before alnum a b s u hb h

example : Proper noon ∧ Earlier ⟨2025, 12, 31, 23, 59, 59, 999999⟩ noon :=
  ⟨⟨by decide, by decide, by decide, by decide, by decide, by decide, by decide⟩, .inl (by decide)⟩

/-- **C127**: mails sent at different moments, one after the other, with subjects without letters outside the basic
plane: every call returns, and the directory holds, beside what was there before, each mail in a file of its own, in the
order in which they were sent. -/
theorem C127_kept_partial (alnum : Char → Bool) (disk : Disk) (ms : List (Moment × Mail)) (ho : Ordered ms)
    (hp : ∀ x ∈ ms, Proper x.1 ∧ Short x.2)
    (hd : ∀ x ∈ ms, ∀ e ∈ disk, Before e.1 (fileName alnum x.1 x.2.subject)) :
    (sendAll alnum disk ms).2 = ms.map (fun _ => true) ∧
    (sendAll alnum disk ms).1 = disk ++ ms.map (fun x => (fileName alnum x.1 x.2.subject, x.2.content.getD [])) ∧
    (disk.Pairwise (fun x y => Before x.1 y.1) → (sendAll alnum disk ms).1.Pairwise (fun x y => Before x.1 y.1)) := by
  induction ms generalizing disk with
  | nil => exact ⟨rfl, (List.append_nil _).symm, id⟩
  | cons x ms ih =>
    obtain ⟨t, m⟩ := x
    obtain ⟨ht, hm⟩ := hp (t, m) List.mem_cons_self
    obtain ⟨text, hc⟩ := hm.text
    have hc : m.content = some text := hc
    have hx := hd (t, m) List.mem_cons_self
    have hnew : ∀ e ∈ disk, e.1 ≠ fileName alnum t m.subject := fun e he eq => by
      have := hx e he
      rw [eq] at this
      exact Before.irrefl this
    have hs : send alnum disk t m = (disk ++ [(fileName alnum t m.subject, text)], true) := by
      unfold send
      rw [hc]
      simp only
      rw [if_neg (Nat.not_lt.2 (short_size alnum t m.subject hm.letters)), aset_new _ _ _ hnew]
    obtain ⟨ho', later⟩ := ordered_later ms (t, m) ho
    have ih := ih (disk ++ [(fileName alnum t m.subject, text)]) ho' (fun x hx => hp x (List.mem_cons_of_mem _ hx))
      (fun y hy e he => by
        rcases List.mem_append.1 he with he | he
        · exact hd y (List.mem_cons_of_mem _ hy) e he
        · rw [List.mem_singleton.1 he]
          exact fileName_before alnum t y.1 m.subject y.2.subject (hp y (List.mem_cons_of_mem _ hy)).1 (later y hy))
    obtain ⟨h1, h2, h3⟩ := ih
    have hr : sendAll alnum disk ((t, m) :: ms) =
        ((sendAll alnum (disk ++ [(fileName alnum t m.subject, text)]) ms).1,
          true :: (sendAll alnum (disk ++ [(fileName alnum t m.subject, text)]) ms).2) := by
      rw [sendAll, hs]
    rw [hr]
    refine ⟨?_, ?_, fun hq => ?_⟩
    · rw [List.map_cons]
      exact congrArg _ h1
    · rw [List.map_cons]
      simp only [h2, hc, Option.getD_some, List.append_assoc]
      rfl
    · refine h3 ?_
      rw [List.pairwise_append]
      refine ⟨hq, List.pairwise_singleton _ _, fun a ha b hb => ?_⟩
      rw [List.mem_singleton.1 hb]
      exact hx a ha

/-- Two mails with the same subject, a microsecond apart. -/
example : Ordered [(noon, ⟨"Hi".toList, some "1".toList⟩), ({ noon with micro := 8 }, ⟨"Hi".toList, some "2".toList⟩)] ∧
    (sendAll ascii [] [(noon, ⟨"Hi".toList, some "1".toList⟩),
      ({ noon with micro := 8 }, ⟨"Hi".toList, some "2".toList⟩)]).1 =
      [("20260102-120000-000007-Hi.eml".toList, "1".toList), ("20260102-120000-000008-Hi.eml".toList, "2".toList)] :=
  ⟨⟨.inr ⟨rfl, .inr ⟨rfl, .inr ⟨rfl, .inr ⟨rfl, .inr ⟨rfl, .inr ⟨rfl, by decide⟩⟩⟩⟩⟩⟩, trivial⟩, by decide +kernel⟩

/-- **C127**: a mail that cannot be written as text leaves the directory as it was, and the caller is told. -/
theorem C127_refused (alnum : Char → Bool) (disk : Disk) (t : Moment) (m : Mail) (h : m.content = none) :
    send alnum disk t m = (disk, false) := by
  unfold send
  rw [h]

/-! ### Where it fails -/

/-- **C127 is false of mails at one moment**: if two mails are sent within a microsecond (or while the clock stands
still) and their subjects have the same safe letters at the front, the second is written over the first, and both calls
return. -/
theorem C127_same_moment_false (alnum : Char → Bool) (disk : Disk) (t : Moment) (s u a b : Str)
    (h : safe alnum s = safe alnum u) (hs : ∀ c ∈ s, c.toNat < 65536) (hu : ∀ c ∈ u, c.toNat < 65536)
    (hd : ∀ e ∈ disk, e.1 ≠ fileName alnum t s) :
    sendAll alnum disk [(t, ⟨s, some a⟩), (t, ⟨u, some b⟩)] =
      (disk ++ [(fileName alnum t s, b)], [true, true]) := by
  have hn : fileName alnum t u = fileName alnum t s := by
    unfold fileName
    rw [h]
  have h1 : send alnum disk t ⟨s, some a⟩ = (disk ++ [(fileName alnum t s, a)], true) := by
    unfold send
    simp only
    rw [if_neg (Nat.not_lt.2 (short_size alnum t s hs)), aset_new _ _ _ hd]
  have h2 : aset (disk ++ [(fileName alnum t s, a)]) (fileName alnum t s) b = disk ++ [(fileName alnum t s, b)] := by
    clear h1
    induction disk with
    | nil => simp [aset]
    | cons e disk ih =>
      obtain ⟨n, w⟩ := e
      have hne : n ≠ fileName alnum t s := hd _ List.mem_cons_self
      rw [List.cons_append, aset, if_neg hne, ih (fun e he => hd e (List.mem_cons_of_mem _ he))]
      rfl
  have h3 : send alnum (disk ++ [(fileName alnum t s, a)]) t ⟨u, some b⟩ =
      (disk ++ [(fileName alnum t s, b)], true) := by
    unfold send
    simp only
    rw [if_neg (Nat.not_lt.2 (short_size alnum t u hu)), hn, h2]
  rw [sendAll, h1]
  simp only
  rw [sendAll, h3]
  rfl

/-- `Order 1.2` and `Order 12`. -/
example : safe ascii "Order 1.2".toList = safe ascii "Order 12".toList := by decide +kernel

/-- **C127 is false of long subjects in other scripts**: sixty letters outside the basic plane, and the file cannot be
opened, so that the mail is lost. -/
theorem C127_long_false (alnum : Char → Bool) (disk : Disk) (t : Moment) (s : Str) (text : Option Str)
    (hl : 60 ≤ s.length) (hs : ∀ c ∈ s, alnum c = true ∧ 65536 ≤ c.toNat) :
    send alnum disk t ⟨s, text⟩ = (disk, false) := by
  have hsafe : safe alnum s = s.take 60 := by
    unfold safe
    rw [if_neg (by intro e; rw [e] at hl; exact absurd hl (by decide))]
    rw [List.filter_eq_self.2 (fun c hc => by rw [(hs c hc).1]; rfl)]
  have hsz : 255 < size (fileName alnum t s) := by
    rw [fileName_size, hsafe]
    have h1 := size_ge (s.take 60) 4 (fun c hc => by
      rw [utf8_big c (hs c (List.mem_of_mem_take hc)).2]; exact Nat.le_refl _)
    rw [List.length_take] at h1
    omega
  unfold send
  cases text with
  | none => rfl
  | some x => simp only; rw [if_pos hsz]

/-- Mathematical letters. -/
example : 60 ≤ (List.replicate 60 (Char.ofNat 0x1D400)).length ∧
    ∀ c ∈ List.replicate 60 (Char.ofNat 0x1D400), (fun c => c = Char.ofNat 0x1D400 : Char → Bool) c = true ∧
      65536 ≤ c.toNat :=
  ⟨by decide, fun c hc => by rw [(List.mem_replicate.1 hc).2]; decide⟩

end Verif.MailFiles
