import Verif.Hosts.Model
import Verif.Hosts.Spec
import Verif.Url.Lemmas

namespace Verif.Hosts

open Verif Url Spec

theorem validateHost_fst (h : Str) (ps : List Str) (f : Bool) :
    (validateHost h ps f).1 = true ↔
      ∃ p ∈ ps, h = p ∨ (startsWith p "*".toList = true ∧ endsWith h (p.drop 1) = true) := by
  induction ps generalizing f with
  | nil => simp [validateHost]
  | cons p ps ih =>
    rw [validateHost]
    split
    · rename_i hc
      simp only [true_iff]
      exact ⟨p, by simp, hc⟩
    · rename_i hc
      have : ∀ f', (validateHost h ps f').1 = true ↔
          ∃ q ∈ p :: ps, h = q ∨ (startsWith q "*".toList = true ∧ endsWith h (q.drop 1) = true) := by
        intro f'
        rw [ih]
        constructor
        · rintro ⟨q, hq, hh⟩; exact ⟨q, by simp [hq], hh⟩
        · rintro ⟨q, hq, hh⟩
          rcases List.mem_cons.1 hq with rfl | hq
          · exact absurd hh hc
          · exact ⟨q, hq, hh⟩
      split <;> exact this _

theorem validateHost_snd (h : Str) (ps : List Str) (f : Bool) (hv : (validateHost h ps f).1 = false) :
    (validateHost h ps f).2 = true ↔ f = true ∨ "www.".toList ++ h ∈ ps := by
  induction ps generalizing f with
  | nil => simp [validateHost]
  | cons p ps ih =>
    rw [validateHost] at hv ⊢
    split
    · rename_i hc; rw [if_pos hc] at hv; cases hv
    · rename_i hc
      rw [if_neg hc] at hv
      split
      · rename_i hw
        rw [if_pos hw] at hv
        rw [ih _ hv, ← hw]; simp
      · rename_i hw
        rw [if_neg hw] at hv
        rw [ih _ hv]
        simp only [List.mem_cons]
        constructor
        · rintro (h1 | h1)
          · exact .inl h1
          · exact .inr (.inr h1)
        · rintro (h1 | h1 | h1)
          · exact .inl h1
          · exact absurd h1 hw
          · exact .inr h1

theorem endsWith_iff (s p : Str) : endsWith s p = true ↔ ∃ t, s = t ++ p := by
  unfold endsWith
  rw [List.isSuffixOf_iff_suffix]
  constructor
  · rintro ⟨t, ht⟩; exact ⟨t, ht.symm⟩
  · rintro ⟨t, ht⟩; exact ⟨t, ht.symm⟩

theorem splitOn_headD (c : Char) (s : Str) : (splitOn c s).headD [] = (partition c s).1 := by
  induction s with
  | nil => rfl
  | cons x xs ih =>
    rw [splitOn, partition]
    split
    · rfl
    · cases hs : splitOn c xs with
      | nil => exact absurd hs (splitOn_ne_nil c xs)
      | cons a t => rw [hs] at ih; simp only [List.headD_cons] at ih ⊢; rw [ih]

theorem hostName_iff (header h : Str) : HostName header h ↔ hostOf (some header) = h := by
  unfold HostName hostOf
  rw [Option.getD_some, splitOn_headD]
  constructor
  · rintro ⟨hn, rfl | ⟨port, rfl⟩⟩
    · rw [partition_of_not_mem _ _ hn]
    · rw [partition_append _ _ _ hn]
  · rintro rfl
    refine ⟨partition_fst_not_mem _ _, ?_⟩
    have := partition_eq ':' header
    cases hp : (partition ':' header).2 with
    | none => rw [hp, List.append_nil] at this; exact .inl this
    | some r => rw [hp] at this; exact .inr ⟨r, this⟩

theorem admitted_iff (allowed : List Str) (header : Str) :
    Admitted allowed header ↔ Listed allowed (hostOf (some header)) := by
  unfold Admitted
  simp only [hostName_iff]
  constructor
  · rintro ⟨h, rfl, hl⟩; exact hl
  · intro hl; exact ⟨_, rfl, hl⟩

theorem valid_acceptable (c : Config) : c.valid = true ↔ Acceptable c.allowed := by
  unfold Config.valid Acceptable
  rw [List.all_eq_true]
  apply forall_congr'; intro p
  apply imp_congr_right; intro hp
  match p with
  | [] => simp [startsWith]
  | [a] =>
    by_cases ha : a = '*'
    · subst ha; simp [startsWith]
    · have ha' : ¬ '*' = a := fun e => ha e.symm
      simp [startsWith, List.isPrefixOf, ha']
  | a :: b :: rest =>
    by_cases ha : a = '*'
    · subst ha
      by_cases hb : b = '.'
      · subst hb; simp [startsWith]
      · simp [startsWith]
        constructor
        · rintro ⟨_, h⟩; exact absurd h.symm hb
        · rintro ⟨_, h, _⟩; exact absurd h.1 hb
    · have ha' : ¬ '*' = a := fun e => ha e.symm
      simp [startsWith, List.isPrefixOf, ha, ha']

theorem valid_wellFormed (c : Config) (hs : "*".toList ∉ c.allowed) :
    c.valid = true ↔ WellFormed c.allowed := by
  rw [valid_acceptable]
  constructor
  · intro h p hp
    rcases h p hp with e | h
    · rw [e] at hp; exact absurd hp hs
    · exact h
  · exact fun h p hp => .inr (h p hp)

theorem listed_iff (c : Config) (hw : WellFormed c.allowed) (h : Str) :
    (validateHost h c.allowed false).1 = true ↔ Listed c.allowed h := by
  rw [validateHost_fst]
  unfold Listed
  constructor
  · rintro ⟨p, hp, rfl | ⟨h1, h2⟩⟩
    · exact .inl hp
    · rcases hw p hp with hn | ⟨d, rfl, hd⟩
      · cases p with
        | nil => simp [startsWith] at h1
        | cons x xs =>
          have : '*' = x := by simpa [startsWith] using h1
          subst this; simp at hn
      · right
        rw [endsWith_iff] at h2
        exact ⟨d, hp, h2⟩
  · rintro (hm | ⟨d, hm, t, rfl⟩)
    · exact ⟨h, hm, .inl rfl⟩
    · exact ⟨_, hm, .inr ⟨by simp [startsWith], by rw [endsWith_iff]; exact ⟨t, rfl⟩⟩⟩

theorem percentDecode_cons_ne (a : Char) (s : Str) (h : a ≠ '%') :
    Addresses.percentDecode (a :: s) = a :: Addresses.percentDecode s := by
  rw [Addresses.percentDecode]
  rintro _ _ _ rfl; exact absurd rfl h

theorem hex_eq (c : Char) : Addresses.hex c = hexVal c := rfl

theorem percentDecode_eq (s : Str) : Addresses.percentDecode s = unquote s := by
  induction hn : s.length using Nat.strongRecOn generalizing s with
  | ind n ih =>
    subst hn
    match s with
    | [] => rfl
    | a :: s =>
      by_cases ha : a = '%'
      · subst ha
        match s with
        | [] => rfl
        | [b] =>
          have : Addresses.percentDecode ['%', b] = '%' :: Addresses.percentDecode [b] := by
            rw [Addresses.percentDecode]; intro _ _ _ _ h; cases h
          rw [this, ih 1 (by simp) [b] rfl]; simp [unquote]
        | b :: c :: rest =>
          rw [Addresses.percentDecode, unquote, if_pos rfl]
          simp only [hex_eq]
          cases hexVal b with
          | none => simp only; rw [ih _ _ (b :: c :: rest) rfl]; simp
          | some x =>
            cases hexVal c with
            | none => simp only; rw [ih _ _ (b :: c :: rest) rfl]; simp
            | some y => simp only; rw [ih _ _ rest rfl]; simp; omega
      · rw [percentDecode_cons_ne _ _ ha, unquote_cons_ne _ _ ha, ih s.length (by simp) s rfl]

theorem plainHost_safe {h : Str} (hh : PlainHost h) : ∀ c ∈ h, alwaysSafe c = true := by
  intro c hc
  have := hh.2 c hc
  simp only [alwaysSafe, Bool.or_eq_true, Bool.and_eq_true, decide_eq_true_eq]
  rcases this with h | h | h | h | h | h | h <;> simp [h]

theorem alwaysSafe_facts {c : Char} (h : alwaysSafe c = true) :
    c ≠ '/' ∧ c ≠ '?' ∧ c ≠ '#' ∧ c ≠ '[' ∧ c ≠ ']' ∧ c ≠ ':' ∧ c ≠ '@' ∧ c ≠ '%' ∧
      c ≠ '\t' ∧ c ≠ '\r' ∧ c ≠ '\n' := by
  refine ⟨?_, ?_, ?_, ?_, ?_, ?_, ?_, ?_, ?_, ?_, ?_⟩ <;> rintro rfl <;> revert h <;> decide

theorem digit_safe {c : Char} (h : '0' ≤ c ∧ c ≤ '9') : alwaysSafe c = true := by
  simp [alwaysSafe, h]

/-- Facts about an authority `host[:port]`. -/
theorem authority_chars {h t : Str} (hh : PlainHost h) (ht : PortText t) :
    ∀ c ∈ h ++ t, alwaysSafe c = true ∨ c = ':' := by
  intro c hc
  rcases List.mem_append.1 hc with hc | hc
  · exact .inl (plainHost_safe hh c hc)
  · rcases ht with rfl | ⟨d, rfl, _, hd, _⟩
    · cases hc
    · rcases List.mem_cons.1 hc with rfl | hc
      · exact .inr rfl
      · exact .inl (digit_safe (hd c hc))

theorem authority_plain {h t : Str} (hh : PlainHost h) (ht : PortText t) :
    PlainNetloc (h ++ t) ∧ Clean (h ++ t) ∧ '@' ∉ h ++ t ∧ '[' ∉ h ++ t := by
  have := authority_chars hh ht
  refine ⟨?_, ?_, ?_, ?_⟩
  · intro c hc
    rcases this c hc with h | rfl
    · have := alwaysSafe_facts h
      exact ⟨this.1, this.2.1, this.2.2.1, this.2.2.2.1, this.2.2.2.2.1⟩
    · decide
  · intro c hc
    rcases this c hc with h | rfl
    · exact (alwaysSafe_facts h).2.2.2.2.2.2.2.2
    · decide
  · intro hc
    rcases this _ hc with h | h
    · revert h; decide
    · revert h; decide
  · intro hc
    rcases this _ hc with h | h
    · revert h; decide
    · revert h; decide

theorem hostinfo_authority {h t : Str} (hh : PlainHost h) (ht : PortText t) :
    hostinfo (h ++ t) = (h, t.drop 1) := by
  obtain ⟨_, _, hat, hbr⟩ := authority_plain hh ht
  have hcol : ':' ∉ h := fun hm => (alwaysSafe_facts (plainHost_safe hh _ hm)).2.2.2.2.2.1 rfl
  unfold hostinfo
  simp only [afterLast_of_not_mem _ _ hat, partition_of_not_mem _ _ hbr]
  rcases ht with rfl | ⟨d, rfl, _⟩
  · rw [List.append_nil, partition_of_not_mem _ _ hcol]; rfl
  · rw [partition_append _ _ _ hcol]; rfl

theorem port_authority {h t : Str} (hh : PlainHost h) (ht : PortText t) :
    port (h ++ t) = some (if t = [] then none else some (number (t.drop 1))) := by
  unfold port
  rw [hostinfo_authority hh ht]
  rcases ht with rfl | ⟨d, rfl, hne, hd, hn⟩
  · rfl
  · simp only [List.drop_succ_cons, List.drop_zero, hne, if_false]
    have hall : d.all (fun c => decide ('0' ≤ c) && decide (c ≤ '9')) = true := by
      rw [List.all_eq_true]; intro c hc; simpa using hd c hc
    rw [if_pos hall]
    have : Path.decVal d = number d := rfl
    rw [this, if_pos hn]
    simp

theorem plainPath_abs {p : Str} (hp : PlainPath p) : AbsPath p ∧ Clean p ∧ Bytes p ∧ '%' ∉ p := by
  obtain ⟨⟨r, hr⟩, hall⟩ := hp
  exact ⟨⟨.inr ⟨r, hr⟩, fun hm => (hall _ hm).2.2.1 rfl, fun hm => (hall _ hm).2.2.2.1 rfl⟩,
    fun c hc => (hall c hc).2.2.2.2, fun c hc => (hall c hc).1, fun hm => (hall _ hm).2.1 rfl⟩

theorem plainQuery_facts {q : Str} (hq : PlainQuery q) :
    '#' ∉ q ∧ Clean q ∧ ∀ c ∈ q, alwaysSafe c = true ∨ redirectSafe c = true := by
  have key : ∀ c ∈ q, alwaysSafe c = true ∨ c ∈ "_.-~%!$&'()*+,;=:@/?".toList := by
    intro c hc
    rcases hq c hc with h | h | h | h
    · exact .inl (by simp [alwaysSafe, h])
    · exact .inl (by simp [alwaysSafe, h])
    · exact .inl (by simp [alwaysSafe, h])
    · exact .inr h
  have lit : ∀ c ∈ "_.-~%!$&'()*+,;=:@/?".toList,
      (alwaysSafe c = true ∨ redirectSafe c = true) ∧ c ≠ '#' ∧ c ≠ '\t' ∧ c ≠ '\r' ∧ c ≠ '\n' := by
    decide
  refine ⟨?_, ?_, ?_⟩
  · intro hm
    rcases key _ hm with h | h
    · revert h; decide
    · exact (lit _ h).2.1 rfl
  · intro c hc
    rcases key c hc with h | h
    · exact (alwaysSafe_facts h).2.2.2.2.2.2.2.2
    · exact (lit _ h).2.2
  · intro c hc
    rcases key c hc with h | h
    · exact .inl h
    · exact (lit _ h).1

theorem mkURL_plain (ip6 : Str → Bool) {s h t p q : Str} (hs : Scheme s) (hh : PlainHost h)
    (ht : PortText t) (hp : PlainPath p) (hq : PlainQuery q) :
    mkURL ip6 (s ++ "://".toList ++ (h ++ t) ++ p ++ tail '?' q) = some ⟨s, h ++ t, p, q, []⟩ := by
  obtain ⟨h1, h2, _, _⟩ := authority_plain hh ht
  obtain ⟨h3, h4, _, _⟩ := plainPath_abs hp
  obtain ⟨h5, h6, _⟩ := plainQuery_facts hq
  unfold mkURL
  rw [urlsplit_eq ip6 hs h1 h3 h5 h2 h4 h6]
  simp only [port_authority hh ht]

theorem tail_eq (q : Str) : tail '?' q = queryPart q := rfl

theorem scopeUrl_host (r : ReqUrl) (h : Str) (hr : r.host = some h) :
    scopeUrl r = r.scheme ++ "://".toList ++ h ++ r.path ++ tail '?' r.query := by
  unfold scopeUrl tail
  rw [hr]
  by_cases hq : r.query = [] <;> simp [hq]

theorem schemeChar_safe {c : Char} (h : schemeChar c = true) :
    alwaysSafe c = true ∨ redirectSafe c = true := by
  simp only [schemeChar, Bool.or_eq_true, Bool.and_eq_true, decide_eq_true_eq] at h
  rcases h with ((((h | h) | h) | rfl) | rfl) | rfl
  · exact .inl (by simp [alwaysSafe, h])
  · exact .inl (by simp [alwaysSafe, h])
  · exact .inl (by simp [alwaysSafe, h])
  all_goals decide

/-- The location of a URL put together from plain parts addresses these parts. -/
theorem location_addresses {s h t p q : Str} (hs : Scheme s) (hh : PlainHost h)
    (ht : PortText t) (hp : PlainPath p) (hq : PlainQuery q) :
    Addresses (location (s ++ "://".toList ++ (h ++ t) ++ p ++ tail '?' q)) s (h ++ t) p q := by
  obtain ⟨h3, h4, h5, h6⟩ := plainPath_abs hp
  refine ⟨quote redirectSafe p, ?_, ?_, ?_, ?_, ?_⟩
  · unfold location
    simp only [quote_append]
    rw [quote_of_all _ s (fun c hc => schemeChar_safe (hs.2.1 c hc)),
      quote_of_all _ "://".toList (by decide),
      quote_of_all _ h (fun c hc => .inl (plainHost_safe hh c hc)),
      quote_of_all _ t, quote_of_all _ (tail '?' q)]
    · rfl
    · intro c hc
      unfold tail at hc
      split at hc
      · cases hc
      · rcases List.mem_cons.1 hc with rfl | hc
        · decide
        · exact (plainQuery_facts hq).2.2 c hc
    · intro c hc
      rcases authority_chars hh ht c (by simp [hc]) with h | rfl
      · exact .inl h
      · decide
  · obtain ⟨⟨r, hr⟩, _⟩ := hp
    rw [hr]
    exact ⟨quote redirectSafe r, by rw [quote, if_pos (by decide)]⟩
  · intro hm
    rcases quote_chars _ p h5 _ hm with h | h | h
    · revert h; decide
    · exact h3.2.1 h.2
    · revert h; decide
  · intro hm
    rcases quote_chars _ p h5 _ hm with h | h | h
    · revert h; decide
    · exact h3.2.2 h.2
    · revert h; decide
  · rw [percentDecode_eq, unquote_quote _ _ h5 (.inr h6)]

theorem toLower_plain_aux : ∀ n < 128,
    (alwaysSafe (Char.ofNat n) = true → alwaysSafe (Char.ofNat n).toLower = true) := by decide

theorem alwaysSafe_lt {c : Char} (h : alwaysSafe c = true) : c.toNat < 128 := by
  simp only [alwaysSafe, Bool.or_eq_true, Bool.and_eq_true, decide_eq_true_eq] at h
  have hz : 'z'.toNat = 122 := rfl
  have hZ : 'Z'.toNat = 90 := rfl
  have h9 : '9'.toNat = 57 := rfl
  rcases h with (((((⟨_, h⟩ | ⟨_, h⟩) | ⟨_, h⟩) | rfl) | rfl) | rfl) | rfl
  · have : c.toNat ≤ 'z'.toNat := h
    omega
  · have : c.toNat ≤ 'Z'.toNat := h
    omega
  · have : c.toNat ≤ '9'.toNat := h
    omega
  all_goals decide

theorem alwaysSafe_iff {c : Char} : alwaysSafe c = true ↔
    ('a' ≤ c ∧ c ≤ 'z') ∨ ('A' ≤ c ∧ c ≤ 'Z') ∨ ('0' ≤ c ∧ c ≤ '9') ∨
      c = '_' ∨ c = '.' ∨ c = '-' ∨ c = '~' := by
  simp [alwaysSafe, or_assoc]

theorem lower_plainHost {h : Str} (hh : PlainHost h) : PlainHost (lower h) := by
  refine ⟨by simpa [lower] using hh.1, ?_⟩
  intro c hc
  rw [← alwaysSafe_iff]
  unfold lower at hc
  rw [List.mem_map] at hc
  obtain ⟨x, hx, rfl⟩ := hc
  have hs := plainHost_safe hh x hx
  have := toLower_plain_aux x.toNat (alwaysSafe_lt hs)
  rw [Char.ofNat_toNat] at this
  exact this hs

theorem hostname_authority {h t : Str} (hh : PlainHost h) (ht : PortText t) :
    hostname (h ++ t) = some (lower h) := by
  unfold hostname
  rw [hostinfo_authority hh ht]
  simp only [hh.1, if_false]
  rw [partition_of_not_mem]
  · simp
  · exact fun hm => (alwaysSafe_facts (plainHost_safe hh _ hm)).2.2.2.2.2.2.2.1 rfl

theorem scheme_lits : Scheme "http".toList ∧ Scheme "https".toList ∧ Scheme "ws".toList ∧
    Scheme "wss".toList := by
  refine ⟨⟨⟨'h', "ttp".toList, rfl, by decide⟩, by decide, by decide⟩,
    ⟨⟨'h', "ttps".toList, rfl, by decide⟩, by decide, by decide⟩,
    ⟨⟨'w', "s".toList, rfl, by decide⟩, by decide, by decide⟩,
    ⟨⟨'w', "ss".toList, rfl, by decide⟩, by decide, by decide⟩⟩

end Verif.Hosts
