import Verif.Url.Model

namespace Verif.Url

open Verif

/-! ## Cutting -/

theorem partition_of_not_mem (c : Char) (s : Str) (h : c ∉ s) : partition c s = (s, none) := by
  induction s with
  | nil => rfl
  | cons x xs ih =>
    simp only [List.mem_cons, not_or] at h
    rw [partition, if_neg (fun e => h.1 e.symm), ih h.2]

theorem partition_append (c : Char) (a b : Str) (h : c ∉ a) :
    partition c (a ++ c :: b) = (a, some b) := by
  induction a with
  | nil => simp [partition]
  | cons x xs ih =>
    simp only [List.mem_cons, not_or] at h
    rw [List.cons_append, partition, if_neg (fun e => h.1 e.symm), ih h.2]

theorem partition_fst_not_mem (c : Char) (s : Str) : c ∉ (partition c s).1 := by
  induction s with
  | nil => simp [partition]
  | cons x xs ih =>
    rw [partition]
    split
    · simp
    · rename_i h
      simp only [List.mem_cons, not_or]
      exact ⟨fun e => h e.symm, ih⟩

theorem partition_eq (c : Char) (s : Str) :
    s = (partition c s).1 ++ (match (partition c s).2 with | some r => c :: r | none => []) := by
  induction s with
  | nil => rfl
  | cons x xs ih =>
    rw [partition]
    split
    · rename_i h; simp [h]
    · simp only [List.cons_append]; rw [← ih]

theorem takeWhile_all {α : Type} (p : α → Bool) (s : List α) (h : ∀ x ∈ s, p x = true) :
    s.takeWhile p = s := by
  induction s with
  | nil => rfl
  | cons x xs ih => rw [List.takeWhile_cons, if_pos (h x (by simp)), ih (fun y hy => h y (by simp [hy]))]

theorem takeWhile_stop {α : Type} (p : α → Bool) (a : List α) (b : α) (r : List α)
    (h : ∀ x ∈ a, p x = true) (hb : p b = false) : (a ++ b :: r).takeWhile p = a := by
  induction a with
  | nil => simp [hb]
  | cons x xs ih =>
    rw [List.cons_append, List.takeWhile_cons, if_pos (h x (by simp)), ih (fun y hy => h y (by simp [hy]))]

theorem dropWhile_stop {α : Type} (p : α → Bool) (a : List α) (b : α) (r : List α)
    (h : ∀ x ∈ a, p x = true) (hb : p b = false) : (a ++ b :: r).dropWhile p = b :: r := by
  induction a with
  | nil => simp [hb]
  | cons x xs ih =>
    rw [List.cons_append, List.dropWhile_cons, if_pos (h x (by simp)), ih (fun y hy => h y (by simp [hy]))]

theorem dropWhile_all {α : Type} (p : α → Bool) (s : List α) (h : ∀ x ∈ s, p x = true) :
    s.dropWhile p = [] := by
  induction s with
  | nil => rfl
  | cons x xs ih => rw [List.dropWhile_cons, if_pos (h x (by simp)), ih (fun y hy => h y (by simp [hy]))]

theorem afterLast_of_not_mem (c : Char) (s : Str) (h : c ∉ s) : afterLast c s = s := by
  unfold afterLast
  have : s.reverse.takeWhile (· ≠ c) = s.reverse := by
    apply takeWhile_all
    intro x hx
    simp only [ne_eq, decide_eq_true_eq]
    rintro rfl
    exact h (by simpa using hx)
  rw [this, List.reverse_reverse]

/-! ## Percent encoding -/

theorem hexVal_hexDigit : ∀ n < 16, hexVal (hexDigit n) = some n := by decide

theorem unquote_cons_ne (a : Char) (s : Str) (h : a ≠ '%') : unquote (a :: s) = a :: unquote s := by
  match s with
  | [] => simp [unquote]
  | [b] => simp [unquote]
  | b :: c :: rest => rw [unquote, if_neg h]

theorem unquote_escape (b c : Char) (x y : Nat) (rest : Str) (hb : hexVal b = some x)
    (hc : hexVal c = some y) :
    unquote ('%' :: b :: c :: rest) = Char.ofNat (16 * x + y) :: unquote rest := by
  rw [unquote, if_pos rfl, hb, hc]

/-- A string that stands for bytes. -/
def Bytes (s : Str) : Prop := ∀ c ∈ s, c.toNat < 256

theorem unquote_quote (safe : Char → Bool) (s : Str) (hs : Bytes s)
    (hp : safe '%' = false ∨ '%' ∉ s) : unquote (quote safe s) = s := by
  induction s with
  | nil => simp [quote, unquote]
  | cons c cs ih =>
    have hcs : Bytes cs := fun x hx => hs x (List.mem_cons_of_mem _ hx)
    have hp' : safe '%' = false ∨ '%' ∉ cs := by
      rcases hp with h | h
      · exact .inl h
      · exact .inr (fun hm => h (List.mem_cons_of_mem _ hm))
    have ih := ih hcs hp'
    rw [quote]
    split
    · rename_i h
      have hne : c ≠ '%' := by
        rintro rfl
        rcases hp with hp | hp
        · rw [hp] at h; revert h; decide
        · exact hp (by simp)
      rw [unquote_cons_ne _ _ hne, ih]
    · have hc := hs c (by simp)
      rw [unquote_escape _ _ _ _ _ (hexVal_hexDigit _ (by omega)) (hexVal_hexDigit _ (by omega)), ih]
      have : 16 * (c.toNat / 16) + c.toNat % 16 = c.toNat := Nat.div_add_mod _ _
      rw [this, Char.ofNat_toNat]

theorem hexDigit_safe : ∀ n < 16, alwaysSafe (hexDigit n) = true := by decide

theorem quote_chars (safe : Char → Bool) (s : Str) (hs : Bytes s) :
    ∀ c ∈ quote safe s, alwaysSafe c = true ∨ (safe c = true ∧ c ∈ s) ∨ c = '%' := by
  induction s with
  | nil => simp [quote]
  | cons c cs ih =>
    have ih := ih (fun x hx => hs x (List.mem_cons_of_mem _ hx))
    rw [quote]
    split
    · rename_i h
      intro x hx
      rcases List.mem_cons.1 hx with rfl | hx
      · simp only [Bool.or_eq_true] at h
        rcases h with h | h
        · exact .inl h
        · exact .inr (.inl ⟨h, by simp⟩)
      · rcases ih x hx with h | h | h
        · exact .inl h
        · exact .inr (.inl ⟨h.1, by simp [h.2]⟩)
        · exact .inr (.inr h)
    · have hc := hs c (by simp)
      intro x hx
      simp only [List.mem_cons] at hx
      rcases hx with rfl | rfl | rfl | hx
      · simp
      · exact .inl (hexDigit_safe _ (by omega))
      · exact .inl (hexDigit_safe _ (by omega))
      · rcases ih x hx with h | h | h
        · exact .inl h
        · exact .inr (.inl ⟨h.1, by simp [h.2]⟩)
        · exact .inr (.inr h)

theorem quote_append (safe : Char → Bool) (a b : Str) :
    quote safe (a ++ b) = quote safe a ++ quote safe b := by
  induction a with
  | nil => simp [quote]
  | cons c cs ih =>
    rw [List.cons_append, quote, quote]
    split <;> simp [ih]

theorem quote_of_all (safe : Char → Bool) (s : Str)
    (h : ∀ c ∈ s, alwaysSafe c = true ∨ safe c = true) : quote safe s = s := by
  induction s with
  | nil => rfl
  | cons c cs ih =>
    rw [quote, if_pos, ih (fun x hx => h x (by simp [hx]))]
    simpa using h c (by simp)

theorem map_plus_space (s : Str) (h : '+' ∉ s) :
    (s.map (fun c => if c = ' ' then '+' else c)).map (fun c => if c = '+' then ' ' else c) = s := by
  induction s with
  | nil => rfl
  | cons c cs ih =>
    simp only [List.mem_cons, not_or] at h
    simp only [List.map_cons, ih h.2, List.cons.injEq, and_true]
    by_cases hc : c = ' '
    · simp [hc]
    · rw [if_neg hc, if_neg (fun e => h.1 e.symm)]

theorem unquotePlus_quotePlus (s : Str) (hs : Bytes s) : unquotePlus (quotePlus s) = s := by
  unfold unquotePlus quotePlus
  rw [map_plus_space, unquote_quote _ _ hs (.inl (by decide))]
  intro hm
  rcases quote_chars _ s hs _ hm with h | h | h
  · revert h; decide
  · exact absurd h.1 (by decide)
  · revert h; decide

theorem quotePlus_chars (s : Str) (hs : Bytes s) :
    ∀ c ∈ quotePlus s, alwaysSafe c = true ∨ c = '+' ∨ c = '%' := by
  intro c hc
  unfold quotePlus at hc
  rw [List.mem_map] at hc
  obtain ⟨x, hx, rfl⟩ := hc
  split
  · simp
  · rename_i hne
    rcases quote_chars _ s hs _ hx with h | h | h
    · exact .inl h
    · exact absurd (by simpa using h.1) hne
    · exact .inr (.inr h)

theorem quotePlus_not_mem (s : Str) (hs : Bytes s) (d : Char) (h1 : alwaysSafe d = false)
    (h2 : d ≠ '+') (h3 : d ≠ '%') : d ∉ quotePlus s := by
  intro hm
  rcases quotePlus_chars s hs d hm with h | h | h
  · rw [h] at h1; cases h1
  · exact h2 h
  · exact h3 h

theorem urlencode_ne_nil (kv : Str × Str) (ps : List (Str × Str)) : urlencode (kv :: ps) ≠ [] := by
  unfold urlencode
  cases ps with
  | nil => simp [joinWith]
  | cons q ps => simp [joinWith]

theorem urlencode_eq_nil (ps : List (Str × Str)) : urlencode ps = [] ↔ ps = [] := by
  constructor
  · intro h
    cases ps with
    | nil => rfl
    | cons kv ps => exact absurd h (urlencode_ne_nil kv ps)
  · rintro rfl; rfl

/-- Pairs of byte strings. -/
def BytePairs (ps : List (Str × Str)) : Prop := ∀ kv ∈ ps, Bytes kv.1 ∧ Bytes kv.2

theorem parse_one (keep : Bool) (kv : Str × Str) (h1 : Bytes kv.1) (h2 : Bytes kv.2)
    (hk : keep = true ∨ kv.2 ≠ []) :
    (if quotePlus kv.1 ++ '=' :: quotePlus kv.2 = [] then none
      else
        let p := partition '=' (quotePlus kv.1 ++ '=' :: quotePlus kv.2)
        let v := p.2.getD []
        if v ≠ [] ∨ keep = true then some (unquotePlus p.1, unquotePlus v) else none) =
      some kv := by
  have hnm : '=' ∉ quotePlus kv.1 := quotePlus_not_mem _ h1 _ (by decide) (by decide) (by decide)
  rw [if_neg (by simp), partition_append _ _ _ hnm]
  simp only [Option.getD_some]
  rw [if_pos, unquotePlus_quotePlus _ h1, unquotePlus_quotePlus _ h2]
  rcases hk with hk | hk
  · exact .inr hk
  · left
    intro hq
    apply hk
    have := unquotePlus_quotePlus _ h2
    rw [hq] at this
    rw [← this]; rfl

theorem parseQsl_urlencode (keep : Bool) (ps : List (Str × Str)) (h : BytePairs ps)
    (hk : keep = true ∨ ∀ kv ∈ ps, kv.2 ≠ []) : parseQsl keep (urlencode ps) = ps := by
  cases hps : ps with
  | nil => simp [urlencode, joinWith, parseQsl]
  | cons kv0 ps0 =>
    rw [← hps]
    unfold parseQsl
    rw [if_neg (by rw [hps]; exact urlencode_ne_nil _ _)]
    have hsplit : splitOn '&' (urlencode ps) = ps.map fun kv => quotePlus kv.1 ++ '=' :: quotePlus kv.2 := by
      unfold urlencode
      apply splitOn_joinWith
      · rw [hps]; simp
      · intro p hp
        rw [List.mem_map] at hp
        obtain ⟨kv, hkv, rfl⟩ := hp
        have := h kv hkv
        simp only [List.mem_append, List.mem_cons, not_or]
        exact ⟨quotePlus_not_mem _ this.1 _ (by decide) (by decide) (by decide), by decide,
          quotePlus_not_mem _ this.2 _ (by decide) (by decide) (by decide)⟩
    rw [hsplit, List.filterMap_map]
    have : ∀ (l : List (Str × Str)), BytePairs l → (keep = true ∨ ∀ kv ∈ l, kv.2 ≠ []) →
        l.filterMap ((fun nv => if nv = [] then none
          else
            let kv := partition '=' nv
            let v := kv.2.getD []
            if v ≠ [] ∨ keep = true then some (unquotePlus kv.1, unquotePlus v) else none) ∘
          fun kv => quotePlus kv.1 ++ '=' :: quotePlus kv.2) = l := by
      intro l
      induction l with
      | nil => intros; rfl
      | cons kv l ih =>
        intro hb hk
        rw [List.filterMap_cons]
        have h1 := parse_one keep kv (hb kv (by simp)).1 (hb kv (by simp)).2
          (hk.imp id fun hh => hh kv (by simp))
        simp only [Function.comp] at h1 ⊢
        rw [h1]
        simp only [List.cons.injEq, true_and]
        exact ih (fun x hx => hb x (by simp [hx])) (hk.imp id fun hh x hx => hh x (by simp [hx]))
    exact this ps h hk

/-! ## Splitting a URL put together from its parts -/

/-- A query tail as `urlunsplit` writes it. -/
def tail (mark : Char) (q : Str) : Str := if q = [] then [] else mark :: q

/-- None of the characters that `urlsplit` deletes. -/
def Clean (s : Str) : Prop := ∀ c ∈ s, c ≠ '\t' ∧ c ≠ '\r' ∧ c ≠ '\n'

theorem Clean.append {a b : Str} (ha : Clean a) (hb : Clean b) : Clean (a ++ b) := by
  intro c hc
  rcases List.mem_append.1 hc with h | h
  · exact ha c h
  · exact hb c h

theorem Clean.filter {s : Str} (h : Clean s) :
    (s.filter fun c => c ≠ '\t' ∧ c ≠ '\r' ∧ c ≠ '\n') = s := by
  rw [List.filter_eq_self]
  intro c hc
  simpa using h c hc

/-- A scheme in lower case. -/
def Scheme (s : Str) : Prop :=
  (∃ c cs, s = c :: cs ∧ isAlpha c = true) ∧ (∀ c ∈ s, schemeChar c = true) ∧ lower s = s

theorem isAlpha_toNat {c : Char} (h : isAlpha c = true) : 65 ≤ c.toNat := by
  simp only [isAlpha, Bool.or_eq_true, Bool.and_eq_true, decide_eq_true_eq] at h
  rcases h with ⟨h, _⟩ | ⟨h, _⟩
  · have : 'a'.toNat ≤ c.toNat := h
    have h2 : 'a'.toNat = 97 := rfl
    omega
  · have : 'A'.toNat ≤ c.toNat := h
    have h2 : 'A'.toNat = 65 := rfl
    omega

theorem schemeChar_facts {c : Char} (h : schemeChar c = true) :
    c ≠ ':' ∧ c ≠ '\t' ∧ c ≠ '\r' ∧ c ≠ '\n' := by
  refine ⟨?_, ?_, ?_, ?_⟩ <;> rintro rfl <;> revert h <;> decide

theorem splitScheme_eq {s : Str} (hs : Scheme s) (rest : Str) :
    splitScheme (s ++ ':' :: rest) = (s, rest) := by
  obtain ⟨⟨c, cs, rfl, hc⟩, hall, hl⟩ := hs
  unfold splitScheme
  rw [partition_append _ _ _ (fun hm => (schemeChar_facts (hall _ hm)).1 rfl)]
  simp only
  rw [if_pos, hl]
  rw [hc, Bool.true_and, List.all_eq_true]
  exact hall

/-- A netloc without path delimiters and without brackets. -/
def PlainNetloc (n : Str) : Prop := ∀ c ∈ n, c ≠ '/' ∧ c ≠ '?' ∧ c ≠ '#' ∧ c ≠ '[' ∧ c ≠ ']'

/-- A path that can follow a netloc: empty or starting with a slash, without `?` and `#`. -/
def AbsPath (p : Str) : Prop := (p = [] ∨ ∃ r, p = '/' :: r) ∧ '?' ∉ p ∧ '#' ∉ p

theorem netlocOk_plain (ip6 : Str → Bool) {n : Str} (h : PlainNetloc n) : netlocOk ip6 n = true := by
  unfold netlocOk
  rw [if_neg]
  rintro (hm | hm)
  · exact (h _ hm).2.2.2.1 rfl
  · exact (h _ hm).2.2.2.2 rfl

theorem splitNetloc_eq {n p q : Str} (hn : PlainNetloc n) (hp : AbsPath p) :
    splitNetloc ("//".toList ++ n ++ p ++ tail '?' q) = (n, p ++ tail '?' q) := by
  have hpre : stripPrefix? "//".toList ("//".toList ++ n ++ p ++ tail '?' q) =
      some (n ++ (p ++ tail '?' q)) := by
    simp [stripPrefix?]
  unfold splitNetloc
  rw [hpre]
  simp only
  have hall : ∀ x ∈ n, (decide (x ≠ '/' ∧ x ≠ '?' ∧ x ≠ '#')) = true := by
    intro x hx
    have := hn x hx
    simp [this.1, this.2.1, this.2.2.1]
  have hcases : (p ++ tail '?' q) = [] ∨ ∃ b r, (p ++ tail '?' q) = b :: r ∧
      (decide (b ≠ '/' ∧ b ≠ '?' ∧ b ≠ '#')) = false := by
    rcases hp.1 with rfl | ⟨r, rfl⟩
    · unfold tail
      split
      · exact .inl rfl
      · exact .inr ⟨'?', q, rfl, by decide⟩
    · exact .inr ⟨'/', r ++ tail '?' q, rfl, by decide⟩
  rcases hcases with h | ⟨b, r, h, hb⟩
  · rw [h, List.append_nil, takeWhile_all _ _ hall, dropWhile_all _ _ hall]
  · rw [h, takeWhile_stop _ _ _ _ hall hb, dropWhile_stop _ _ _ _ hall hb]

theorem urlsplit_eq (ip6 : Str → Bool) {s n p q : Str} (hs : Scheme s) (hn : PlainNetloc n)
    (hp : AbsPath p) (hq : '#' ∉ q) (cn : Clean n) (cp : Clean p) (cq : Clean q) :
    urlsplit ip6 (s ++ "://".toList ++ n ++ p ++ tail '?' q) = some ⟨s, n, p, q, []⟩ := by
  have ctail : Clean (tail '?' q) := by
    unfold tail
    split
    · intro c hc; cases hc
    · intro c hc
      rcases List.mem_cons.1 hc with rfl | hc
      · decide
      · exact cq c hc
  have cs : Clean s := fun c hc => (schemeChar_facts (hs.2.1 c hc)).2
  have csep : Clean "://".toList := by
    intro c hc
    have : c = ':' ∨ c = '/' ∨ c = '/' := by simpa using hc
    rcases this with rfl | rfl | rfl <;> decide
  have hclean : Clean (s ++ "://".toList ++ n ++ p ++ tail '?' q) :=
    (((cs.append csep).append cn).append cp).append ctail
  have hdrop : (s ++ "://".toList ++ n ++ p ++ tail '?' q).dropWhile (fun c => c.toNat ≤ 32) =
      s ++ "://".toList ++ n ++ p ++ tail '?' q := by
    obtain ⟨⟨c, cs', rfl, hc⟩, _, _⟩ := hs
    have := isAlpha_toNat hc
    simp only [List.cons_append]
    rw [List.dropWhile_cons, if_neg]
    simp only [decide_eq_true_eq]
    omega
  unfold urlsplit
  rw [hdrop, hclean.filter]
  have hassoc : s ++ "://".toList ++ n ++ p ++ tail '?' q =
      s ++ ':' :: ("//".toList ++ n ++ p ++ tail '?' q) := by
    simp
  simp only [hassoc, splitScheme_eq hs, splitNetloc_eq hn hp, netlocOk_plain ip6 hn, if_true]
  have hnohash : '#' ∉ p ++ tail '?' q := by
    intro hm
    rcases List.mem_append.1 hm with h | h
    · exact hp.2.2 h
    · unfold tail at h
      split at h
      · cases h
      · rcases List.mem_cons.1 h with h | h
        · revert h; decide
        · exact hq h
  rw [partition_of_not_mem _ _ hnohash]
  simp only [Option.getD_none]
  unfold tail
  split
  · rename_i h
    rw [List.append_nil, partition_of_not_mem _ _ hp.2.1, h]; rfl
  · rw [partition_append _ _ _ hp.2.1]; rfl

theorem geturl_eq {s n p q : Str} (hs : s ≠ []) (hn : n ≠ []) (hp : AbsPath p) :
    geturl ⟨s, n, p, q, []⟩ = s ++ "://".toList ++ n ++ p ++ tail '?' q := by
  unfold geturl
  simp only [ne_eq, hn, not_false_eq_true, true_or, if_true, hs]
  have h2 : (if ¬p = [] ∧ startsWith p "/".toList = false then '/' :: p else p) = p := by
    rcases hp.1 with rfl | ⟨r, rfl⟩
    · simp
    · simp [startsWith]
  rw [h2]
  unfold tail
  by_cases hq : q = []
  · simp [hq]
  · simp [hq]

end Verif.Url
