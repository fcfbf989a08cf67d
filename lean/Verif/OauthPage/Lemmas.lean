import Verif.OauthPage.Spec
import Verif.Url.Lemmas

namespace Verif.OauthPage

open Verif Spec

theorem contains_iff (s p : Str) : contains s p = true ↔ p <:+: s := by
  induction s with
  | nil =>
    unfold contains
    constructor
    · intro h
      rw [show p = [] by simpa using h]
      exact List.nil_infix
    · intro h
      rw [List.infix_nil.mp h]
      rfl
  | cons c cs ih =>
    unfold contains
    rw [Bool.or_eq_true, ih, List.infix_cons_iff, List.isPrefixOf_iff_prefix]

theorem mentions_iff (h : Str) : mentions h = true ↔ Word h := by
  unfold mentions Word
  rw [Bool.or_eq_true, Bool.or_eq_true, contains_iff, contains_iff, contains_iff, or_assoc]

theorem replaceFirst_none (a b : Char) (s : Str) (h : a ∉ s) : replaceFirst a b s = s := by
  induction s with
  | nil => rfl
  | cons c cs ih =>
    rw [List.mem_cons, not_or] at h
    rw [replaceFirst, if_neg (fun e => h.1 e.symm), ih h.2]

theorem source_eq (l : Location) (t : Str) (h : Carries l t) (hq : '?' ∉ t) : source l = t := by
  unfold source
  rcases h with ⟨h1, h2⟩ | ⟨h1, h2⟩
  · rw [if_neg (fun e => h1 ((mentions_iff _).mp e)), h2]
    rfl
  · rw [if_pos ((mentions_iff _).mpr h1), h2]
    exact replaceFirst_none _ _ _ hq

theorem digit_val (c : Char) (n : Nat) (h : Digit c n) : Url.hexVal c = some n := by
  have key : ∀ (s : Str), (∀ i < s.length, ∀ d, s[i]? = some d → Url.hexVal d = some i) →
      s[n]? = some c → Url.hexVal c = some n := by
    intro s hs hc
    have hn : n < s.length := by
      rcases Nat.lt_or_ge n s.length with h | h
      · exact h
      · rw [List.getElem?_eq_none h] at hc
        cases hc
    exact hs n hn c hc
  have low : ∀ i < "0123456789abcdef".toList.length,
      ("0123456789abcdef".toList[i]?).map Url.hexVal = some (some i) := by decide
  have up : ∀ i < "0123456789ABCDEF".toList.length,
      ("0123456789ABCDEF".toList[i]?).map Url.hexVal = some (some i) := by decide
  rcases h with h | h
  · refine key _ (fun i hi d hd => ?_) h
    have := low i hi
    rw [hd] at this
    exact Option.some.inj this
  · refine key _ (fun i hi d hd => ?_) h
    have := up i hi
    rw [hd] at this
    exact Option.some.inj this

theorem digit_plain (c : Char) (n : Nat) (h : Digit c n) : c ∉ "&%?\\\"".toList := by
  have : c ∈ "0123456789abcdefABCDEF".toList := by
    have sub : ∀ d ∈ "0123456789abcdef".toList, d ∈ "0123456789abcdefABCDEF".toList := by decide
    have sub' : ∀ d ∈ "0123456789ABCDEF".toList, d ∈ "0123456789abcdefABCDEF".toList := by decide
    rcases h with h | h
    · exact sub c (List.mem_of_getElem? h)
    · exact sub' c (List.mem_of_getElem? h)
  have no : ∀ d ∈ "0123456789abcdefABCDEF".toList, d ∉ "&%?\\\"".toList := by decide
  exact no c this

theorem encoded_chars (t v : Str) (h : Encoded t v) : ∀ c ∈ t, c ∉ "&?\\\"".toList := by
  have sub : ∀ d, d ∉ "&%?\\\"".toList → d ∉ "&?\\\"".toList := by
    intro d hd he
    have all : ∀ e ∈ "&?\\\"".toList, e ∈ "&%?\\\"".toList := by decide
    exact hd (all d he)
  induction h with
  | nil => intro c hc; cases hc
  | plain c t v hc _ ih =>
    intro d hd
    rcases List.mem_cons.mp hd with rfl | hd
    · exact sub _ hc
    · exact ih d hd
  | byte a b x y t v ha hb _ ih =>
    intro d hd
    rcases List.mem_cons.mp hd with rfl | hd
    · decide
    rcases List.mem_cons.mp hd with rfl | hd
    · exact sub _ (digit_plain _ _ ha)
    rcases List.mem_cons.mp hd with rfl | hd
    · exact sub _ (digit_plain _ _ hb)
    · exact ih d hd

theorem decode_plain (c : Char) (t : Str) (h : c ≠ '%') :
    decodeComponent (c :: t) = (decodeComponent t).map (c :: ·) := by
  conv => lhs; unfold decodeComponent
  split
  · rename_i heq; cases heq
  · rename_i heq; injection heq with e _; exact absurd e h
  · rename_i heq; injection heq with e _; exact absurd e h
  · rename_i heq; injection heq with e e'; subst e; subst e'; rfl

theorem decode_encoded (t v : Str) (h : Encoded t v) : decodeComponent t = some v := by
  induction h with
  | nil => rfl
  | plain c t v hc _ ih =>
    rw [decode_plain c t, ih]
    · rfl
    · rintro rfl
      exact hc (by decide)
  | byte a b x y t v ha hb _ ih =>
    simp only [decodeComponent, digit_val a x ha, digit_val b y hb, ih, Option.map_some]

theorem unescape_plain (s : Str) (h : '\\' ∉ s) : unescape s = some s := by
  induction s with
  | nil => rfl
  | cons c cs ih =>
    rw [List.mem_cons, not_or] at h
    unfold unescape
    split
    · rename_i heq; cases heq
    · rename_i heq; injection heq with e _; exact absurd e.symm h.1
    · rename_i heq; injection heq with e _; exact absurd e.symm h.1
    · rename_i heq; injection heq with e _; exact absurd e.symm h.1
    · rename_i heq
      injection heq with e e'
      subst e
      subst e'
      rw [ih h.2]
      rfl

theorem unescape_cons (c : Char) (s : Str) (h : c ≠ '\\') : unescape (c :: s) = (unescape s).map (c :: ·) := by
  conv => lhs; unfold unescape
  split
  · rename_i heq; cases heq
  · rename_i heq; injection heq with e _; exact absurd e h
  · rename_i heq; injection heq with e _; exact absurd e h
  · rename_i heq; injection heq with e _; exact absurd e h
  · rename_i heq; injection heq with e e'; subst e; subst e'; rfl

theorem letter_escape (c : Char) (n : Nat) (h : Letter c n) : simpleEscape c = some (Char.ofNat n) ∧ c ≠ 'u' := by
  unfold Letter at h
  simp only [List.mem_cons, Prod.mk.injEq, List.not_mem_nil, or_false] at h
  rcases h with ⟨rfl, rfl⟩ | ⟨rfl, rfl⟩ | ⟨rfl, rfl⟩ | ⟨rfl, rfl⟩ | ⟨rfl, rfl⟩ | ⟨rfl, rfl⟩ | ⟨rfl, rfl⟩ |
    ⟨rfl, rfl⟩ <;> decide

theorem unescape_written (t v : Str) (h : Written t v) : unescape t = some v := by
  induction h with
  | nil => rfl
  | plain c t v hc _ ih => rw [unescape_cons c t hc, ih]; rfl
  | letter c n t v hc _ ih =>
    obtain ⟨he, hu⟩ := letter_escape c n hc
    conv => lhs; unfold unescape
    split
    · rename_i heq; cases heq
    · rename_i heq; injection heq with _ e; injection e with e _; exact absurd e hu
    · rename_i heq
      injection heq with _ e
      injection e with e e'
      subst e
      subst e'
      simp only [he, ih, Option.map_some]
    · rename_i heq; injection heq with _ e; cases e
    · rename_i hn _ heq
      injection heq with e e'
      exact absurd e'.symm (by
        intro e2
        subst e
        exact hn _ _ rfl e'.symm)
  | unit a b c d w x y z t v ha hb hc hd _ ih =>
    have e : 4096 * w + 256 * x + 16 * y + z = ((w * 16 + x) * 16 + y) * 16 + z := by omega
    simp only [unescape, digit_val _ _ ha, digit_val _ _ hb, digit_val _ _ hc, digit_val _ _ hd, ih, Option.map_some,
      e]

theorem member_good (n t v : Str) (hn : Name n) (ht : Encoded t v) : member (n ++ '=' :: t) = some (n, t) := by
  unfold member
  have he : '=' ∉ n := fun h => hn.2 _ h (by decide)
  have hb : '\\' ∉ n := fun h => hn.2 _ h (by decide)
  have hb' : '\\' ∉ t := fun h => encoded_chars t v ht _ h (by decide)
  rw [Url.partition_append _ _ _ he]
  simp only [unescape_plain n hb, unescape_plain t hb']

theorem sequence_some {α : Type} (l : List α) : sequence (l.map some) = some l := by
  induction l with
  | nil => rfl
  | cons a l ih => rw [List.map_cons, sequence, ih]; rfl

/-- The members in the order of their first occurrence, each with what stands last. -/
theorem fold_values (ts : List (Str × Str × Str)) (d : List (Str × Str × Str)) :
    ∀ (f : Str × Str → Str),
    (ts.foldl (fun d t => aset d t.1 t.2) d).map (fun kv => (kv.1, f kv.2)) =
      (ts.map fun t => (t.1, f t.2)).foldl (fun d kv => aset d kv.1 kv.2)
        (d.map fun kv => (kv.1, f kv.2)) := by
  intro f
  induction ts generalizing d with
  | nil => rfl
  | cons t ts ih =>
    rw [List.foldl_cons, ih, List.map_cons, List.foldl_cons]
    congr 1
    clear ih
    induction d with
    | nil => rfl
    | cons kv d ih =>
      by_cases h : kv.1 = t.1
      · simp [aset, h]
      · simp [aset, h, ih]

theorem fold_mem (ts d : List (Str × Str × Str)) (x : Str × Str × Str)
    (h : x ∈ ts.foldl (fun d t => aset d t.1 t.2) d) : x ∈ ts ∨ x ∈ d := by
  induction ts generalizing d with
  | nil => exact .inr h
  | cons t ts ih =>
    rw [List.foldl_cons] at h
    rcases ih _ h with h | h
    · exact .inl (List.mem_cons_of_mem _ h)
    · have : x = t ∨ x ∈ d := by
        rename_i h0
        clear ih h0
        induction d with
        | nil =>
          simp only [aset, List.mem_singleton] at h
          exact .inl h
        | cons kv d ih =>
          unfold aset at h
          split at h
          · rcases List.mem_cons.mp h with h | h
            · exact .inl h
            · exact .inr (List.mem_cons_of_mem _ h)
          · rcases List.mem_cons.mp h with h | h
            · exact .inr (h ▸ List.mem_cons_self)
            · rcases ih h with h | h
              · exact .inl h
              · exact .inr (List.mem_cons_of_mem _ h)
      rcases this with h | h
      · exact .inl (h ▸ List.mem_cons_self)
      · exact .inr h

theorem fold_get (ts : List (Str × Str × Str)) (d : List (Str × Str)) (n : Str) :
    aget ((ts.map fun t => (t.1, t.2.2)).foldl (fun d kv => aset d kv.1 kv.2) d) n =
      (value ts n).or (aget d n) := by
  induction ts generalizing d with
  | nil => rfl
  | cons t ts ih =>
    rw [List.map_cons, List.foldl_cons, ih, aget_aset]
    unfold value
    rw [List.filter_cons]
    by_cases h : t.1 = n
    · simp only [h, decide_true, if_true, List.getLast?_cons]
      cases hg : (ts.filter fun t => t.1 = n).getLast? with
      | none => rfl
      | some x => rfl
    · simp only [if_neg (fun e : n = t.1 => h e.symm), decide_eq_true_eq, if_neg h]

theorem sequence_revive (l : List (Str × Str × Str)) (h : ∀ t ∈ l, Name t.1 ∧ Encoded t.2.1 t.2.2) :
    sequence ((l.map fun kv => (kv.1, kv.2.1)).map revive) = some (l.map fun kv => (kv.1, kv.2.2)) := by
  induction l with
  | nil => rfl
  | cons t l ih =>
    have ht := h t List.mem_cons_self
    have hr : revive (t.1, t.2.1) = some (t.1, t.2.2) := by
      unfold revive
      rw [if_neg ht.1.1, decode_encoded _ _ ht.2]
      rfl
    rw [List.map_cons, List.map_cons, hr, sequence, ih fun x hx => h x (List.mem_cons_of_mem _ hx)]
    rfl

theorem query_ne (t : Str × Str × Str) (ts : List (Str × Str × Str)) : query (t :: ts) ≠ [] := by
  unfold query
  rw [List.map_cons]
  cases ts.map fun t => t.1 ++ '=' :: t.2.1 with
  | nil => intro h; simp [joinWith] at h
  | cons p ps => intro h; simp [joinWith] at h

theorem query_mark (ts : List (Str × Str × Str)) (h : Good ts) : '?' ∉ query ts := by
  unfold query
  induction ts with
  | nil => intro h; cases h
  | cons t ts ih =>
    have ht := h t List.mem_cons_self
    have hp : '?' ∉ t.1 ++ '=' :: t.2.1 := by
      intro hm
      rcases List.mem_append.mp hm with hm | hm
      · exact ht.1.2 _ hm (by decide)
      · rcases List.mem_cons.mp hm with hm | hm
        · revert hm; decide
        · exact encoded_chars _ _ ht.2 _ hm (by decide)
    have ih := ih fun x hx => h x (List.mem_cons_of_mem _ hx)
    rw [List.map_cons]
    cases hts : ts.map fun t => t.1 ++ '=' :: t.2.1 with
    | nil => exact hp
    | cons p ps =>
      rw [hts] at ih
      show '?' ∉ _ ++ ['&'] ++ joinWith ['&'] (p :: ps)
      intro hm
      rcases List.mem_append.mp hm with hm | hm
      · rcases List.mem_append.mp hm with hm | hm
        · exact hp hm
        · revert hm; decide
      · exact ih hm

/-- The parameters of a well-formed text. -/
theorem params_good (ts : List (Str × Str × Str)) (h : Good ts) :
    ∃ qp, params (query ts) = some qp ∧ ∀ n, aget qp n = value ts n := by
  cases ts with
  | nil => exact ⟨[], rfl, fun n => rfl⟩
  | cons t ts =>
    unfold params
    rw [if_neg (query_ne t ts)]
    have hs : splitOn '&' (query (t :: ts)) = (t :: ts).map fun t => t.1 ++ '=' :: t.2.1 := by
      unfold query
      refine splitOn_joinWith _ _ (by simp) ?_
      intro p hp hm
      obtain ⟨x, hx, rfl⟩ := List.mem_map.mp hp
      rcases List.mem_append.mp hm with hm | hm
      · exact (h x hx).1.2 _ hm (by decide)
      · rcases List.mem_cons.mp hm with hm | hm
        · revert hm; decide
        · exact encoded_chars _ _ (h x hx).2 _ hm (by decide)
    have hm : ∀ l : List (Str × Str × Str), (∀ t ∈ l, Name t.1 ∧ Encoded t.2.1 t.2.2) →
        (l.map fun t => t.1 ++ '=' :: t.2.1).map member = (l.map fun t => (t.1, t.2.1)).map some := by
      intro l hl
      rw [List.map_map, List.map_map]
      refine List.map_congr_left fun x hx => ?_
      exact member_good _ _ _ (hl x hx).1 (hl x hx).2
    rw [hs, hm _ h, sequence_some]
    have hf := fold_values (t :: ts) [] fun x => x.1
    have hg := fold_values (t :: ts) [] fun x => x.2
    rw [List.map_nil] at hf hg
    dsimp only
    rw [← hf, sequence_revive, hg]
    · exact ⟨_, rfl, fun n => by rw [fold_get]; cases value (t :: ts) n <;> rfl⟩
    · intro x hx
      rcases fold_mem _ _ _ hx with hx | hx
      · exact h x hx
      · cases hx

theorem run_params (l : Location) (ts : List (Str × Str × Str)) (hl : Carries l (query ts))
    (h : Good ts) : ∃ qp, params (source l) = some qp ∧ ∀ n, aget qp n = value ts n := by
  rw [source_eq l _ hl (query_mark ts h)]
  exact params_good ts h

theorem waits_iff (o : Opener) : (o.flow ∈ codeFlows ∧ o.code = []) ↔ Waits o := by
  unfold Waits codeFlows
  simp only [List.mem_cons, List.not_mem_nil, or_false]

end Verif.OauthPage
