import Verif.SignedUrl.Spec
import Verif.Url.Lemmas
import Verif.UrlQuery.Lemmas
import Verif.Environ.Lemmas
import Verif.Ranges.Lemmas

/-!
# Lemmas for C32
-/

namespace Verif.SignedUrl

open Verif Verif.Url Spec

/-! ### Splitting the text of a split URL -/

/-- What holds of the parts of a URL that can be put together and split again. -/
structure WF (ip6 : Str → Bool) (u : Split) : Prop where
  cleanN : Clean u.netloc
  cleanP : Clean u.path
  cleanQ : Clean u.query
  cleanF : Clean u.fragment
  netloc : ∀ c ∈ u.netloc, c ≠ '/' ∧ c ≠ '?' ∧ c ≠ '#'
  ok : netlocOk ip6 u.netloc = true
  path : '?' ∉ u.path ∧ '#' ∉ u.path
  query : '#' ∉ u.query
  shape : (Scheme u.scheme ∧ u.netloc ≠ [] ∧ (u.path = [] ∨ ∃ r, u.path = '/' :: r)) ∨
    (u.scheme = [] ∧ u.netloc = [] ∧ ∃ r, u.path = '/' :: r ∧ ∀ r', r ≠ '/' :: r')

theorem clean_tail {m : Char} {q : Str} (hm : m ≠ '\t' ∧ m ≠ '\r' ∧ m ≠ '\n') (h : Clean q) : Clean (tail m q) := by
  unfold tail
  split
  · intro c hc; cases hc
  · intro c hc
    rcases List.mem_cons.1 hc with rfl | hc
    · exact hm
    · exact h c hc

theorem split_rest {ip6 : Str → Bool} {u : Split} (h : WF ip6 u) :
    partition '#' (u.path ++ tail '?' u.query ++ tail '#' u.fragment) =
        (u.path ++ tail '?' u.query, if u.fragment = [] then none else some u.fragment) ∧
      partition '?' (u.path ++ tail '?' u.query) = (u.path, if u.query = [] then none else some u.query) := by
  have hno : '#' ∉ u.path ++ tail '?' u.query := by
    intro hm
    rcases List.mem_append.1 hm with hm | hm
    · exact h.path.2 hm
    · unfold tail at hm
      split at hm
      · cases hm
      · rcases List.mem_cons.1 hm with e | hm
        · revert e; decide
        · exact h.query hm
  constructor
  · by_cases hf : u.fragment = []
    · rw [if_pos hf, hf, show tail '#' [] = [] from rfl, List.append_nil, partition_of_not_mem _ _ hno]
    · rw [if_neg hf, tail.eq_def '#', if_neg hf, partition_append _ _ _ hno]
  · by_cases hf : u.query = []
    · rw [if_pos hf, hf, tail, if_pos rfl, List.append_nil, partition_of_not_mem _ _ h.path.1]
    · rw [if_neg hf, tail, if_neg hf, partition_append _ _ _ h.path.1]

theorem geturl_text {ip6 : Str → Bool} {u : Split} (h : WF ip6 u) :
    geturl u = (if u.scheme = [] then [] else u.scheme ++ "://".toList ++ u.netloc) ++
      (u.path ++ tail '?' u.query ++ tail '#' u.fragment) := by
  obtain ⟨s, n, p, q, f⟩ := u
  unfold geturl
  dsimp only
  rcases h.shape with ⟨hs, hn, hp⟩ | ⟨hs, hn, r, hp, hr⟩
  · dsimp only at hs hn hp
    have hs' : s ≠ [] := by obtain ⟨⟨c, cs, e, -⟩, -⟩ := hs; rw [e]; simp
    simp only [ne_eq, hn, not_false_eq_true, true_or, if_true, hs']
    have h2 : (if ¬p = [] ∧ startsWith p "/".toList = false then '/' :: p else p) = p := by
      rcases hp with rfl | ⟨r, rfl⟩
      · simp
      · simp [startsWith]
    rw [h2]
    unfold tail
    by_cases hq : q = [] <;> by_cases hf : f = [] <;> simp [hq, hf]
  · dsimp only at hs hn hp
    subst hs hn hp
    have h1 : startsWith ('/' :: r) "//".toList = false := by
      cases r with
      | nil => rfl
      | cons x r =>
        have : x ≠ '/' := fun e => hr r (by rw [e])
        simp [startsWith, List.isPrefixOf, Ne.symm this]
    simp only [ne_eq, not_true_eq_false, false_and, false_or, if_false, h1, Bool.false_eq_true]
    unfold tail
    by_cases hq : q = [] <;> by_cases hf : f = [] <;> simp [hq, hf]

theorem splitNetloc_text (n R : Str) (hn : ∀ c ∈ n, c ≠ '/' ∧ c ≠ '?' ∧ c ≠ '#')
    (hR : R = [] ∨ ∃ b r, R = b :: r ∧ (b = '/' ∨ b = '?' ∨ b = '#')) :
    splitNetloc ("//".toList ++ n ++ R) = (n, R) := by
  have hpre : stripPrefix? "//".toList ("//".toList ++ n ++ R) = some (n ++ R) := by
    simp [stripPrefix?]
  unfold splitNetloc
  rw [hpre]
  dsimp only
  have hall : ∀ x ∈ n, (decide (x ≠ '/' ∧ x ≠ '?' ∧ x ≠ '#')) = true := by
    intro x hx
    have := hn x hx
    simp [this.1, this.2.1, this.2.2]
  rcases hR with rfl | ⟨b, r, rfl, hb⟩
  · rw [List.append_nil, takeWhile_all _ _ hall, dropWhile_all _ _ hall]
  · have hb' : (decide (b ≠ '/' ∧ b ≠ '?' ∧ b ≠ '#')) = false := by
      rcases hb with rfl | rfl | rfl <;> decide
    rw [takeWhile_stop _ _ _ _ hall hb', dropWhile_stop _ _ _ _ hall hb']

theorem urlsplit_geturl {ip6 : Str → Bool} {u : Split} (h : WF ip6 u) : urlsplit ip6 (geturl u) = some u := by
  obtain ⟨hs1, hs2⟩ := split_rest h
  have hR : Clean (u.path ++ tail '?' u.query ++ tail '#' u.fragment) :=
    (h.cleanP.append (clean_tail (by decide) h.cleanQ)).append (clean_tail (by decide) h.cleanF)
  have hfin : ∀ sc n, sc = u.scheme → n = u.netloc →
      (let s3 := partition '#' (u.path ++ tail '?' u.query ++ tail '#' u.fragment)
       let s4 := partition '?' s3.1
       some (Split.mk sc n s4.1 (s4.2.getD []) (s3.2.getD []))) = some u := by
    intro sc n e1 e2
    dsimp only
    rw [hs1]
    dsimp only
    rw [hs2, e1, e2]
    obtain ⟨s, n', p, q, f⟩ := u
    by_cases hq : q = [] <;> by_cases hf : f = [] <;> simp [hq, hf]
  rw [geturl_text h]
  rcases h.shape with ⟨hs, hn, hp⟩ | ⟨hs, hn, r, hp, hr⟩
  · have hs' : u.scheme ≠ [] := by obtain ⟨⟨c, cs, e, -⟩, -⟩ := hs; rw [e]; simp
    rw [if_neg hs']
    have e : u.scheme ++ "://".toList ++ u.netloc ++ (u.path ++ tail '?' u.query ++ tail '#' u.fragment) =
        u.scheme ++ ':' :: ("//".toList ++ u.netloc ++ (u.path ++ tail '?' u.query ++ tail '#' u.fragment)) := by simp
    have cs : Clean u.scheme := fun c hc => (schemeChar_facts (hs.2.1 c hc)).2
    have csep : Clean "://".toList := by
      intro c hc
      have : c = ':' ∨ c = '/' ∨ c = '/' := by simpa using hc
      rcases this with rfl | rfl | rfl <;> decide
    have hclean : Clean (u.scheme ++ "://".toList ++ u.netloc ++ (u.path ++ tail '?' u.query ++ tail '#' u.fragment)) :=
      ((cs.append csep).append h.cleanN).append hR
    have hdrop : (u.scheme ++ "://".toList ++ u.netloc ++
        (u.path ++ tail '?' u.query ++ tail '#' u.fragment)).dropWhile (fun c => c.toNat ≤ 32) =
          u.scheme ++ "://".toList ++ u.netloc ++ (u.path ++ tail '?' u.query ++ tail '#' u.fragment) := by
      obtain ⟨⟨c, cs', hc', hc⟩, _, _⟩ := hs
      have := isAlpha_toNat hc
      rw [hc']
      simp only [List.cons_append]
      rw [List.dropWhile_cons, if_neg]
      simp only [decide_eq_true_eq]
      omega
    unfold urlsplit
    rw [hdrop, hclean.filter, e]
    dsimp only
    rw [splitScheme_eq hs]
    dsimp only
    rw [splitNetloc_text _ _ h.netloc]
    · dsimp only
      rw [if_pos h.ok]
      exact hfin _ _ rfl rfl
    · rcases hp with hp | ⟨r, hp⟩
      · rw [hp]
        unfold tail
        by_cases hq : u.query = [] <;> by_cases hf : u.fragment = [] <;> simp [hq, hf]
      · rw [hp]; exact .inr ⟨'/', _, rfl, .inl rfl⟩
  · rw [if_pos hs, List.nil_append]
    obtain ⟨t, ht⟩ : ∃ t, u.path ++ tail '?' u.query ++ tail '#' u.fragment = '/' :: t := ⟨_, by rw [hp]; rfl⟩
    have hdrop : (u.path ++ tail '?' u.query ++ tail '#' u.fragment).dropWhile (fun c => c.toNat ≤ 32) =
        u.path ++ tail '?' u.query ++ tail '#' u.fragment := by
      rw [ht, List.dropWhile_cons, if_neg]
      decide
    have hsch : splitScheme (u.path ++ tail '?' u.query ++ tail '#' u.fragment) =
        ([], u.path ++ tail '?' u.query ++ tail '#' u.fragment) := by
      unfold splitScheme
      have hx : ∀ x, (partition ':' (u.path ++ tail '?' u.query ++ tail '#' u.fragment)).1 = x →
          ∃ y, x = '/' :: y := by
        rintro x rfl
        rw [ht, partition, if_neg (by decide)]
        exact ⟨_, rfl⟩
      rcases hpt : partition ':' (u.path ++ tail '?' u.query ++ tail '#' u.fragment) with ⟨a, b⟩
      obtain ⟨y, hy⟩ := hx a (by rw [hpt])
      cases b with
      | none => rfl
      | some b =>
        rw [hy]
        rfl
    have hnet : splitNetloc (u.path ++ tail '?' u.query ++ tail '#' u.fragment) =
        ([], u.path ++ tail '?' u.query ++ tail '#' u.fragment) := by
      unfold splitNetloc
      have : stripPrefix? "//".toList (u.path ++ tail '?' u.query ++ tail '#' u.fragment) = none := by
        rw [hp]
        cases r with
        | nil =>
          unfold tail
          by_cases hq : u.query = [] <;> by_cases hf : u.fragment = [] <;> simp [hq, hf, stripPrefix?]
        | cons x r =>
          have : '/' ≠ x := fun e => hr r (by rw [e])
          simp [stripPrefix?, this]
      rw [this]
    unfold urlsplit
    rw [hdrop, hR.filter]
    dsimp only
    rw [hsch]
    dsimp only
    rw [hnet]
    dsimp only
    rw [if_pos (by rw [← hn]; exact h.ok)]
    exact hfin _ _ hs.symm hn.symm

/-! ### The parts found by splitting -/

theorem schemeChar_lt {c : Char} (h : schemeChar c = true) : c.toNat < 128 := by
  simp only [schemeChar, Bool.or_eq_true, Bool.and_eq_true, decide_eq_true_eq] at h
  rcases h with ((((⟨_, h⟩ | ⟨_, h⟩) | ⟨_, h⟩) | h) | h) | h
  · have : c.toNat ≤ 'z'.toNat := h
    have : 'z'.toNat = 122 := rfl
    omega
  · have : c.toNat ≤ 'Z'.toNat := h
    have : 'Z'.toNat = 90 := rfl
    omega
  · have : c.toNat ≤ '9'.toNat := h
    have : '9'.toNat = 57 := rfl
    omega
  · rw [h]; decide
  · rw [h]; decide
  · rw [h]; decide

theorem lower_scheme {c : Char} (h : schemeChar c = true) :
    schemeChar c.toLower = true ∧ c.toLower.toLower = c.toLower ∧ (isAlpha c = true → isAlpha c.toLower = true) := by
  have key : ∀ n < 128, schemeChar (Char.ofNat n) = true → (schemeChar (Char.ofNat n).toLower = true ∧
      (Char.ofNat n).toLower.toLower = (Char.ofNat n).toLower ∧
      (isAlpha (Char.ofNat n) = true → isAlpha (Char.ofNat n).toLower = true)) := by decide +kernel
  have := key c.toNat (schemeChar_lt h)
  rw [Char.ofNat_toNat] at this
  exact this h

theorem splitScheme_facts (s : Str) :
    ((splitScheme s).1 = [] ∧ (splitScheme s).2 = s) ∨
      (Scheme (splitScheme s).1 ∧ ∀ c ∈ (splitScheme s).2, c ∈ s) := by
  unfold splitScheme
  have hsub := UrlQuery.partition_sub ':' s
  rcases hp : partition ':' s with ⟨a, b⟩
  rw [hp] at hsub
  cases b with
  | none => exact .inl ⟨rfl, rfl⟩
  | some b =>
    cases a with
    | nil => exact .inl ⟨rfl, rfl⟩
    | cons c cs =>
      dsimp only
      split
      · rename_i h
        rw [Bool.and_eq_true, List.all_eq_true] at h
        refine .inr ⟨⟨⟨c.toLower, lower cs, rfl, ?_⟩, ?_, ?_⟩, hsub.2⟩
        · exact (lower_scheme (h.2 c (by simp))).2.2 h.1
        · intro x hx
          obtain ⟨y, hy, rfl⟩ := List.mem_map.1 hx
          exact (lower_scheme (h.2 y hy)).1
        · unfold lower
          rw [List.map_map]
          exact List.map_congr_left fun y hy => (lower_scheme (h.2 y hy)).2.1
      · exact .inl ⟨rfl, rfl⟩

theorem dropWhile_head {α : Type} (p : α → Bool) (s : List α) :
    s.dropWhile p = [] ∨ ∃ b r, s.dropWhile p = b :: r ∧ p b = false := by
  induction s with
  | nil => exact .inl rfl
  | cons x s ih =>
    rw [List.dropWhile_cons]
    split
    · exact ih
    · rename_i h
      exact .inr ⟨x, s, rfl, by simpa using h⟩

theorem takeWhile_mem {α : Type} (p : α → Bool) (s : List α) : ∀ x ∈ s.takeWhile p, p x = true ∧ x ∈ s := by
  induction s with
  | nil => intro x hx; cases hx
  | cons y s ih =>
    intro x hx
    rw [List.takeWhile_cons] at hx
    split at hx
    · rename_i h
      rcases List.mem_cons.1 hx with rfl | hx
      · exact ⟨h, by simp⟩
      · exact ⟨(ih x hx).1, by simp [(ih x hx).2]⟩
    · cases hx

theorem splitNetloc_facts (s : Str) :
    (∀ c ∈ (splitNetloc s).1, (c ≠ '/' ∧ c ≠ '?' ∧ c ≠ '#') ∧ c ∈ s) ∧ (∀ c ∈ (splitNetloc s).2, c ∈ s) ∧
      ((splitNetloc s).1 ≠ [] → (splitNetloc s).2 = [] ∨
        ∃ b r, (splitNetloc s).2 = b :: r ∧ (b = '/' ∨ b = '?' ∨ b = '#')) := by
  unfold splitNetloc
  cases hp : stripPrefix? "//".toList s with
  | none => exact ⟨(fun c hc => by cases hc), (fun c hc => hc), fun h => absurd rfl h⟩
  | some rest =>
    have hs := (stripPrefix?_eq_some _ _ _).1 hp
    dsimp only
    refine ⟨?_, ?_, ?_⟩
    · intro c hc
      obtain ⟨h1, h2⟩ := takeWhile_mem _ _ c hc
      refine ⟨by simpa using h1, ?_⟩
      rw [hs]; simp [h2]
    · intro c hc
      have := (List.dropWhile_suffix (l := rest) (fun c => decide (c ≠ '/' ∧ c ≠ '?' ∧ c ≠ '#'))).subset hc
      rw [hs]; simp [this]
    · intro _
      rcases dropWhile_head (fun c => decide (c ≠ '/' ∧ c ≠ '?' ∧ c ≠ '#')) rest with h | ⟨b, r, h, hb⟩
      · exact .inl h
      · refine .inr ⟨b, r, h, ?_⟩
        rw [decide_eq_false_iff_not] at hb
        by_cases h1 : b = '/'
        · exact .inl h1
        · by_cases h2 : b = '?'
          · exact .inr (.inl h2)
          · by_cases h3 : b = '#'
            · exact .inr (.inr h3)
            · exact absurd ⟨h1, h2, h3⟩ hb

theorem urlsplit_wf {ip6 : Str → Bool} {url : Str} {u : Split} (h : urlsplit ip6 url = some u) (hr : Regular u) :
    WF ip6 u := by
  unfold urlsplit at h
  dsimp only at h
  generalize hcl : (url.dropWhile fun c => c.toNat ≤ 32).filter (fun c => c ≠ '\t' ∧ c ≠ '\r' ∧ c ≠ '\n') = w at h
  have hw : Clean w := by
    intro c hc
    rw [← hcl, List.mem_filter] at hc
    simpa using hc.2
  split at h
  · rename_i hok
    injection h with h
    obtain ⟨hn1, hn2, hn3⟩ := splitNetloc_facts (splitScheme w).2
    have hsub : ∀ c ∈ (splitScheme w).2, c ∈ w := by
      rcases splitScheme_facts w with ⟨-, h2⟩ | ⟨-, h2⟩
      · rw [h2]; exact fun c hc => hc
      · exact h2
    have hps := UrlQuery.partition_sub '#' (splitNetloc (splitScheme w).2).2
    have hpq := UrlQuery.partition_sub '?' (partition '#' (splitNetloc (splitScheme w).2).2).1
    have hno : '#' ∉ (partition '#' (splitNetloc (splitScheme w).2).2).1 := partition_fst_not_mem _ _
    have e1 : u.scheme = (splitScheme w).1 := by rw [← h]
    have e2 : u.netloc = (splitNetloc (splitScheme w).2).1 := by rw [← h]
    have e3 : u.path = (partition '?' (partition '#' (splitNetloc (splitScheme w).2).2).1).1 := by rw [← h]
    have e4 : u.query = (partition '?' (partition '#' (splitNetloc (splitScheme w).2).2).1).2.getD [] := by rw [← h]
    have e5 : u.fragment = (partition '#' (splitNetloc (splitScheme w).2).2).2.getD [] := by rw [← h]
    refine ⟨?_, ?_, ?_, ?_, ?_, ?_, ?_, ?_, ?_⟩
    · rw [e2]; exact fun c hc => hw c (hsub c (hn1 c hc).2)
    · rw [e3]; exact fun c hc => hw c (hsub c (hn2 c (hps.1 c (hpq.1 c hc))))
    · rw [e4]; exact fun c hc => hw c (hsub c (hn2 c (hps.1 c (hpq.2 c hc))))
    · rw [e5]; exact fun c hc => hw c (hsub c (hn2 c (hps.2 c hc)))
    · rw [e2]; exact fun c hc => (hn1 c hc).1
    · rw [e2]; exact hok
    · rw [e3]; exact ⟨partition_fst_not_mem _ _, fun hm => hno (hpq.1 _ hm)⟩
    · rw [e4]; exact fun hm => hno (hpq.2 _ hm)
    · rcases hr with ⟨hs, hn⟩ | ⟨hs, hn, hp, hp2⟩
      · left
        refine ⟨?_, hn, ?_⟩
        · rw [e1] at hs ⊢
          rcases splitScheme_facts w with ⟨h1, -⟩ | ⟨h1, -⟩
          · exact absurd h1 hs
          · exact h1
        · rw [e2] at hn
          rw [e3]
          rcases hn3 hn with h1 | ⟨b, r, h1, hb⟩
          · rw [h1]; exact .inl rfl
          · rw [h1]
            rcases hb with rfl | rfl | rfl
            · right
              rw [partition, if_neg (by decide)]
              dsimp only
              rw [partition, if_neg (by decide)]
              exact ⟨_, rfl⟩
            · left
              rw [partition, if_neg (by decide)]
              dsimp only
              rw [partition, if_pos rfl]
            · left
              rw [partition, if_pos rfl]
              rfl
      · right
        refine ⟨hs, hn, ?_⟩
        cases hx : u.path with
        | nil => rw [hx] at hp; cases hp
        | cons x r =>
          rw [hx] at hp hp2
          have hx' : x = '/' := by
            simp [startsWith] at hp; exact hp.symm
          subst hx'
          refine ⟨r, rfl, ?_⟩
          rintro r' rfl
          simp [startsWith] at hp2
  · cases h

/-- The query of a URL of bytes is of bytes. -/
theorem urlsplit_bytes {ip6 : Str → Bool} {url : Str} {u : Split} (h : urlsplit ip6 url = some u) (hb : Bytes url) :
    Bytes u.query := by
  unfold urlsplit at h
  dsimp only at h
  generalize hcl : (url.dropWhile fun c => c.toNat ≤ 32).filter (fun c => c ≠ '\t' ∧ c ≠ '\r' ∧ c ≠ '\n') = w at h
  have hw : Bytes w := by
    intro c hc
    rw [← hcl, List.mem_filter] at hc
    exact hb c ((List.dropWhile_suffix _).subset hc.1)
  split at h
  · injection h with h
    obtain ⟨hn1, hn2, -⟩ := splitNetloc_facts (splitScheme w).2
    have hsub : ∀ c ∈ (splitScheme w).2, c ∈ w := by
      rcases splitScheme_facts w with ⟨-, h2⟩ | ⟨-, h2⟩
      · rw [h2]; exact fun c hc => hc
      · exact h2
    have hps := UrlQuery.partition_sub '#' (splitNetloc (splitScheme w).2).2
    have hpq := UrlQuery.partition_sub '?' (partition '#' (splitNetloc (splitScheme w).2).2).1
    rw [← h]
    exact fun c hc => hw c (hsub c (hn2 c (hps.1 c (hpq.2 c hc))))
  · cases h

/-! ### Path parameters -/

theorem afterLast_split (c : Char) (s : Str) :
    ∃ pre, s = pre ++ afterLast c s ∧ c ∉ afterLast c s ∧ (pre = [] ∨ ∃ p, pre = p ++ [c]) := by
  unfold afterLast
  have h1 : s.reverse.takeWhile (· ≠ c) ++ s.reverse.dropWhile (· ≠ c) = s.reverse := List.takeWhile_append_dropWhile
  refine ⟨(s.reverse.dropWhile (· ≠ c)).reverse, ?_, ?_, ?_⟩
  · rw [← List.reverse_append, h1, List.reverse_reverse]
  · intro hm
    have := (takeWhile_mem _ _ c (List.mem_reverse.1 hm)).1
    simp at this
  · rcases dropWhile_head (fun x => decide (x ≠ c)) s.reverse with h | ⟨b, r, h, hb⟩
    · left
      have h' : s.reverse.dropWhile (· ≠ c) = [] := h
      rw [h']; rfl
    · right
      have h' : s.reverse.dropWhile (· ≠ c) = b :: r := h
      have hb' : b = c := by simpa using hb
      rw [h', hb']
      exact ⟨r.reverse, by simp⟩

theorem afterLast_eq (c : Char) (pre s : Str) (hpre : pre = [] ∨ ∃ p, pre = p ++ [c]) (hs : c ∉ s) :
    afterLast c (pre ++ s) = s := by
  rcases hpre with rfl | ⟨p, rfl⟩
  · rw [List.nil_append, afterLast_of_not_mem _ _ hs]
  · unfold afterLast
    rw [List.reverse_append, List.reverse_append, List.reverse_singleton, List.singleton_append]
    rw [takeWhile_stop _ _ _ _ (by
      intro x hx
      have : x ≠ c := fun e => hs (by rw [← e]; exact List.mem_reverse.1 hx)
      simpa using this) (by simp), List.reverse_reverse]

/-- The path with its parameters. -/
def joinParams (a b : Str) : Str := if b ≠ [] then a ++ ';' :: b else a

theorem splitParams_facts (path : Str) :
    splitParams (joinParams (splitParams path).1 (splitParams path).2) = splitParams path ∧
      (joinParams (splitParams path).1 (splitParams path).2 = path ∨
        path = joinParams (splitParams path).1 (splitParams path).2 ++ [';']) ∧
      (∀ c ∈ (splitParams path).1, c ∈ path) := by
  obtain ⟨pre, h1, h2, h3⟩ := afterLast_split '/' path
  generalize hseg : afterLast '/' path = seg at h1 h2
  cases hp : (partition ';' seg).2 with
  | none =>
    have e : splitParams path = (path, []) := by unfold splitParams; dsimp only; rw [hseg, hp]
    rw [e]
    exact ⟨e, .inl rfl, fun c hc => hc⟩
  | some b =>
    have hx := partition_eq ';' seg
    rw [hp] at hx
    dsimp only at hx
    have hno := partition_fst_not_mem ';' seg
    generalize (partition ';' seg).1 = x at *
    have htake : path.take (path.length - seg.length) = pre := by
      rw [h1]; simp
    have e : splitParams path = (pre ++ (partition ';' seg).1, b) := by
      unfold splitParams; dsimp only; rw [hseg, hp, htake]
    have hfst : (partition ';' seg).1 = x := by
      rw [hx, partition_append _ _ _ hno]
    rw [hfst] at e
    rw [e]
    by_cases hb : b = []
    · subst hb
      have hj : joinParams (pre ++ x) [] = pre ++ x := rfl
      dsimp only
      rw [hj]
      refine ⟨?_, .inr (by rw [h1, hx]; simp), ?_⟩
      · unfold splitParams
        dsimp only
        rw [afterLast_eq _ _ _ h3 (fun hm => h2 (by rw [hx]; simp [hm])), partition_of_not_mem _ _ hno]
      · intro c hc
        rw [h1, hx]
        rcases List.mem_append.1 hc with hc | hc <;> simp [hc]
    · have hj : joinParams (pre ++ x) b = path := by
        unfold joinParams; rw [if_pos hb, h1, hx]; simp
      dsimp only
      rw [hj]
      refine ⟨e, .inl rfl, ?_⟩
      intro c hc
      rw [h1, hx]
      rcases List.mem_append.1 hc with hc | hc <;> simp [hc]

theorem wf_replace {ip6 : Str → Bool} {u : Split} (h : WF ip6 u) (path q : Str)
    (hp : path = u.path ∨ u.path = path ++ [';']) (hq : Clean q) (hq2 : '#' ∉ q) :
    WF ip6 { u with path := path, query := q } := by
  have hsub : ∀ c ∈ path, c ∈ u.path := by
    rcases hp with rfl | hp
    · exact fun c hc => hc
    · intro c hc; rw [hp]; simp [hc]
  have hfirst : ∀ r, u.path = '/' :: r → ∃ r', path = '/' :: r' ∧ (r' = r ∨ r = r' ++ [';']) := by
    intro r hr
    rcases hp with e | e
    · exact ⟨r, by rw [e, hr], .inl rfl⟩
    · cases path with
      | nil =>
        rw [hr] at e
        injection e with e _
        exact absurd e (by decide)
      | cons y path =>
        rw [hr, List.cons_append] at e
        injection e with e1 e2
        exact ⟨path, by rw [← e1], .inr e2⟩
  refine ⟨h.cleanN, fun c hc => h.cleanP c (hsub c hc), hq, h.cleanF, h.netloc, h.ok,
    ⟨fun hm => h.path.1 (hsub _ hm), fun hm => h.path.2 (hsub _ hm)⟩, hq2, ?_⟩
  rcases h.shape with ⟨hs, hn, hpath⟩ | ⟨hs, hn, r, hpath, hr⟩
  · refine .inl ⟨hs, hn, ?_⟩
    rcases hpath with e | ⟨r, e⟩
    · left
      rcases hp with e' | e'
      · rw [e'] ; exact e
      · rw [e] at e'; simp at e'
    · right
      obtain ⟨r', h1, -⟩ := hfirst r e
      exact ⟨r', h1⟩
  · obtain ⟨r', h1, h2⟩ := hfirst r hpath
    refine .inr ⟨hs, hn, r', h1, ?_⟩
    rintro r'' rfl
    rcases h2 with e | e
    · exact hr _ e.symm
    · exact hr _ e

theorem urlparse_urlunparse {ip6 : Str → Bool} {url : Str} {u : Split} {p : Parsed} (hu : urlsplit ip6 url = some u)
    (hr : Regular u) (hp : urlparse ip6 url = some p) (q : Str) (hq : Clean q) (hq2 : '#' ∉ q) :
    urlparse ip6 (urlunparse { p with query := q }) = some { p with query := q } := by
  have hwf := urlsplit_wf hu hr
  unfold urlparse at hp
  rw [hu, Option.map_some] at hp
  injection hp with hp
  unfold urlunparse
  split at hp
  · rename_i hup
    subst hp
    dsimp only
    obtain ⟨h1, h2, -⟩ := splitParams_facts u.path
    have hw := wf_replace hwf (joinParams (splitParams u.path).1 (splitParams u.path).2) q h2 hq hq2
    have := urlsplit_geturl hw
    unfold joinParams at this h1
    unfold urlparse
    rw [this, Option.map_some]
    dsimp only
    rw [if_pos hup, h1]
  · rename_i hup
    subst hp
    dsimp only
    rw [if_neg (by simp)]
    have hw := wf_replace hwf u.path q (.inl rfl) hq hq2
    have := urlsplit_geturl hw
    unfold urlparse
    rw [this, Option.map_some]
    dsimp only
    rw [if_neg hup]

/-! ### Dictionaries and queries -/

theorem aupdate_nodup (acc d : List (Str × Str)) (h : ((acc ++ d).map (·.1)).Nodup) : aupdate acc d = acc ++ d := by
  unfold aupdate
  induction d generalizing acc with
  | nil => simp
  | cons kv d ih =>
    have hnew : aset acc kv.1 kv.2 = acc ++ [kv] := by
      have hk : kv.1 ∉ acc.map (·.1) := by
        rw [List.map_append, List.nodup_append] at h
        exact fun hm => h.2.2 _ hm kv.1 (by simp) rfl
      clear ih h
      induction acc with
      | nil => rfl
      | cons x acc ih =>
        simp only [List.map_cons, List.mem_cons, not_or] at hk
        rw [aset, if_neg (Ne.symm hk.1), ih hk.2]
        rfl
    rw [List.foldl_cons, hnew, ih]
    · simp
    · simpa using h

theorem readDict_nodup (q : Str) : ((readDict q).map (·.1)).Nodup := Environ.nodup_aupdate [] _ (by simp)

theorem last_filter (l : List (Str × Str)) (k : Str) :
    aget l.reverse k = ((l.filter fun kv => kv.1 = k).map (·.2)).getLast? := by
  induction l with
  | nil => rfl
  | cons x l ih =>
    rw [List.reverse_cons, Environ.aget_append, ih, List.filter_cons]
    by_cases hx : x.1 = k
    · simp only [aget, hx, if_true, decide_true, List.map_cons]
      cases hl : (List.map (·.2) (List.filter (fun kv => decide (kv.1 = k)) l)) with
      | nil => rfl
      | cons a b => simp [List.getLast?_cons]
    · simp only [aget, hx, if_false, decide_false, Bool.false_eq_true, Option.or_none]

theorem aget_readDict (q k : Str) : aget (readDict q) k = lastValue k q := by
  unfold readDict lastValue
  rw [Environ.aget_aupdate_last]
  unfold Environ.Spec.last
  rw [last_filter]
  simp [aget]

theorem unquote_ne_nil (s : Str) (h : s ≠ []) : unquote s ≠ [] := by
  cases s with
  | nil => exact absurd rfl h
  | cons a s =>
    by_cases ha : a = '%'
    · subst ha
      match s with
      | [] => simp [unquote]
      | [b] => simp [unquote]
      | b :: c :: rest =>
        rw [unquote, if_pos rfl]
        split <;> simp
    · rw [unquote_cons_ne _ _ ha]; simp

theorem parseQsl_nonblank (q : Str) : ∀ kv ∈ parseQsl false q, kv.2 ≠ [] := by
  intro kv hkv
  unfold parseQsl at hkv
  split at hkv
  · cases hkv
  · rw [List.mem_filterMap] at hkv
    obtain ⟨nv, hnv, he⟩ := hkv
    split at he
    · cases he
    · dsimp only at he
      split at he
      · rename_i hv
        injection he with he
        rw [← he]
        have : (partition '=' nv).2.getD [] ≠ [] := by simpa using hv
        exact unquote_ne_nil _ (by
          intro e
          exact this (List.map_eq_nil_iff.1 e))
      · cases he

theorem readDict_mem (q : Str) (kv : Str × Str) (h : kv ∈ readDict q) : kv ∈ parseQsl false q := by
  rcases Environ.mem_aupdate _ _ _ h with h | h
  · cases h
  · exact h

theorem showInt_facts {n : Int} {e : Str} (h : showInt n = some e) :
    e ≠ [] ∧ Bytes e ∧ Ranges.pyInt e = some n := by
  unfold showInt at h
  split at h
  · rename_i hlen
    injection h with h
    obtain ⟨hn, -⟩ := Path.natToDec_spec n.natAbs
    have hb : Bytes (Path.natToDec n.natAbs) := by
      intro c hc
      have := hn.2 c hc
      unfold Path.Spec.Digit at this
      have hd : ∀ c ∈ "0123456789".toList, c.toNat < 256 := by decide
      exact hd c this
    have hsp := (Ranges.numeral_props _ hn).2.2.2.2.1
    split at h
    · rename_i hneg
      rw [← h]
      refine ⟨by simp, ?_, ?_⟩
      · intro c hc
        rcases List.mem_cons.1 hc with rfl | hc
        · decide
        · exact hb c hc
      · unfold Ranges.pyInt
        rw [Ranges.strip_id]
        · rw [Ranges.signed, Ranges.pyNat_natToDec _ hlen]
          show some (-(n.natAbs : Int)) = some n
          congr 1
          omega
        · intro c hc
          rcases List.mem_cons.1 hc with rfl | hc
          · decide
          · exact hsp c hc
    · rename_i hneg
      rw [← h]
      refine ⟨hn.1, hb, ?_⟩
      rw [Ranges.pyInt_natToDec _ hlen]
      congr 1
      omega
  · cases h

/-- The dictionary that is signed. -/
def signedParams (q e : Str) : List (Str × Str) := aset (readDict q) "expires".toList e

theorem signedParams_mem {q e : Str} {kv : Str × Str} (h : kv ∈ signedParams q e) :
    kv ∈ parseQsl false q ∨ kv = ("expires".toList, e) := by
  rcases Environ.mem_aset _ _ _ _ h with h | h
  · exact .inr h
  · exact .inl (readDict_mem q kv h)

theorem signedParams_bytes {q e : Str} (hq : Bytes q) (he : Bytes e) : BytePairs (signedParams q e) := by
  have hx : Bytes "expires".toList := by unfold Bytes; decide
  intro kv hkv
  rcases signedParams_mem hkv with h | h
  · exact UrlQuery.parseQsl_bytes false q hq kv h
  · rw [h]; exact ⟨hx, he⟩

theorem signedParams_nonblank {q e : Str} (he : e ≠ []) : ∀ kv ∈ signedParams q e, kv.2 ≠ [] := by
  intro kv hkv
  rcases signedParams_mem hkv with h | h
  · exact parseQsl_nonblank q kv h
  · rw [h]; exact he

theorem signedParams_nodup (q e : Str) : ((signedParams q e).map (·.1)).Nodup :=
  Environ.nodup_aset _ _ _ (readDict_nodup q)

theorem signedParams_ne_nil (q e : Str) : signedParams q e ≠ [] := by
  unfold signedParams
  cases readDict q with
  | nil => simp [aset]
  | cons x d => rw [aset]; split <;> simp

theorem joinWith_snoc (sep : Str) (l : List Str) (x : Str) (h : l ≠ []) :
    joinWith sep (l ++ [x]) = joinWith sep l ++ sep ++ x := by
  induction l with
  | nil => exact absurd rfl h
  | cons a l ih =>
    cases l with
    | nil => simp [joinWith]
    | cons b l =>
      have := ih (by simp)
      simp only [List.cons_append, joinWith] at this ⊢
      rw [this]
      simp

theorem quotePlus_safe (s : Str) (h : ∀ c ∈ s, alwaysSafe c = true) : quotePlus s = s := by
  unfold quotePlus
  rw [quote_of_all _ _ (fun c hc => by simp [h c hc])]
  have : ∀ c ∈ s, (if c = ' ' then '+' else c) = c := by
    intro c hc
    rw [if_neg]
    rintro rfl
    exact absurd (h _ hc) (by decide)
  rw [List.map_congr_left this, List.map_id']

theorem alwaysSafe_facts {c : Char} (h : alwaysSafe c = true) :
    c.toNat < 128 ∧ c ≠ '\t' ∧ c ≠ '\r' ∧ c ≠ '\n' ∧ c ≠ '#' := by
  refine ⟨?_, ?_, ?_, ?_, ?_⟩
  · simp only [alwaysSafe, Bool.or_eq_true, Bool.and_eq_true, decide_eq_true_eq] at h
    rcases h with (((((⟨_, h⟩ | ⟨_, h⟩) | ⟨_, h⟩) | h) | h) | h) | h
    · have : c.toNat ≤ 'z'.toNat := h
      have : 'z'.toNat = 122 := rfl
      omega
    · have : c.toNat ≤ 'Z'.toNat := h
      have : 'Z'.toNat = 90 := rfl
      omega
    · have : c.toNat ≤ '9'.toNat := h
      have : '9'.toNat = 57 := rfl
      omega
    · rw [h]; decide
    · rw [h]; decide
    · rw [h]; decide
    · rw [h]; decide
  all_goals (rintro rfl; exact absurd h (by decide))

theorem urlencode_chars (ps : List (Str × Str)) (h : BytePairs ps) :
    ∀ c ∈ urlencode ps, alwaysSafe c = true ∨ c = '+' ∨ c = '%' ∨ c = '=' ∨ c = '&' := by
  have hone : ∀ kv ∈ ps, ∀ c ∈ quotePlus kv.1 ++ '=' :: quotePlus kv.2,
      alwaysSafe c = true ∨ c = '+' ∨ c = '%' ∨ c = '=' ∨ c = '&' := by
    intro kv hkv c hc
    have hq : ∀ s, Bytes s → c ∈ quotePlus s → alwaysSafe c = true ∨ c = '+' ∨ c = '%' ∨ c = '=' ∨ c = '&' := by
      intro s hs hc
      rcases quotePlus_chars s hs c hc with h | h | h
      · exact .inl h
      · exact .inr (.inl h)
      · exact .inr (.inr (.inl h))
    rcases List.mem_append.1 hc with hc | hc
    · exact hq _ (h kv hkv).1 hc
    · rcases List.mem_cons.1 hc with rfl | hc
      · simp
      · exact hq _ (h kv hkv).2 hc
  unfold urlencode
  induction ps with
  | nil => intro c hc; cases hc
  | cons kv ps ih =>
    have hr := ih (fun x hx => h x (List.mem_cons_of_mem _ hx)) (fun x hx => hone x (List.mem_cons_of_mem _ hx))
    intro c hc
    cases ps with
    | nil => exact hone kv (by simp) c hc
    | cons kv2 ps =>
      simp only [List.map_cons, joinWith] at hc hr
      rcases List.mem_append.1 hc with hc | hc
      · rcases List.mem_append.1 hc with hc | hc
        · exact hone kv (by simp) c hc
        · have : c = '&' := by simpa using hc
          simp [this]
      · exact hr c hc

theorem urlencode_clean (ps : List (Str × Str)) (h : BytePairs ps) : Clean (urlencode ps) ∧ '#' ∉ urlencode ps := by
  constructor
  · intro c hc
    rcases urlencode_chars ps h c hc with h | rfl | rfl | rfl | rfl
    · have := alwaysSafe_facts h
      exact ⟨this.2.1, this.2.2.1, this.2.2.2.1⟩
    all_goals decide
  · intro hm
    rcases urlencode_chars ps h _ hm with h | h | h | h | h <;> exact absurd h (by decide)

theorem mem_adel {d : List (Str × Str)} {k : Str} {kv : Str × Str} (h : kv ∈ adel d k) : kv ∈ d := by
  induction d with
  | nil => exact h
  | cons x d ih =>
    rw [adel] at h
    split at h
    · exact List.mem_cons_of_mem _ (ih h)
    · rcases List.mem_cons.1 h with rfl | h
      · simp
      · exact List.mem_cons_of_mem _ (ih h)

/-- A path has no question mark. -/
theorem urlparse_path {ip6 : Str → Bool} {url : Str} {p : Parsed} (h : urlparse ip6 url = some p) : '?' ∉ p.path := by
  unfold urlparse at h
  cases hu : urlsplit ip6 url with
  | none => rw [hu] at h; cases h
  | some u =>
    have hp : '?' ∉ u.path := by
      unfold urlsplit at hu
      dsimp only at hu
      split at hu
      · injection hu with hu
        rw [← hu]
        exact partition_fst_not_mem _ _
      · cases hu
    rw [hu, Option.map_some] at h
    injection h with h
    rw [← h]
    split
    · exact fun hm => hp ((splitParams_facts u.path).2.2 _ hm)
    · exact hp

/-! ### A code for the witnesses -/

/-- Each character in unary. -/
def unary : Str → Str
  | [] => []
  | c :: cs => List.replicate c.toNat 'a' ++ 'b' :: unary cs

/-- A code without collisions. -/
def demoMac (k m : Str) : Str := 'x' :: (unary k ++ '_' :: unary m)

theorem unary_chars (s : Str) : ∀ c ∈ unary s, c = 'a' ∨ c = 'b' := by
  induction s with
  | nil => intro c hc; cases hc
  | cons x s ih =>
    intro c hc
    rw [unary] at hc
    rcases List.mem_append.1 hc with hc | hc
    · exact .inl (List.eq_of_mem_replicate hc)
    · rcases List.mem_cons.1 hc with rfl | hc
      · exact .inr rfl
      · exact ih c hc

theorem unary_inj (s t : Str) (h : unary s = unary t) : s = t := by
  have hb : ∀ n, 'b' ∉ List.replicate n 'a' := fun n hm => absurd (List.eq_of_mem_replicate hm) (by decide)
  induction s generalizing t with
  | nil =>
    cases t with
    | nil => rfl
    | cons y t => simp [unary] at h
  | cons x s ih =>
    cases t with
    | nil => simp [unary] at h
    | cons y t =>
      rw [unary, unary] at h
      have hp := congrArg (partition 'b') h
      rw [partition_append _ _ _ (hb _), partition_append _ _ _ (hb _)] at hp
      simp only [Prod.mk.injEq, Option.some.injEq] at hp
      have h1 : x.toNat = y.toNat := by simpa using congrArg List.length hp.1
      rw [ih t hp.2, Char.toNat_inj.1 h1]

theorem demoMac_text : MacText demoMac := by
  intro k m
  refine ⟨by simp [demoMac], ?_⟩
  intro c hc
  have hu : ∀ s, c ∈ unary s → alwaysSafe c = true := by
    intro s hs
    rcases unary_chars s c hs with rfl | rfl <;> decide
  unfold demoMac at hc
  rcases List.mem_cons.1 hc with rfl | hc
  · decide
  · rcases List.mem_append.1 hc with hc | hc
    · exact hu _ hc
    · rcases List.mem_cons.1 hc with rfl | hc
      · decide
      · exact hu _ hc

theorem demoMac_inj : ∀ k m k' m', NoCollision demoMac k m k' m' := by
  intro k m k' m' h
  unfold demoMac at h
  injection h with _ h
  have hno : ∀ s, '_' ∉ unary s := by
    intro s hs
    rcases unary_chars s _ hs with h | h <;> exact absurd h (by decide)
  have hp := congrArg (partition '_') h
  rw [partition_append _ _ _ (hno _), partition_append _ _ _ (hno _)] at hp
  simp only [Prod.mk.injEq, Option.some.injEq] at hp
  exact ⟨unary_inj _ _ hp.1, unary_inj _ _ hp.2⟩

/-! ### The signed URL -/

/-- The pairs of the signed query. -/
def allParams (q e s : Str) : List (Str × Str) := signedParams q e ++ [("sig".toList, s)]

theorem signed_query {q e s : Str} (hs : ∀ c ∈ s, alwaysSafe c = true) :
    urlencode (signedParams q e) ++ "&sig=".toList ++ s = urlencode (allParams q e s) := by
  unfold allParams
  unfold urlencode
  rw [List.map_append, List.map_singleton, joinWith_snoc _ _ _ (by
    simpa using signedParams_ne_nil q e), quotePlus_safe s hs, quotePlus_safe "sig".toList (by decide)]
  simp

theorem allParams_bytes {q e s : Str} (hq : Bytes q) (he : Bytes e) (hs : Bytes s) : BytePairs (allParams q e s) := by
  intro kv hkv
  rcases List.mem_append.1 hkv with h | h
  · exact signedParams_bytes hq he kv h
  · have hx : Bytes "sig".toList := by unfold Bytes; decide
    rw [List.mem_singleton.1 h]; exact ⟨hx, hs⟩

theorem readDict_signed {q e s : Str} (hq : Bytes q) (he : Bytes e) (he2 : e ≠ []) (hs : Bytes s) (hs2 : s ≠ []) :
    parseQsl false (urlencode (allParams q e s)) = allParams q e s ∧
      readDict (urlencode (allParams q e s)) = aset (signedParams q e) "sig".toList s := by
  have hp : parseQsl false (urlencode (allParams q e s)) = allParams q e s :=
    parseQsl_urlencode _ _ (allParams_bytes hq he hs) (by
      right
      intro kv hkv
      rcases List.mem_append.1 hkv with h | h
      · exact signedParams_nonblank he2 kv h
      · rw [List.mem_singleton.1 h]; exact hs2)
  refine ⟨hp, ?_⟩
  unfold readDict
  rw [hp]
  unfold allParams aupdate
  rw [List.foldl_append]
  have := aupdate_nodup [] (signedParams q e) (by simpa using signedParams_nodup q e)
  unfold aupdate at this
  rw [this]
  rfl

theorem adel_aset (d : List (Str × Str)) (k v : Str) (h : k ∉ d.map (·.1)) : adel (aset d k v) k = d := by
  induction d with
  | nil => simp [aset, adel]
  | cons x d ih =>
    simp only [List.map_cons, List.mem_cons, not_or] at h
    rw [aset, if_neg (Ne.symm h.1)]
    have := ih h.2
    rw [adel, if_neg (Ne.symm h.1), this]

theorem mac_bytes {mac : Str → Str → Str} (hm : MacText mac) (k m : Str) :
    Bytes (mac k m) ∧ (mac k m).all (fun c => decide (c.toNat < 128)) = true := by
  have h := (hm k m).2
  constructor
  · intro c hc
    have := (alwaysSafe_facts (h c hc)).1
    omega
  · rw [List.all_eq_true]
    intro c hc
    simpa using (alwaysSafe_facts (h c hc)).1

/-- The parts of a signed URL. -/
theorem sign_parts {ip6 : Str → Bool} {mac : Str → Str → Str} {key url signed : Str} {now : Time} {d : Int} {u : Split}
    (hm : MacText mac) (hu : urlsplit ip6 url = some u) (hr : Regular u) (hb : Bytes url)
    (hs : sign ip6 mac key now url d = some signed) :
    ∃ p e, urlparse ip6 url = some p ∧ showInt (now.sec + d) = some e ∧ Bytes p.query ∧
      urlparse ip6 signed = some { p with
        query := urlencode (allParams p.query e (mac key (toSign p.path (signedParams p.query e)))) } := by
  unfold sign at hs
  cases hp : urlparse ip6 url with
  | none => rw [hp] at hs; cases hs
  | some p =>
    rw [hp, Option.bind_some] at hs
    cases he : showInt (now.sec + d) with
    | none => rw [he] at hs; cases hs
    | some e =>
      rw [he, Option.map_some] at hs
      injection hs with hs
      have hbq : Bytes p.query := by
        have hq : p.query = u.query := by
          unfold urlparse at hp
          rw [hu, Option.map_some] at hp
          injection hp with hp
          rw [← hp]
          split <;> rfl
        rw [hq]
        exact (urlsplit_bytes hu hb)
      refine ⟨p, e, rfl, rfl, hbq, ?_⟩
      have hq : urlencode (signedParams p.query e) ++ "&sig=".toList ++
          mac key (toSign p.path (signedParams p.query e)) =
            urlencode (allParams p.query e (mac key (toSign p.path (signedParams p.query e)))) :=
        signed_query (hm _ _).2
      rw [← hs]
      dsimp only
      unfold signedParams at hq
      rw [hq]
      have hcl := urlencode_clean (allParams p.query e (mac key (toSign p.path (signedParams p.query e))))
        (allParams_bytes hbq (showInt_facts he).2.1 (mac_bytes hm _ _).1)
      exact urlparse_urlunparse hu hr hp _ hcl.1 hcl.2

theorem alwaysSafe_lt (c : Char) (h : alwaysSafe c = true) : c.toNat < 128 := by
  unfold alwaysSafe at h
  simp only [Bool.or_eq_true, Bool.and_eq_true, decide_eq_true_eq] at h
  rcases h with (((((⟨_, h⟩ | ⟨_, h⟩) | ⟨_, h⟩) | h) | h) | h) | h
  · have h : c.toNat ≤ 122 := h
    omega
  · have h : c.toNat ≤ 90 := h
    omega
  · have h : c.toNat ≤ 57 := h
    omega
  all_goals rw [h]; decide

end Verif.SignedUrl
