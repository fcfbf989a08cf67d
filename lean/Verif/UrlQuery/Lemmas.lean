import Verif.UrlQuery.Model
import Verif.UrlQuery.Spec
import Verif.Url.Lemmas
import Verif.MultiDict.Lemmas

namespace Verif.UrlQuery

open Verif Verif.Url Verif.MultiDict

/-! ## The order of Python strings -/

theorem leStr_trans (a b c : Str) (h1 : leStr a b = true) (h2 : leStr b c = true) : leStr a c = true := by
  induction a generalizing b c with
  | nil => cases c <;> rfl
  | cons x xs ih =>
    cases b with
    | nil => cases h1
    | cons y ys =>
      cases c with
      | nil => cases h2
      | cons z zs =>
        rw [leStr] at h1 h2 ⊢
        by_cases hxy : x = y
        · subst hxy
          rw [if_pos rfl] at h1
          by_cases hxz : x = z
          · subst hxz; rw [if_pos rfl] at h2 ⊢; exact ih _ _ h1 h2
          · rw [if_neg hxz] at h2 ⊢; exact h2
        · rw [if_neg hxy, decide_eq_true_eq] at h1
          by_cases hyz : y = z
          · subst hyz; rw [if_neg hxy, decide_eq_true_eq]; exact h1
          · rw [if_neg hyz, decide_eq_true_eq] at h2
            have hxz : x ≠ z := by
              rintro rfl
              exact hxy (by
                have h3 : x.toNat = y.toNat := by omega
                rw [← Char.ofNat_toNat x, ← Char.ofNat_toNat y, h3])
            rw [if_neg hxz, decide_eq_true_eq]; omega

theorem leStr_total (a b : Str) : leStr a b = true ∨ leStr b a = true := by
  induction a generalizing b with
  | nil => left; cases b <;> rfl
  | cons x xs ih =>
    cases b with
    | nil => right; rfl
    | cons y ys =>
      rw [leStr, leStr]
      by_cases h : x = y
      · rw [if_pos h, if_pos h.symm]; exact ih ys
      · rw [if_neg h, if_neg (fun e => h e.symm), decide_eq_true_eq, decide_eq_true_eq]; omega

theorem leStr_antisymm (a b : Str) (h1 : leStr a b = true) (h2 : leStr b a = true) : a = b := by
  induction a generalizing b with
  | nil => cases b with
    | nil => rfl
    | cons y ys => cases h2
  | cons x xs ih =>
    cases b with
    | nil => cases h1
    | cons y ys =>
      rw [leStr] at h1 h2
      by_cases h : x = y
      · rw [if_pos h] at h1; rw [if_pos h.symm] at h2; rw [h, ih ys h1 h2]
      · rw [if_neg h, decide_eq_true_eq] at h1
        rw [if_neg (fun e => h e.symm), decide_eq_true_eq] at h2
        exact absurd (by
          have h3 : x.toNat = y.toNat := by omega
          rw [← Char.ofNat_toNat x, ← Char.ofNat_toNat y, h3]) h

theorem lePair_trans (a b c : Str × Str) (h1 : lePair a b = true) (h2 : lePair b c = true) :
    lePair a c = true := by
  unfold lePair at *
  by_cases hab : a.1 = b.1
  · rw [if_pos hab] at h1
    by_cases hbc : b.1 = c.1
    · rw [if_pos hbc] at h2; rw [if_pos (hab.trans hbc)]; exact leStr_trans _ _ _ h1 h2
    · rw [if_neg hbc] at h2; rw [if_neg (by rw [hab]; exact hbc), hab]; exact h2
  · rw [if_neg hab] at h1
    by_cases hbc : b.1 = c.1
    · rw [if_neg (by rw [← hbc]; exact hab), ← hbc]; exact h1
    · rw [if_neg hbc] at h2
      have hac : a.1 ≠ c.1 := by
        intro e
        rw [← e] at h2
        exact hab (leStr_antisymm _ _ h1 h2)
      rw [if_neg hac]; exact leStr_trans _ _ _ h1 h2

theorem lePair_total (a b : Str × Str) : (lePair a b || lePair b a) = true := by
  unfold lePair
  rw [Bool.or_eq_true]
  by_cases h : a.1 = b.1
  · rw [if_pos h, if_pos h.symm]; exact leStr_total _ _
  · rw [if_neg h, if_neg (fun e => h e.symm)]; exact leStr_total _ _

theorem lePair_antisymm (a b : Str × Str) (h1 : lePair a b = true) (h2 : lePair b a = true) : a = b := by
  unfold lePair at *
  by_cases h : a.1 = b.1
  · rw [if_pos h] at h1; rw [if_pos h.symm] at h2
    exact Prod.ext h (leStr_antisymm _ _ h1 h2)
  · rw [if_neg h] at h1; rw [if_neg (fun e => h e.symm)] at h2
    exact absurd (leStr_antisymm _ _ h1 h2) h

theorem insertPair_perm (p : Str × Str) (l : List (Str × Str)) : List.Perm (insertPair p l) (p :: l) := by
  induction l with
  | nil => exact .refl _
  | cons q qs ih =>
    rw [insertPair]
    split
    · exact .refl _
    · exact (ih.cons q).trans (.swap p q qs)

theorem insertPair_pairwise (p : Str × Str) (l : List (Str × Str))
    (h : l.Pairwise (fun a b => lePair a b = true)) :
    (insertPair p l).Pairwise (fun a b => lePair a b = true) := by
  induction l with
  | nil => simp [insertPair]
  | cons q qs ih =>
    rw [List.pairwise_cons] at h
    rw [insertPair]
    split
    · rename_i hp
      rw [List.pairwise_cons]
      refine ⟨?_, List.pairwise_cons.2 h⟩
      intro x hx
      rcases List.mem_cons.1 hx with rfl | hx
      · exact hp
      · exact lePair_trans _ _ _ hp (h.1 x hx)
    · rename_i hp
      rw [List.pairwise_cons]
      refine ⟨?_, ih h.2⟩
      intro x hx
      rcases List.mem_cons.1 ((insertPair_perm p qs).mem_iff.1 hx) with rfl | hx
      · have := lePair_total x q
        simpa [hp] using this
      · exact h.1 x hx

theorem sortPairs_perm (ps : List (Str × Str)) : List.Perm (sortPairs ps) ps := by
  induction ps with
  | nil => exact .refl _
  | cons p ps ih => exact (insertPair_perm p _).trans (ih.cons p)

theorem sortPairs_pairwise (ps : List (Str × Str)) :
    (sortPairs ps).Pairwise (fun a b => lePair a b = true) := by
  induction ps with
  | nil => exact .nil
  | cons p ps ih => exact insertPair_pairwise p _ ih

/-- Sorting forgets the order of its input. -/
theorem sortPairs_congr {ps qs : List (Str × Str)} (h : List.Perm ps qs) : sortPairs ps = sortPairs qs :=
  List.Perm.eq_of_pairwise (fun a b _ _ h1 h2 => lePair_antisymm a b h1 h2)
    (sortPairs_pairwise ps) (sortPairs_pairwise qs)
    ((sortPairs_perm ps).trans (h.trans (sortPairs_perm qs).symm))

/-! ## Bytes are kept -/

theorem hexVal_lt {c : Char} {x : Nat} (h : hexVal c = some x) : x < 16 := by
  unfold hexVal at h
  split at h
  · rename_i hc
    have : c.toNat ≤ '9'.toNat := hc.2
    have h9 : '9'.toNat = 57 := rfl
    injection h with h; omega
  · split at h
    · rename_i hc
      have : c.toNat ≤ 'F'.toNat := hc.2
      have h9 : 'F'.toNat = 70 := rfl
      injection h with h; omega
    · split at h
      · rename_i hc
        have : c.toNat ≤ 'f'.toNat := hc.2
        have h9 : 'f'.toNat = 102 := rfl
        injection h with h; omega
      · cases h

theorem toNat_ofNat_lt (n : Nat) (h : n < 256) : (Char.ofNat n).toNat < 256 := by
  have : ∀ n < 256, (Char.ofNat n).toNat < 256 := by decide +kernel
  exact this n h

theorem unquote_bytes (s : Str) (h : Bytes s) : Bytes (unquote s) := by
  induction s using unquote.induct with
  | case1 => exact h
  | case2 a => exact h
  | case3 a b => exact h
  | case4 b c rest x y hc hb ih =>
    rw [unquote_escape b c x y rest hb hc]
    intro d hd
    rcases List.mem_cons.1 hd with rfl | hd
    · exact toNat_ofNat_lt _ (by have := hexVal_lt hb; have := hexVal_lt hc; omega)
    · exact ih (fun e he => h e (by simp [he])) d hd
  | case5 b c rest hn ih =>
    rw [unquote, if_pos rfl]
    split
    · rename_i x y hx hy; exact absurd hy (hn x y hx)
    · intro d hd
      rcases List.mem_cons.1 hd with rfl | hd
      · decide
      · exact ih (fun e he => h e (List.mem_cons_of_mem _ he)) d hd
  | case6 a b c rest ha ih =>
    rw [unquote, if_neg ha]
    intro d hd
    rcases List.mem_cons.1 hd with rfl | hd
    · exact h d (by simp)
    · exact ih (fun e he => h e (List.mem_cons_of_mem _ he)) d hd

theorem unquotePlus_bytes (s : Str) (h : Bytes s) : Bytes (unquotePlus s) := by
  apply unquote_bytes
  intro c hc
  rw [List.mem_map] at hc
  obtain ⟨x, hx, rfl⟩ := hc
  split
  · decide
  · exact h x hx

theorem splitOn_sub (d : Char) (s : Str) : ∀ p ∈ splitOn d s, ∀ c ∈ p, c ∈ s := by
  induction s with
  | nil => intro p hp c hc; simp [splitOn] at hp; rw [hp] at hc; exact hc
  | cons x xs ih =>
    intro p hp c hc
    rw [splitOn] at hp
    split at hp
    · rcases List.mem_cons.1 hp with rfl | hp
      · cases hc
      · exact List.mem_cons_of_mem _ (ih p hp c hc)
    · cases hs : splitOn d xs with
      | nil => exact absurd hs (splitOn_ne_nil _ _)
      | cons h t =>
        rw [hs] at hp ih
        rcases List.mem_cons.1 hp with rfl | hp
        · rcases List.mem_cons.1 hc with rfl | hc
          · simp
          · exact List.mem_cons_of_mem _ (ih h (by simp) c hc)
        · exact List.mem_cons_of_mem _ (ih p (by simp [hp]) c hc)

theorem partition_sub (d : Char) (s : Str) :
    (∀ c ∈ (partition d s).1, c ∈ s) ∧ (∀ c ∈ (partition d s).2.getD [], c ∈ s) := by
  have h := partition_eq d s
  constructor
  · intro c hc; rw [h]; exact List.mem_append_left _ hc
  · intro c hc
    cases hp : (partition d s).2 with
    | none => rw [hp] at hc; cases hc
    | some r =>
      rw [hp] at hc h
      rw [h]; exact List.mem_append_right _ (List.mem_cons_of_mem _ hc)

theorem parseQsl_bytes (keep : Bool) (q : Str) (h : Bytes q) : BytePairs (parseQsl keep q) := by
  intro kv hkv
  unfold parseQsl at hkv
  split at hkv
  · cases hkv
  · rw [List.mem_filterMap] at hkv
    obtain ⟨nv, hnv, he⟩ := hkv
    split at he
    · cases he
    · simp only at he
      split at he
      · injection he with he
        have hb : Bytes nv := fun c hc => h c (splitOn_sub _ _ nv hnv c hc)
        rw [← he]
        exact ⟨unquotePlus_bytes _ (fun c hc => hb c ((partition_sub _ _).1 c hc)),
          unquotePlus_bytes _ (fun c hc => hb c ((partition_sub _ _).2 c hc))⟩
      · cases he

/-! ## Splitting a URL that was put together -/

/-- The components that `urlsplit` can have produced for a URL with scheme and netloc. -/
structure WF (ip6 : Str → Bool) (u : Split) : Prop where
  scheme : Scheme u.scheme
  netloc_ne : u.netloc ≠ []
  netloc : ∀ c ∈ u.netloc, c ≠ '/' ∧ c ≠ '?' ∧ c ≠ '#'
  netlocOk : netlocOk ip6 u.netloc = true
  path : AbsPath u.path
  query : '#' ∉ u.query
  cn : Clean u.netloc
  cp : Clean u.path
  cq : Clean u.query
  cf : Clean u.fragment

theorem Clean.tail {m : Char} {q : Str} (hm : m ≠ '\t' ∧ m ≠ '\r' ∧ m ≠ '\n') (hq : Clean q) :
    Clean (tail m q) := by
  unfold Url.tail
  split
  · intro c hc; cases hc
  · intro c hc
    rcases List.mem_cons.1 hc with rfl | hc
    · exact hm
    · exact hq c hc

theorem mem_tail {m c : Char} {q : Str} (h : c ∈ tail m q) : c = m ∨ c ∈ q := by
  unfold Url.tail at h
  split at h
  · cases h
  · exact List.mem_cons.1 h

theorem geturl_wf {u : Split} (hs : u.scheme ≠ []) (hn : u.netloc ≠ []) (hp : AbsPath u.path) :
    geturl u = u.scheme ++ ':' :: ("//".toList ++ (u.netloc ++ (u.path ++ (tail '?' u.query ++ tail '#' u.fragment)))) := by
  unfold geturl
  simp only [ne_eq, hn, not_false_eq_true, true_or, if_true, hs]
  have h2 : (if ¬u.path = [] ∧ startsWith u.path "/".toList = false then '/' :: u.path else u.path) = u.path := by
    rcases hp.1 with h | ⟨r, h⟩
    · simp [h]
    · simp [h, startsWith]
  rw [h2]
  unfold Url.tail
  by_cases hq : u.query = [] <;> by_cases hf : u.fragment = [] <;> simp [hq, hf]

theorem urlsplit_geturl (ip6 : Str → Bool) (u : Split) (h : WF ip6 u) :
    urlsplit ip6 (geturl u) = some u := by
  obtain ⟨s, n, p, q, f⟩ := u
  obtain ⟨hs, hn0, hn, hok, hp, hq, cn, cp, cq, cf⟩ := h
  simp only at *
  have hs0 : s ≠ [] := by obtain ⟨⟨c, cs, rfl, _⟩, _⟩ := hs; simp
  have hg := geturl_wf (u := ⟨s, n, p, q, f⟩) hs0 hn0 hp
  simp only at hg
  rw [hg]
  have cs : Clean s := fun c hc => (schemeChar_facts (hs.2.1 c hc)).2
  have csep : Clean (':' :: "//".toList) := by
    intro c hc
    have : c = ':' ∨ c = '/' ∨ c = '/' := by simpa using hc
    rcases this with rfl | rfl | rfl <;> decide
  generalize hrest : p ++ (tail '?' q ++ tail '#' f) = rest
  have crest : Clean rest := by
    rw [← hrest]
    exact cp.append ((Clean.tail (by decide) cq).append (Clean.tail (by decide) cf))
  have hclean : Clean (s ++ ':' :: ("//".toList ++ (n ++ rest))) := by
    have := cs.append (csep.append (cn.append crest))
    simpa using this
  have hdrop : (s ++ ':' :: ("//".toList ++ (n ++ rest))).dropWhile (fun c => c.toNat ≤ 32) =
      s ++ ':' :: ("//".toList ++ (n ++ rest)) := by
    obtain ⟨⟨c, cs', rfl, hc⟩, _, _⟩ := hs
    have := isAlpha_toNat hc
    simp only [List.cons_append]
    rw [List.dropWhile_cons, if_neg]
    simp only [decide_eq_true_eq]
    omega
  have hnet : splitNetloc ("//".toList ++ (n ++ rest)) = (n, rest) := by
    have hpre : stripPrefix? "//".toList ("//".toList ++ (n ++ rest)) = some (n ++ rest) := by
      simp [stripPrefix?]
    unfold splitNetloc
    rw [hpre]
    simp only
    have hall : ∀ x ∈ n, (decide (x ≠ '/' ∧ x ≠ '?' ∧ x ≠ '#')) = true := by
      intro x hx
      simpa using hn x hx
    have hcases : rest = [] ∨ ∃ b r, rest = b :: r ∧
        (decide (b ≠ '/' ∧ b ≠ '?' ∧ b ≠ '#')) = false := by
      rw [← hrest]
      rcases hp.1 with rfl | ⟨r, rfl⟩
      · unfold Url.tail
        by_cases h1 : q = []
        · by_cases h2 : f = []
          · left; simp [h1, h2]
          · right; exact ⟨'#', f, by simp [h1, h2], by decide⟩
        · right; exact ⟨'?', q ++ (if f = [] then [] else '#' :: f), by simp [h1], by decide⟩
      · exact .inr ⟨'/', _, List.cons_append, by decide⟩
    rcases hcases with h | ⟨b, r, h, hb⟩
    · rw [h, List.append_nil, takeWhile_all _ _ hall, dropWhile_all _ _ hall]
    · rw [h, takeWhile_stop _ _ _ _ hall hb, dropWhile_stop _ _ _ _ hall hb]
  unfold urlsplit
  rw [hdrop, hclean.filter]
  simp only [splitScheme_eq hs, hnet, hok, if_true]
  have hpq : '#' ∉ p ++ tail '?' q := by
    intro hm
    rcases List.mem_append.1 hm with h | h
    · exact hp.2.2 h
    · rcases mem_tail h with h | h
      · revert h; decide
      · exact hq h
  have hfrag : partition '#' rest = (p ++ tail '?' q, if f = [] then none else some f) := by
    rw [← hrest, ← List.append_assoc]
    by_cases hf : f = []
    · rw [if_pos hf, hf]
      simp only [Url.tail, if_true, List.append_nil]
      exact partition_of_not_mem _ _ hpq
    · rw [if_neg hf]
      conv => lhs; rw [show tail '#' f = '#' :: f by unfold Url.tail; rw [if_neg hf]]
      exact partition_append _ _ _ hpq
  have hquery : partition '?' (p ++ tail '?' q) = (p, if q = [] then none else some q) := by
    by_cases h : q = []
    · rw [if_pos h, h]
      simp only [Url.tail, if_true, List.append_nil]
      exact partition_of_not_mem _ _ hp.2.1
    · rw [if_neg h]
      conv => lhs; rw [show tail '?' q = '?' :: q by unfold Url.tail; rw [if_neg h]]
      exact partition_append _ _ _ hp.2.1
  rw [hfrag]
  simp only
  rw [hquery]
  simp only [Option.some.injEq, Split.mk.injEq, true_and]
  constructor
  · by_cases h : q = [] <;> simp [h]
  · by_cases h : f = [] <;> simp [h]

theorem isAlpha_schemeChar {c : Char} (h : isAlpha c = true) : schemeChar c = true := by
  unfold isAlpha at h; unfold schemeChar
  simp only [Bool.or_eq_true] at h ⊢
  rcases h with h | h
  · simp [h]
  · simp [h]

theorem ascii_of_schemeChar {c : Char} (h : schemeChar c = true) : c.toNat < 128 := by
  simp only [schemeChar, Bool.or_eq_true, Bool.and_eq_true, decide_eq_true_eq] at h
  have hz : 'z'.toNat = 122 := rfl
  have hZ : 'Z'.toNat = 90 := rfl
  have h9 : '9'.toNat = 57 := rfl
  rcases h with ((((⟨_, h⟩ | ⟨_, h⟩) | ⟨_, h⟩) | h) | h) | h
  · have : c.toNat ≤ 'z'.toNat := h; omega
  · have : c.toNat ≤ 'Z'.toNat := h; omega
  · have : c.toNat ≤ '9'.toNat := h; omega
  all_goals subst h; decide

theorem schemeChar_lower {c : Char} (h : schemeChar c = true) :
    schemeChar c.toLower = true ∧ c.toLower.toLower = c.toLower ∧
      (isAlpha c = true → isAlpha c.toLower = true) := by
  have key : ∀ n < 128, schemeChar (Char.ofNat n) = true →
      schemeChar (Char.ofNat n).toLower = true ∧ (Char.ofNat n).toLower.toLower = (Char.ofNat n).toLower ∧
      (isAlpha (Char.ofNat n) = true → isAlpha (Char.ofNat n).toLower = true) := by decide +kernel
  have := key c.toNat (ascii_of_schemeChar h)
  rw [Char.ofNat_toNat] at this
  exact this h

theorem splitScheme_wf (url s rest : Str) (h : splitScheme url = (s, rest)) (hne : s ≠ []) :
    Scheme s ∧ (∀ c ∈ rest, c ∈ url) := by
  unfold splitScheme at h
  generalize hp : partition ':' url = pr at h
  obtain ⟨a, b⟩ := pr
  cases b with
  | none => simp only [Prod.mk.injEq] at h; exact absurd h.1.symm hne
  | some r =>
    cases a with
    | nil => simp only [Prod.mk.injEq] at h; exact absurd h.1.symm hne
    | cons c cs =>
      simp only at h
      split at h
      · rename_i hc
        rw [Bool.and_eq_true, List.all_eq_true] at hc
        injection h with h1 h2
        subst h1 h2
        refine ⟨⟨⟨c.toLower, lower cs, rfl, ?_⟩, ?_, ?_⟩, ?_⟩
        · exact (schemeChar_lower (isAlpha_schemeChar hc.1)).2.2 hc.1
        · intro d hd
          obtain ⟨e, he, rfl⟩ := List.mem_map.1 hd
          exact (schemeChar_lower (hc.2 e he)).1
        · unfold lower
          rw [List.map_map]
          apply List.map_congr_left
          intro e he
          exact (schemeChar_lower (hc.2 e he)).2.1
        · intro d hd
          have := (partition_sub ':' url).2 d
          rw [hp] at this
          exact this hd
      · simp only [Prod.mk.injEq] at h; exact absurd h.1.symm hne

theorem splitNetloc_wf (s n rest : Str) (h : splitNetloc s = (n, rest)) (hne : n ≠ []) :
    (∀ c ∈ n, c ≠ '/' ∧ c ≠ '?' ∧ c ≠ '#') ∧ (∀ c ∈ n, c ∈ s) ∧ (∀ c ∈ rest, c ∈ s) ∧
    (rest = [] ∨ ∃ c r, rest = c :: r ∧ (c = '/' ∨ c = '?' ∨ c = '#')) := by
  unfold splitNetloc at h
  cases hs : stripPrefix? "//".toList s with
  | none => rw [hs] at h; simp only [Prod.mk.injEq] at h; exact absurd h.1.symm hne
  | some r =>
    rw [hs] at h
    simp only [Prod.mk.injEq] at h
    obtain ⟨rfl, rfl⟩ := h
    have hsr : s = "//".toList ++ r := (stripPrefix?_eq_some _ _ _).1 hs
    refine ⟨?_, ?_, ?_, ?_⟩
    · intro c hc
      have := List.all_eq_true.1 (List.all_takeWhile (l := r) (p := fun c => decide (c ≠ '/' ∧ c ≠ '?' ∧ c ≠ '#'))) c hc
      simpa using this
    · intro c hc
      rw [hsr]
      exact List.mem_append_right _ ((List.takeWhile_sublist _).subset hc)
    · intro c hc
      rw [hsr]
      exact List.mem_append_right _ ((List.dropWhile_sublist _).subset hc)
    · cases hd : List.dropWhile (fun c => decide (c ≠ '/' ∧ c ≠ '?' ∧ c ≠ '#')) r with
      | nil => exact .inl rfl
      | cons c cs =>
        right
        refine ⟨c, cs, rfl, ?_⟩
        have := List.head?_dropWhile_not (fun c => decide (c ≠ '/' ∧ c ≠ '?' ∧ c ≠ '#')) r
        rw [hd] at this
        simp only [List.head?_cons] at this
        have h2 : ¬(c ≠ '/' ∧ c ≠ '?' ∧ c ≠ '#') := by simpa using this
        by_cases h3 : c = '/'
        · exact .inl h3
        · by_cases h4 : c = '?'
          · exact .inr (.inl h4)
          · by_cases h5 : c = '#'
            · exact .inr (.inr h5)
            · exact absurd ⟨h3, h4, h5⟩ h2

theorem urlsplit_wf (ip6 : Str → Bool) (text : Str) (u : Split) (h : urlsplit ip6 text = some u)
    (hs : u.scheme ≠ []) (hn : u.netloc ≠ []) : WF ip6 u := by
  unfold urlsplit at h
  simp only at h
  generalize hurl : (text.dropWhile fun c => c.toNat ≤ 32).filter (fun c => c ≠ '\t' ∧ c ≠ '\r' ∧ c ≠ '\n') = url at h
  have hclean : Clean url := by
    intro c hc
    rw [← hurl, List.mem_filter] at hc
    simpa using hc.2
  generalize h1 : splitScheme url = s1 at h
  obtain ⟨s, r1⟩ := s1
  simp only at h
  generalize h2 : splitNetloc r1 = s2 at h
  obtain ⟨n, r2⟩ := s2
  simp only at h
  split at h
  · rename_i hok
    injection h with h
    subst h
    simp only at hs hn
    obtain ⟨hsch, hsub1⟩ := splitScheme_wf url s r1 h1 hs
    obtain ⟨hnet, hsub2, hsub3, hrest⟩ := splitNetloc_wf r1 n r2 h2 hn
    have c2 : Clean r2 := fun c hc => hclean c (hsub1 c (hsub3 c hc))
    have c3 : Clean (partition '#' r2).1 := fun c hc => c2 c ((partition_sub _ _).1 c hc)
    have nohash : '#' ∉ (partition '#' r2).1 := partition_fst_not_mem _ _
    refine ⟨hsch, hn, hnet, hok, ?_, ?_, ?_, ?_, ?_, ?_⟩
    · refine ⟨?_, partition_fst_not_mem _ _, fun hm => nohash ((partition_sub _ _).1 _ hm)⟩
      rcases hrest with rfl | ⟨c, r, rfl, hc⟩
      · left; simp [partition]
      · rcases hc with rfl | rfl | rfl
        · right
          rw [show partition '#' ('/' :: r) = ('/' :: (partition '#' r).1, (partition '#' r).2) by
            rw [partition, if_neg (by decide)]]
          simp only
          rw [partition, if_neg (by decide)]
          exact ⟨_, rfl⟩
        · left
          rw [show partition '#' ('?' :: r) = ('?' :: (partition '#' r).1, (partition '#' r).2) by
            rw [partition, if_neg (by decide)]]
          simp only
          rw [partition, if_pos rfl]
        · left
          rw [show partition '#' ('#' :: r) = ([], some r) by rw [partition, if_pos rfl]]
          rfl
    · exact fun hm => nohash ((partition_sub _ _).2 _ hm)
    · exact fun c hc => hclean c (hsub1 c (hsub2 c hc))
    · exact fun c hc => c3 c ((partition_sub _ _).1 c hc)
    · exact fun c hc => c3 c ((partition_sub _ _).2 c hc)
    · exact fun c hc => c2 c ((partition_sub _ _).2 c hc)
  · cases h

/-- A query made by `urlencode` has none of the characters that end or garble a query. -/
theorem urlencode_clean (ps : List (Str × Str)) (h : BytePairs ps) :
    '#' ∉ urlencode ps ∧ Clean (urlencode ps) := by
  have key : ∀ c ∈ urlencode ps, alwaysSafe c = true ∨ c = '+' ∨ c = '%' ∨ c = '=' ∨ c = '&' := by
    unfold urlencode
    induction ps with
    | nil => simp [joinWith]
    | cons kv ps ih =>
      have h0 := h kv (by simp)
      have ih := ih (fun x hx => h x (List.mem_cons_of_mem _ hx))
      have hone : ∀ c ∈ quotePlus kv.1 ++ '=' :: quotePlus kv.2,
          alwaysSafe c = true ∨ c = '+' ∨ c = '%' ∨ c = '=' ∨ c = '&' := by
        intro c hc
        rcases List.mem_append.1 hc with hc | hc
        · rcases quotePlus_chars _ h0.1 c hc with h | h | h <;> simp [h]
        · rcases List.mem_cons.1 hc with rfl | hc
          · simp
          · rcases quotePlus_chars _ h0.2 c hc with h | h | h <;> simp [h]
      intro c hc
      rw [List.map_cons] at hc
      cases ps with
      | nil => exact hone c (by simpa [joinWith] using hc)
      | cons kv' ps =>
        rw [List.map_cons, joinWith] at hc
        · rcases List.mem_append.1 hc with hc | hc
          · rcases List.mem_append.1 hc with hc | hc
            · exact hone c hc
            · have : c = '&' := by simpa using hc
              simp [this]
          · exact ih c (by rw [List.map_cons]; exact hc)
  constructor
  · intro hm
    rcases key _ hm with h | h | h | h | h <;> revert h <;> decide
  · intro c hc
    refine ⟨?_, ?_, ?_⟩ <;> rintro rfl <;> rcases key _ hc with h | h | h | h | h <;> revert h <;> decide

/-! ## Values -/

theorem values_eq_getall (d : List (Str × Str)) (k : Str) : Spec.values d k = getall id d k := by
  induction d with
  | nil => rfl
  | cons kv d ih =>
    rw [getall_cons, ← ih]
    unfold Spec.values
    by_cases h : kv.1 = k <;> simp [h]

theorem values_perm {a b : List (Str × Str)} (h : List.Perm a b) (k : Str) :
    List.Perm (Spec.values a k) (Spec.values b k) := (h.filter _).map _

theorem getall_pops (keys : List Str) (d : List (Str × Str)) (k : Str) :
    getall id (keys.foldl (pop id) d) k = (getall id d k).drop (keys.count k) := by
  induction keys generalizing d with
  | nil => simp
  | cons x xs ih =>
    rw [List.foldl_cons, ih, getall_pop, List.count_cons]
    by_cases h : k = x
    · subst h; simp [List.drop_tail]
    · have : ¬ (x == k) = true := by simpa using fun e : x = k => h e.symm
      simp [h, this]

theorem pop_sub (k : Str) (d : List (Str × Str)) : ∀ kv ∈ pop id d k, kv ∈ d := by
  induction d with
  | nil => intro kv h; cases h
  | cons x d ih =>
    intro kv h
    rw [pop] at h
    split at h
    · exact List.mem_cons_of_mem _ h
    · rcases List.mem_cons.1 h with rfl | h
      · simp
      · exact List.mem_cons_of_mem _ (ih kv h)

theorem pops_sub (keys : List Str) (d : List (Str × Str)) : ∀ kv ∈ keys.foldl (pop id) d, kv ∈ d := by
  induction keys generalizing d with
  | nil => intro kv h; exact h
  | cons x xs ih => intro kv h; exact pop_sub x d kv (ih _ kv h)

theorem setitem_sub (k v : Str) (d : List (Str × Str)) :
    ∀ kv ∈ setitem id d k v, kv ∈ d ∨ kv = (k, v) := by
  induction d with
  | nil => intro kv h; right; simpa [setitem] using h
  | cons x d ih =>
    intro kv h
    rw [setitem] at h
    split at h
    · rcases List.mem_cons.1 h with rfl | h
      · exact .inr rfl
      · exact .inl (List.mem_cons_of_mem _ (List.mem_filter.1 h).1)
    · rcases List.mem_cons.1 h with rfl | h
      · simp
      · rcases ih kv h with h | h
        · exact .inl (List.mem_cons_of_mem _ h)
        · exact .inr h

theorem update_sub (m d : List (Str × Str)) : ∀ kv ∈ update id d m, kv ∈ d ∨ kv ∈ m := by
  unfold update
  induction m generalizing d with
  | nil => intro kv h; exact .inl h
  | cons x m ih =>
    intro kv h
    rcases ih _ kv h with h | h
    · rcases setitem_sub x.1 x.2 d kv h with h | h
      · exact .inl h
      · right; rw [h]; simp
    · exact .inr (List.mem_cons_of_mem _ h)

end Verif.UrlQuery
