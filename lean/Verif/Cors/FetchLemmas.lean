import Verif.Cors.FetchSpec
import Verif.Cors.Lemmas
import Verif.Path.ReverseLemmas

namespace Verif.Cors

open Verif Verif.MultiDict Verif.MultiDict.Spec Spec

/-! ## Fields as they are sent -/

theorem field_getall (hs : List (Str × Str)) (n : Str) :
    field hs n = match getall lower hs n with
      | [] => none
      | v :: vs => some (joinWith ", ".toList (v :: vs)) := by
  have : (hs.filter fun kv => lower kv.1 = lower n).map (·.2) = getall lower hs n := by
    induction hs with
    | nil => rfl
    | cons kv hs ih =>
      rw [getall_cons, ← ih, List.filter_cons]
      by_cases h : lower kv.1 = lower n
      · rw [if_pos (decide_eq_true h), if_pos h, List.map_cons]
      · rw [if_neg (by simpa using h), if_neg h]
  unfold field
  rw [this]
  cases getall lower hs n <;> rfl

theorem getall_sent (d : Items Str) (ks : List Str) (x : Str) :
    getall lower (multiItems lower ks d) x =
      ks.flatMap fun k => if lower k = lower x then getall lower d x else [] := by
  unfold multiItems
  induction ks with
  | nil => rfl
  | cons k ks ih =>
    rw [List.flatMap_cons, List.flatMap_cons, getall_append, ih]
    congr 1
    have h1 : ∀ vs : List Str, getall lower (vs.map fun v => (k, v)) x = if lower k = lower x then vs else [] := by
      intro vs
      induction vs with
      | nil => rw [List.map_nil, getall_nil, ite_self]
      | cons v vs ih =>
        rw [List.map_cons, getall_cons, ih]
        by_cases h : lower k = lower x
        · rw [if_pos h, if_pos h, if_pos h]
        · rw [if_neg h, if_neg h, if_neg h]
    rw [h1]
    by_cases h : lower k = lower x
    · rw [if_pos h, if_pos h]
      unfold getall
      rw [h]
    · rw [if_neg h, if_neg h]

theorem getall_unique (d : Items Str) (x v : Str) (h : getall lower d x = [v]) (a b : Str × Str) (ha : a ∈ d) (hb : b ∈ d)
    (hla : lower a.1 = lower x) (hlb : lower b.1 = lower x) : a = b := by
  have none : ∀ (d : Items Str) (e : Str × Str), getall lower d x = [] → e ∈ d → lower e.1 = lower x → False := by
    intro d e hn he hl
    have : e.2 ∈ getall lower d x := (mem_getall _ _ _ _).2 ⟨e.1, hl, he⟩
    rw [hn] at this
    cases this
  induction d with
  | nil => cases ha
  | cons kv d ih =>
    rw [getall_cons] at h
    by_cases hk : lower kv.1 = lower x
    · rw [if_pos hk] at h
      have hn : getall lower d x = [] := by injection h
      rcases List.mem_cons.1 ha with rfl | ha
      · rcases List.mem_cons.1 hb with rfl | hb
        · rfl
        · exact (none d b hn hb hlb).elim
      · exact (none d a hn ha hla).elim
    · rw [if_neg hk] at h
      rcases List.mem_cons.1 ha with rfl | ha
      · exact absurd hla hk
      · rcases List.mem_cons.1 hb with rfl | hb
        · exact absurd hlb hk
        · exact ih h ha hb

theorem sent_one (d : Items Str) (ks : List Str) (hk : KeyOrder d ks) (x v : Str) (h : getall lower d x = [v]) :
    getall lower (multiItems lower ks d) x = [v] := by
  rw [getall_sent, h]
  obtain ⟨k, hl, hm⟩ := (mem_getall lower d x v).1 (by rw [h]; exact List.mem_singleton.2 rfl)
  have hin : k ∈ ks := (hk.2 k).2 ⟨v, hm⟩
  have huniq : ∀ k' ∈ ks, lower k' = lower x → k' = k := by
    intro k' hk' hl'
    obtain ⟨v', hm'⟩ := (hk.2 k').1 hk'
    have := getall_unique d x v h (k', v') (k, v) hm' hm hl' hl
    injection this
  have hnd := hk.1
  clear hk
  induction ks with
  | nil => cases hin
  | cons a ks ih =>
    rw [List.flatMap_cons]
    rw [List.nodup_cons] at hnd
    by_cases ha : lower a = lower x
    · have e := huniq a List.mem_cons_self ha
      rw [if_pos ha]
      have : (ks.flatMap fun k => if lower k = lower x then [v] else []) = [] := by
        rw [List.flatMap_eq_nil_iff]
        intro k' hk'
        rw [if_neg]
        intro hl'
        have := huniq k' (List.mem_cons_of_mem _ hk') hl'
        rw [← e] at this
        rw [this] at hk'
        exact hnd.1 hk'
      rw [this, List.append_nil]
    · rw [if_neg ha, List.nil_append]
      apply ih _ (fun k' hk' => huniq k' (List.mem_cons_of_mem _ hk')) hnd.2
      rcases List.mem_cons.1 hin with e | h'
      · rw [e] at hl; exact absurd hl ha
      · exact h'

theorem field_one (d : Items Str) (ks : List Str) (hk : KeyOrder d ks) (x v : Str) (h : getall lower d x = [v]) :
    field (multiItems lower ks d) x = some v := by
  rw [field_getall, sent_one d ks hk x v h]
  rfl

theorem field_none (d : Items Str) (ks : List Str) (x : Str) (h : getall lower d x = []) :
    field (multiItems lower ks d) x = none := by
  rw [field_getall, getall_sent, h]
  have : (ks.flatMap fun k => if lower k = lower x then ([] : List Str) else []) = [] := by
    rw [List.flatMap_eq_nil_iff]
    intro k _
    rw [ite_self]
  rw [this]

theorem field_opt (d : Items Str) (ks : List Str) (hk : KeyOrder d ks) (x v : Str) (p : Prop) [Decidable p]
    (h : getall lower d x = if p then [v] else []) :
    field (multiItems lower ks d) x = if p then some v else none := by
  by_cases hp : p
  · rw [if_pos hp] at h ⊢; exact field_one d ks hk x v h
  · rw [if_neg hp] at h ⊢; exact field_none d ks x h

/-! ## Lists of tokens -/

theorem tchar_props (c : Char) (h : tchar c = true) : 33 ≤ c.toNat ∧ c.toNat ≤ 126 ∧ c ≠ ',' := by
  have hr : ∀ a b : Char, (decide (a ≤ c) && decide (c ≤ b)) = true → a.toNat ≤ c.toNat ∧ c.toNat ≤ b.toNat := by
    intro a b h
    simp only [Bool.and_eq_true, decide_eq_true_eq] at h
    exact h
  have hc : ∀ n, n < c.toNat → n = 44 → c ≠ ',' := by
    intro n hn e he
    rw [he, e] at hn
    exact absurd hn (by decide)
  unfold tchar at h
  rw [Bool.or_eq_true, Bool.or_eq_true, Bool.or_eq_true] at h
  rcases h with ((h | h) | h) | h
  · have := hr _ _ h
    have h1 : 'a'.toNat = 97 := rfl
    have h2 : 'z'.toNat = 122 := rfl
    exact ⟨by omega, by omega, hc 44 (by omega) rfl⟩
  · have := hr _ _ h
    have h1 : 'A'.toNat = 65 := rfl
    have h2 : 'Z'.toNat = 90 := rfl
    exact ⟨by omega, by omega, hc 44 (by omega) rfl⟩
  · have := hr _ _ h
    have h1 : '0'.toNat = 48 := rfl
    have h2 : '9'.toNat = 57 := rfl
    exact ⟨by omega, by omega, hc 44 (by omega) rfl⟩
  · have key : ∀ d ∈ "!#$%&'*+-.^_`|~".toList, 33 ≤ d.toNat ∧ d.toNat ≤ 126 ∧ d ≠ ',' := by decide
    exact key c (of_decide_eq_true h)

theorem tchar_isBlank (c : Char) (h : tchar c = true) : Spec.isBlank c = false := by
  have := tchar_props c h
  unfold Spec.isBlank
  rw [Bool.or_eq_false_iff, decide_eq_false_iff_not, decide_eq_false_iff_not]
  constructor
  · rintro rfl; exact absurd this.1 (by decide)
  · rintro rfl; exact absurd this.1 (by decide)

theorem tchar_isSpace (c : Char) (h : tchar c = true) : isSpace c = false := by
  have := tchar_props c h
  unfold isSpace
  simp only [Bool.or_eq_false_iff, Bool.and_eq_false_iff, decide_eq_false_iff_not]
  omega

theorem strip_all (p : Char → Bool) (s : Str) (h : ∀ c ∈ s, p c = false) : strip p s = s := by
  have hd : ∀ t : Str, (∀ c ∈ t, p c = false) → t.dropWhile p = t := by
    intro t ht
    cases t with
    | nil => rfl
    | cons a t => rw [List.dropWhile_cons_of_neg (by rw [ht a List.mem_cons_self]; simp)]
  unfold strip lstrip rstrip
  rw [hd s h, hd _ (fun c hc => h c (List.mem_reverse.1 hc)), List.reverse_reverse]

theorem strip_token (s : Str) (h : Token s) : strip Spec.isBlank s = s :=
  strip_all _ s fun c hc => tchar_isBlank c (h.2 c hc)

theorem strip_blank_token (s : Str) (h : Token s) : strip Spec.isBlank (' ' :: s) = s := by
  have e : strip Spec.isBlank (' ' :: s) = strip Spec.isBlank s := by
    unfold strip lstrip
    rw [List.dropWhile_cons_of_pos (by decide)]
  rw [e, strip_token s h]

theorem comma_token (s : Str) (h : Token s) : ',' ∉ s := fun hc => (tchar_props _ (h.2 _ hc)).2.2 rfl

theorem split_list (p : Str) (ps : List Str) (h : ∀ q ∈ p :: ps, Token q) :
    (splitOn ',' (joinWith ", ".toList (p :: ps))).map (strip Spec.isBlank) = p :: ps ∧
    (splitOn ',' (' ' :: joinWith ", ".toList (p :: ps))).map (strip Spec.isBlank) = p :: ps := by
  have hsp : ∀ q, Token q → ',' ∉ ' ' :: q := by
    intro q hq hm
    rcases List.mem_cons.1 hm with e | hm
    · exact absurd e (by decide)
    · exact comma_token q hq hm
  induction ps generalizing p with
  | nil =>
    have hp := h p List.mem_cons_self
    rw [joinWith, splitOn_of_not_mem _ _ (comma_token p hp), splitOn_of_not_mem _ _ (hsp p hp)]
    rw [List.map_singleton, List.map_singleton, strip_token p hp, strip_blank_token p hp]
    exact ⟨rfl, rfl⟩
  | cons q qs ih =>
    have hp := h p List.mem_cons_self
    have ih := ih q (fun r hr => h r (List.mem_cons_of_mem _ hr))
    have e : joinWith ", ".toList (p :: q :: qs) = p ++ ',' :: (' ' :: joinWith ", ".toList (q :: qs)) := by
      rw [joinWith]; simp
    rw [e, ← List.cons_append, splitOn_append_sep _ _ _ (comma_token p hp), splitOn_append_sep _ _ _ (hsp p hp),
      List.map_cons, List.map_cons, strip_token p hp, strip_blank_token p hp, ih.2]
    exact ⟨rfl, rfl⟩

theorem filter_tokens (ps : List Str) (h : ∀ q ∈ ps, Token q) : ps.filter (· ≠ []) = ps := by
  rw [List.filter_eq_self]
  intro q hq
  exact decide_eq_true (h q hq).1

theorem elements_nil : elements [] = [] := by decide

theorem elements_list (ps : List Str) (h : ∀ q ∈ ps, Token q) : elements (joinWith ", ".toList ps) = ps := by
  cases ps with
  | nil => exact elements_nil
  | cons p ps =>
    unfold elements
    rw [(split_list p ps h).1, filter_tokens _ h]

theorem elements_comma (ps : List Str) (hne : ps ≠ []) (h : ∀ q ∈ ps, Token q) : elements (joinWith [','] ps) = ps := by
  unfold elements
  rw [splitOn_joinWith _ _ hne (fun q hq => comma_token q (h q hq))]
  have : ps.map (strip Spec.isBlank) = ps := by
    conv => rhs; rw [← List.map_id ps]
    apply List.map_congr_left
    intro q hq
    exact strip_token q (h q hq)
  rw [this, filter_tokens _ h]

/-! ## The headers of the answers -/

theorem opt_same (p : Prop) [Decidable p] (k v x : Str) (h : lower k = lower x) :
    getall lower (if p then [(k, v)] else []) x = if p then [v] else [] := by rw [getall_opt, if_pos h]

theorem opt_other (p : Prop) [Decidable p] (k v x : Str) (h : lower k ≠ lower x) :
    getall lower (if p then [(k, v)] else []) x = [] := by rw [getall_opt, if_neg h]

theorem one_same (k v x : Str) (h : lower k = lower x) : getall lower [(k, v)] x = [v] := by
  rw [getall_cons, getall_nil, if_pos h]

theorem one_other (k v x : Str) (h : lower k ≠ lower x) : getall lower [(k, v)] x = [] := by
  rw [getall_cons, getall_nil, if_neg h]

theorem two_other (k v k' v' x : Str) (h : lower k ≠ lower x) (h' : lower k' ≠ lower x) :
    getall lower [(k, v), (k', v')] x = [] := by
  rw [getall_cons, getall_cons, getall_nil]
  dsimp only
  rw [if_neg h, if_neg h']

/-- One entry of the preflight dictionary is picked by its name. -/
theorem ph_acao (c : Config) : getall lower (preflightHeaders c) acao = if c.allOrigins then ["*".toList] else [] := by
  unfold preflightHeaders
  rw [getall_append, getall_append, getall_append, getall_append, getall_append, opt_same _ _ _ _ rfl,
    opt_other _ _ _ _ (by decide), opt_other _ _ _ _ (by decide), one_other _ _ _ (by decide),
    opt_other _ _ _ _ (by decide), two_other _ _ _ _ _ (by decide) (by decide)]
  simp only [List.append_nil]

theorem ph_credentials (c : Config) : getall lower (preflightHeaders c) "Access-Control-Allow-Credentials".toList =
    if c.credentials then ["true".toList] else [] := by
  unfold preflightHeaders
  rw [getall_append, getall_append, getall_append, getall_append, getall_append, opt_other _ _ _ _ (by decide),
    opt_same _ _ _ _ rfl, opt_other _ _ _ _ (by decide), one_other _ _ _ (by decide),
    opt_other _ _ _ _ (by decide), two_other _ _ _ _ _ (by decide) (by decide)]
  simp only [List.append_nil, List.nil_append]

theorem ph_private (c : Config) : getall lower (preflightHeaders c) "Access-Control-Allow-Private-Network".toList =
    if c.privateNetworks then ["true".toList] else [] := by
  unfold preflightHeaders
  rw [getall_append, getall_append, getall_append, getall_append, getall_append, opt_other _ _ _ _ (by decide),
    opt_other _ _ _ _ (by decide), opt_same _ _ _ _ rfl, one_other _ _ _ (by decide),
    opt_other _ _ _ _ (by decide), two_other _ _ _ _ _ (by decide) (by decide)]
  simp only [List.append_nil, List.nil_append]

theorem ph_headers (c : Config) : getall lower (preflightHeaders c) "Access-Control-Allow-Headers".toList =
    [if c.allHeaders then "*".toList else joinWith ", ".toList c.allowHeaders] := by
  unfold preflightHeaders
  rw [getall_append, getall_append, getall_append, getall_append, getall_append, opt_other _ _ _ _ (by decide),
    opt_other _ _ _ _ (by decide), opt_other _ _ _ _ (by decide), one_same _ _ _ rfl,
    opt_other _ _ _ _ (by decide), two_other _ _ _ _ _ (by decide) (by decide)]
  simp only [List.append_nil, List.nil_append]

theorem ph_methods (c : Config) : getall lower (preflightHeaders c) "Access-Control-Allow-Methods".toList =
    [joinWith ", ".toList c.allowMethods] := by
  unfold preflightHeaders
  rw [getall_append, getall_append, getall_append, getall_append, getall_append, opt_other _ _ _ _ (by decide),
    opt_other _ _ _ _ (by decide), opt_other _ _ _ _ (by decide), one_other _ _ _ (by decide),
    opt_other _ _ _ _ (by decide), getall_first _ _ _ _ _ rfl (by decide)]
  simp only [List.nil_append]

theorem ph_maxAge (c : Config) : getall lower (preflightHeaders c) "Access-Control-Max-Age".toList =
    [Path.natToDec c.maxAge] := by
  unfold preflightHeaders
  rw [getall_append, getall_append, getall_append, getall_append, getall_append, opt_other _ _ _ _ (by decide),
    opt_other _ _ _ _ (by decide), opt_other _ _ _ _ (by decide), one_other _ _ _ (by decide),
    opt_other _ _ _ _ (by decide), getall_second _ _ _ _ _ (by decide) rfl]
  simp only [List.nil_append]

theorem preflight_getall (c : Config) (o m : Str) (hs : Option Str) (x : Str)
    (h1 : lower "content-length".toList ≠ lower x) (h2 : lower "content-type".toList ≠ lower x) :
    getall lower (preflight c o m hs).headers x = getall lower (preflightAnswer c o hs) x := by
  obtain ⟨t, s, e⟩ := preflight_headers c o m hs
  rw [e]
  have hp : ∀ d, (plainText t s d).headers = d ++ [("content-length".toList, Path.natToDec t.length),
    ("content-type".toList, "text/plain; charset=utf-8".toList)] := fun _ => rfl
  rw [hp, getall_append, two_other _ _ _ _ _ h1 h2, List.append_nil]

theorem plainText_getall (t : Str) (st : Nat) (d : Items Str) (x : Str)
    (h1 : lower "content-length".toList ≠ lower x) (h2 : lower "content-type".toList ≠ lower x) :
    getall lower (plainText t st d).headers x = getall lower d x := by
  have hp : (plainText t st d).headers = d ++ [("content-length".toList, Path.natToDec t.length),
    ("content-type".toList, "text/plain; charset=utf-8".toList)] := rfl
  rw [hp, getall_append, two_other _ _ _ _ _ h1 h2, List.append_nil]

theorem privateErrors_props (c : Config) (o p : Str) :
    (privateErrors c o p).Sublist ["origin".toList, "private-network".toList] ∧
    ("origin".toList ∈ privateErrors c o p ↔ ¬ validateOrigin c o = true) ∧
    ("private-network".toList ∈ privateErrors c o p ↔ p = "true".toList ∧ c.privateNetworks = false) := by
  unfold privateErrors
  by_cases h1 : validateOrigin c o = true
  · rw [if_pos h1]
    by_cases h2 : p = "true".toList ∧ c.privateNetworks = false
    · rw [if_pos h2]
      exact ⟨by decide, ⟨fun h => absurd h (by decide), fun h => absurd h1 h⟩, ⟨fun _ => h2, fun _ => by decide⟩⟩
    · rw [if_neg h2]
      exact ⟨by decide, ⟨fun h => absurd h (by decide), fun h => absurd h1 h⟩,
        ⟨fun h => absurd h (by decide), fun h => absurd h h2⟩⟩
  · rw [if_neg h1]
    by_cases h2 : p = "true".toList ∧ c.privateNetworks = false
    · rw [if_pos h2]
      exact ⟨by decide, ⟨fun _ => h1, fun _ => by decide⟩, ⟨fun _ => h2, fun _ => by decide⟩⟩
    · rw [if_neg h2]
      exact ⟨by decide, ⟨fun _ => h1, fun _ => by decide⟩, ⟨fun h => absurd h (by decide), fun h => absurd h h2⟩⟩

theorem acao_preflight (c : Config) : ∀ kv ∈ preflightHeaders c, lower kv.1 = lower acao → kv.1 = acao := by
  have n1 : ∀ k ∈ preflightNames, lower k = lower acao → k = acao := by decide
  exact fun kv hm => n1 _ (preflightHeaders_names c kv hm)

theorem private_getall (c : Config) (o p : Str) :
    getall lower (privatePreflight c o p).headers "Access-Control-Allow-Private-Network".toList =
      if c.privateNetworks then ["true".toList] else [] := by
  unfold privatePreflight
  split
  · rw [plainText_getall _ _ _ _ (by decide) (by decide), ph_private]
  · rw [plainText_getall _ _ _ _ (by decide) (by decide), setitem_id_lower _ _ _ (acao_preflight c), getall_setitem,
      if_neg (by decide), ph_private]

theorem private_acao (c : Config) (o p : Str) (h : (privatePreflight c o p).status = 200) :
    getall lower (privatePreflight c o p).headers acao = [o] := by
  unfold privatePreflight at h ⊢
  split at h
  · exact absurd (show (400 : Nat) = 200 from h) (by decide)
  · rename_i hn
    rw [if_neg hn, plainText_getall _ _ _ _ (by decide) (by decide), setitem_id_lower _ _ _ (acao_preflight c),
      getall_setitem, if_pos rfl]

theorem sh_credentials (c : Config) (d : Items Str) :
    getall lower (update lower d (simpleHeaders c)) "Access-Control-Allow-Credentials".toList =
      if c.credentials then ["true".toList] else getall lower d "Access-Control-Allow-Credentials".toList := by
  rw [getall_update]
  unfold simpleHeaders
  rw [List.foldl_append, List.foldl_append, List.foldl_append, fold_other _ _ acao _ _ (by decide), fold_same,
    fold_other _ _ "Access-Control-Expose-Headers".toList _ _ (by decide),
    fold_other _ _ "Access-Control-Allow-Private-Network".toList _ _ (by decide)]

theorem sh_expose (c : Config) (d : Items Str) :
    getall lower (update lower d (simpleHeaders c)) "Access-Control-Expose-Headers".toList =
      if c.expose ≠ [] then [joinWith ", ".toList c.expose]
      else getall lower d "Access-Control-Expose-Headers".toList := by
  rw [getall_update]
  unfold simpleHeaders
  rw [List.foldl_append, List.foldl_append, List.foldl_append, fold_other _ _ acao _ _ (by decide),
    fold_other _ _ "Access-Control-Allow-Credentials".toList _ _ (by decide), fold_same,
    fold_other _ _ "Access-Control-Allow-Private-Network".toList _ _ (by decide)]

theorem sh_private (c : Config) (d : Items Str) :
    getall lower (update lower d (simpleHeaders c)) "Access-Control-Allow-Private-Network".toList =
      if c.privateNetworks then ["true".toList] else getall lower d "Access-Control-Allow-Private-Network".toList := by
  rw [getall_update]
  unfold simpleHeaders
  rw [List.foldl_append, List.foldl_append, List.foldl_append, fold_other _ _ acao _ _ (by decide),
    fold_other _ _ "Access-Control-Allow-Credentials".toList _ _ (by decide),
    fold_other _ _ "Access-Control-Expose-Headers".toList _ _ (by decide), fold_same]

theorem setExplicit_other (d : Items Str) (o x : Str) (h1 : lower x ≠ lower acao) (h2 : lower x ≠ lower "vary".toList) :
    getall lower (setExplicit d o) x = getall lower d x := by
  unfold setExplicit
  dsimp only
  have h : getall lower (addVary (setitem lower d acao o) "Origin".toList) x = getall lower d x := by
    rw [getall_addVary_other _ _ _ h2, getall_setitem, if_neg h1]
  split
  · split
    · rw [getall_addVary_other _ _ _ h2, h]
    · exact h
  · exact h

theorem setExplicit_exposes (d : Items Str) (o e : Str)
    (h : getall lower d "Access-Control-Expose-Headers".toList = [e]) (hne : e ≠ []) :
    Varies (setExplicit d o) "Access-Control-Expose-Headers".toList := by
  unfold setExplicit
  dsimp only
  have hg : get lower (addVary (setitem lower d acao o) "Origin".toList) "Access-Control-Expose-Headers".toList =
      some e := by
    unfold MultiDict.get
    rw [getall_addVary_other _ _ _ (by decide), getall_setitem, if_neg (by decide), h]
    rfl
  rw [hg]
  dsimp only
  rw [if_pos hne]
  obtain ⟨y, hy1, hy2, _⟩ := addVary_getall (addVary (setitem lower d acao o) "Origin".toList)
    "Access-Control-Expose-Headers".toList
  rw [varies_getall]
  exact ⟨by decide, y, by rw [hy1]; exact List.mem_singleton.2 rfl,
    hy2 _ ⟨"Access-Control-Expose-Headers".toList, by decide, by decide⟩⟩

theorem sendHeaders_other (c : Config) (o : Str) (b : Bool) (d : Items Str) (x : Str) (h1 : lower x ≠ lower acao)
    (h2 : lower x ≠ lower "vary".toList) :
    getall lower (sendHeaders c o b d) x = getall lower (update lower d (simpleHeaders c)) x := by
  unfold sendHeaders
  dsimp only
  split
  · exact setExplicit_other _ _ _ h1 h2
  · split
    · exact setExplicit_other _ _ _ h1 h2
    · rfl

theorem sendHeaders_acao (c : Config) (o : Str) (b : Bool) (d : Items Str) (hd : getall lower d acao = []) :
    getall lower (sendHeaders c o b d) acao =
      if c.allOrigins = true then (if b = true then [o] else ["*".toList])
      else if validateOrigin c o = true then [o] else [] := by
  unfold sendHeaders
  dsimp only
  cases ha : c.allOrigins with
  | true =>
    cases b with
    | true =>
      rw [if_pos (by rfl), if_pos rfl, if_pos rfl]
      exact (setExplicit_spec _ _).1
    | false =>
      rw [if_neg (by decide), if_neg (by simp), if_pos rfl, if_neg (by decide), getall_simple, ha, if_pos rfl]
  | false =>
    rw [if_neg (by simp), if_neg (c := false = true) (by decide)]
    by_cases hv : validateOrigin c o = true
    · rw [if_pos (by rw [hv]; rfl), if_pos hv]
      exact (setExplicit_spec _ _).1
    · rw [if_neg (by simp [hv]), if_neg hv, getall_simple, ha, if_neg (by decide), hd]

/-! ## The browser's preflight request -/

/-- The text of `Access-Control-Request-Headers`. -/
def askedHeaders (w : Wanted) : Option Str := if w.names = [] then none else some (joinWith [','] w.names)

theorem get_opt (p : Prop) [Decidable p] (v : Str) : (if p then [v] else []).head? = if p then some v else none := by
  split <;> rfl

theorem pr_origin (w : Wanted) : get lower (preflightRequest w).headers "origin".toList = some w.origin := by
  unfold MultiDict.get preflightRequest
  dsimp only
  rw [getall_append, getall_append, getall_first _ _ _ _ _ (by decide) (by decide)]
  rfl

theorem pr_method (w : Wanted) :
    get lower (preflightRequest w).headers "access-control-request-method".toList = some w.method := by
  unfold MultiDict.get preflightRequest
  dsimp only
  rw [getall_append, getall_append, getall_second _ _ _ _ _ (by decide) (by decide)]
  rfl

theorem pr_headers (w : Wanted) :
    get lower (preflightRequest w).headers "access-control-request-headers".toList = askedHeaders w := by
  unfold MultiDict.get preflightRequest askedHeaders
  dsimp only
  rw [getall_append, getall_append, two_other _ _ _ _ _ (by decide) (by decide), opt_other _ _ _ _ (by decide)]
  by_cases h : w.names = []
  · rw [if_pos h, if_pos h]; rfl
  · rw [if_neg h, if_neg h, one_same _ _ _ (by decide)]; rfl

theorem served_preflight (c : Config) (w : Wanted) (app : Resp) :
    serve c (preflightRequest w) app = preflight c w.origin w.method (askedHeaders w) := by
  unfold serve
  rw [pr_origin]
  dsimp only
  rw [if_pos (show (preflightRequest w).method = "OPTIONS".toList from rfl), pr_method, pr_headers]

theorem asked_allowed (c : Config) (w : Wanted) (hn : ∀ n ∈ w.names, Token n) :
    (∀ t, askedHeaders w = some t → ∀ e ∈ splitOn ',' t, HeaderAllowed c (strip isSpace e)) ↔
      ∀ n ∈ w.names, HeaderAllowed c n := by
  unfold askedHeaders
  by_cases h : w.names = []
  · rw [if_pos h, h]
    exact ⟨fun _ n hm => by (cases hm), fun _ t ht => by (cases ht)⟩
  · rw [if_neg h]
    simp only [Option.some.injEq, forall_eq']
    rw [splitOn_joinWith _ _ h (fun q hq => comma_token q (hn q hq))]
    constructor
    · intro H n hm
      have := H n hm
      rwa [strip_all _ _ (fun c hc => tchar_isSpace c ((hn n hm).2 c hc))] at this
    · intro H n hm
      rw [strip_all _ _ (fun c hc => tchar_isSpace c ((hn n hm).2 c hc))]
      exact H n hm

theorem token_of (s : Str) (h : (s ≠ [] && s.all tchar) = true) : Token s := by
  rw [Bool.and_eq_true] at h
  exact ⟨of_decide_eq_true h.1, List.all_eq_true.1 h.2⟩

theorem star_token : Token "*".toList := token_of _ (by decide)

theorem allowMethods_token (c : Config) (h : ∀ m ∈ c.methods, Token m) : ∀ m ∈ c.allowMethods, Token m := by
  have hc : ∀ m ∈ corsMethods, (m ≠ [] && m.all tchar) = true := by decide
  have key : ∀ ms : List Str, (∀ m ∈ ms, Token m) →
      ∀ m ∈ (if "*".toList ∈ ms then corsMethods else ms), Token m := by
    intro ms hms m hm
    split at hm
    · exact token_of m (hc m hm)
    · exact hms m hm
  apply key
  intro m hm
  split at hm
  · rw [List.mem_singleton.1 hm]; exact token_of _ (by decide)
  · exact h m hm

theorem allowHeaders_token (c : Config) (h : ∀ m ∈ c.headers, Token m) : ∀ m ∈ c.allowHeaders, Token m := by
  have hc : ∀ m ∈ simpleRequestHeaders, (m ≠ [] && m.all tchar) = true := by decide
  intro m hm
  rcases (mem_allowHeaders c m).1 hm with hm | hm
  · exact token_of m (hc m hm)
  · exact h m hm

/-- The CORS check of an allowed origin. -/
theorem corsCheck_iff (H : List (Str × Str)) (o : Str) (cred cc ex : Bool) (hex : cc = true → ex = true)
    (ha : field H "Access-Control-Allow-Origin".toList = some (if ex = true then o else "*".toList))
    (hc : field H "Access-Control-Allow-Credentials".toList = if cc then some "true".toList else none) :
    CorsCheck H o cred ↔ (cred = true → cc = true) := by
  unfold CorsCheck
  rw [ha, hc]
  constructor
  · rintro (⟨h, _⟩ | ⟨_, h⟩) hcr
    · rw [h] at hcr; cases hcr
    · have := h hcr
      cases cc with
      | true => rfl
      | false => rw [if_neg (by decide)] at this; cases this
  · intro h
    cases cred with
    | false =>
      cases ex with
      | true => rw [if_pos rfl]; exact .inr ⟨rfl, fun e => by (cases e)⟩
      | false => rw [if_neg (by decide)]; exact .inl ⟨rfl, rfl⟩
    | true =>
      have hcc := h rfl
      rw [hcc, hex hcc, if_pos rfl, if_pos rfl]
      exact .inr ⟨rfl, fun _ => rfl⟩

theorem decimal_natToDec (n : Nat) : decimal (Path.natToDec n) = some n := by
  obtain ⟨h1, h2⟩ := Path.natToDec_spec n
  unfold decimal
  rw [if_pos]
  · exact congrArg some h2
  · refine ⟨h1.1, ?_⟩
    intro c hc
    exact h1.2 c hc

end Verif.Cors
