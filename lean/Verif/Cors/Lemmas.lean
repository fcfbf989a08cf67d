import Verif.Cors.Spec
import Verif.MultiDict.Lemmas

namespace Verif.Cors

open Verif Verif.MultiDict Verif.MultiDict.Spec Spec

theorem mem_setitem {α : Type} (idf : Str → Str) (d : Items α) (k : Str) (v : α) (kv : Str × α) :
    kv ∈ setitem idf d k v ↔ kv = (k, v) ∨ (kv ∈ d ∧ idf kv.1 ≠ idf k) := by
  induction d with
  | nil => simp [setitem]
  | cons x d ih =>
    obtain ⟨k', v'⟩ := x
    rw [setitem]
    split
    · rename_i h
      rw [List.mem_cons, delall, List.mem_filter, List.mem_cons]
      simp only [ne_eq, decide_not, Bool.not_eq_eq_eq_not, Bool.not_true, decide_eq_false_iff_not]
      constructor
      · rintro (h1 | ⟨h1, h2⟩)
        · exact .inl h1
        · exact .inr ⟨.inr h1, h2⟩
      · rintro (h1 | ⟨h1 | h1, h2⟩)
        · exact .inl h1
        · subst h1; exact absurd h h2
        · exact .inr ⟨h1, h2⟩
    · rename_i h
      rw [List.mem_cons, ih, List.mem_cons]
      constructor
      · rintro (h1 | h1 | ⟨h1, h2⟩)
        · subst h1; exact .inr ⟨.inl rfl, h⟩
        · exact .inl h1
        · exact .inr ⟨.inr h1, h2⟩
      · rintro (h1 | ⟨h1 | h1, h2⟩)
        · exact .inr (.inl h1)
        · exact .inl h1
        · exact .inr (.inr ⟨h1, h2⟩)

/-- Exactly the values under a name are sent under that name. -/
theorem mem_sent (d : Items Str) (ks : List Str) (hk : KeyOrder d ks) (n v : Str) :
    (∃ kv ∈ multiItems lower ks d, lower kv.1 = n ∧ kv.2 = v) ↔ ∃ kv ∈ d, lower kv.1 = n ∧ kv.2 = v := by
  unfold multiItems
  constructor
  · rintro ⟨kv, hm, hn, hv⟩
    rw [List.mem_flatMap] at hm
    obtain ⟨k, hkm, hm⟩ := hm
    rw [List.mem_map] at hm
    obtain ⟨w, hw, rfl⟩ := hm
    obtain ⟨k', he, hm'⟩ := (mem_getall _ _ _ _).1 hw
    exact ⟨(k', w), hm', by rw [he]; exact hn, hv⟩
  · rintro ⟨kv, hm, hn, hv⟩
    have hkm : kv.1 ∈ ks := (hk.2 kv.1).2 ⟨kv.2, hm⟩
    refine ⟨(kv.1, kv.2), ?_, hn, hv⟩
    rw [List.mem_flatMap]
    refine ⟨kv.1, hkm, ?_⟩
    rw [List.mem_map]
    exact ⟨kv.2, (mem_getall _ _ _ _).2 ⟨kv.1, rfl, hm⟩, rfl⟩

theorem names_sent (d : Items Str) (ks : List Str) (hk : KeyOrder d ks) (o : Str) :
    Names (multiItems lower ks d) o ↔ Names d o := mem_sent d ks hk _ o

theorem varies_sent (d : Items Str) (ks : List Str) (hk : KeyOrder d ks) (v : Str) :
    Varies (multiItems lower ks d) v ↔ Varies d v := by
  unfold Varies
  constructor
  · rintro ⟨h, kv, hm, hl, ht⟩
    obtain ⟨kv', hm', hl', he⟩ := (mem_sent d ks hk "vary".toList kv.2).1 ⟨kv, hm, hl, rfl⟩
    exact ⟨h, kv', hm', hl', by rw [he]; exact ht⟩
  · rintro ⟨h, kv, hm, hl, ht⟩
    obtain ⟨kv', hm', hl', he⟩ := (mem_sent d ks hk "vary".toList kv.2).2 ⟨kv, hm, hl, rfl⟩
    exact ⟨h, kv', hm', hl', by rw [he]; exact ht⟩

theorem lower_acao : lower acao = "access-control-allow-origin".toList := by decide

theorem names_getall (d : Items Str) (o : Str) : Names d o ↔ o ∈ getall lower d acao := by
  rw [mem_getall, lower_acao]
  constructor
  · rintro ⟨kv, hm, hl, rfl⟩; exact ⟨kv.1, hl, hm⟩
  · rintro ⟨k, hl, hm⟩; exact ⟨(k, o), hm, hl, rfl⟩

theorem varies_getall (d : Items Str) (v : Str) : Varies d v ↔
    v ≠ [] ∧ ∃ x ∈ getall lower d "vary".toList, ∃ t ∈ splitOn ',' x, strip isSpace t = v := by
  have hl : lower "vary".toList = "vary".toList := by decide
  unfold Varies
  constructor
  · rintro ⟨h1, kv, hm, hk, t, ht⟩
    exact ⟨h1, kv.2, (mem_getall _ _ _ _).2 ⟨kv.1, by rw [hk, hl], hm⟩, t, ht⟩
  · rintro ⟨h1, x, hx, t, ht⟩
    obtain ⟨k', hk, hm⟩ := (mem_getall _ _ _ _).1 hx
    exact ⟨h1, (k', x), hm, by rw [hk, hl], t, ht⟩

theorem validateOrigin_iff (c : Config) (o : Str) : validateOrigin c o = true ↔ OriginAllowed c o := by
  unfold validateOrigin OriginAllowed Config.allOrigins
  by_cases h : "*".toList ∈ c.origins
  · rw [if_pos (decide_eq_true h)]
    exact ⟨fun _ => .inl h, fun _ => rfl⟩
  · cases hr : c.regex with
    | none => simp only [h, decide_false, Bool.false_eq_true, if_false]; simp
    | some r =>
      simp only [h, decide_false, Bool.false_eq_true, if_false, false_or]
      by_cases hro : r o = true
      · simp [hro]
      · simp [hro]

theorem allowMethods_iff (c : Config) (m : Str) : m ∈ c.allowMethods ↔ MethodAllowed c m := by
  unfold Config.allowMethods MethodAllowed
  by_cases h : c.methods = []
  · have h1 : ¬ ("*".toList ∈ ["GET".toList]) := by decide
    simp only [h, if_true]
    rw [if_neg h1, List.mem_singleton]
  · simp only [h, if_false]
    by_cases h2 : "*".toList ∈ c.methods
    · rw [if_pos h2, if_pos h2]
      simp only [corsMethods, List.mem_cons, List.not_mem_nil, or_false]
      constructor
      · rintro (h | h | h | h | h | h | h | h) <;> simp [h]
      · rintro (h | h | h | h | h | h | h | h) <;> simp [h]
    · rw [if_neg h2, if_neg h2]

theorem isSpace_toLower (c : Char) : isSpace c.toLower = isSpace c := by
  by_cases h : c.toNat < 128
  · have key : ∀ n < 128, isSpace (Char.ofNat n).toLower = isSpace (Char.ofNat n) := by decide +kernel
    have := key c.toNat h
    rwa [Char.ofNat_toNat] at this
  · have : c.toLower = c := by
      unfold Char.toLower
      rw [dif_neg]
      rintro ⟨_, h2⟩
      have : c.toNat ≤ 'Z'.toNat := h2
      have hZ : 'Z'.toNat = 90 := rfl
      omega
    rw [this]

theorem dropWhile_lower (s : Str) : (lower s).dropWhile isSpace = lower (s.dropWhile isSpace) := by
  induction s with
  | nil => rfl
  | cons c s ih =>
    have : lower (c :: s) = c.toLower :: lower s := rfl
    rw [this, List.dropWhile_cons, List.dropWhile_cons, isSpace_toLower]
    split
    · exact ih
    · rfl

theorem strip_lower (s : Str) : strip isSpace (lower s) = lower (strip isSpace s) := by
  unfold strip lstrip rstrip
  rw [dropWhile_lower]
  have h1 : ∀ t, (lower t).reverse = lower t.reverse := by
    intro t; unfold lower; rw [List.map_reverse]
  rw [h1, dropWhile_lower, h1]

theorem mem_insertName (n x : Str) (ms : List Str) : x ∈ insertName n ms ↔ x = n ∨ x ∈ ms := by
  induction ms with
  | nil => simp [insertName]
  | cons m ms ih =>
    rw [insertName]
    by_cases h : n = m
    · rw [if_pos h, List.mem_cons]
      constructor
      · exact .inr
      · rintro (h1 | h1)
        · exact .inl (h1.trans h)
        · exact h1
    · rw [if_neg h]
      split
      · rw [List.mem_cons]
      · rw [List.mem_cons, ih, List.mem_cons]
        exact or_left_comm

theorem mem_sortedSet (x : Str) (ns : List Str) : x ∈ sortedSet ns ↔ x ∈ ns := by
  unfold sortedSet
  induction ns with
  | nil => rfl
  | cons n ns ih => rw [List.foldr_cons, mem_insertName, ih, List.mem_cons]

theorem mem_allowHeaders (c : Config) (x : Str) :
    x ∈ c.allowHeaders ↔ x ∈ simpleRequestHeaders ∨ x ∈ c.headers := by
  unfold Config.allowHeaders
  rw [mem_sortedSet, List.mem_append]

theorem mem_map_allowHeaders (c : Config) (x : Str) :
    x ∈ c.allowHeaders.map lower ↔ x ∈ simpleRequestHeaders.map lower ∨ x ∈ c.headers.map lower := by
  simp only [List.mem_map, mem_allowHeaders]
  constructor
  · rintro ⟨a, h | h, e⟩
    · exact .inl ⟨a, h, e⟩
    · exact .inr ⟨a, h, e⟩
  · rintro (⟨a, h, e⟩ | ⟨a, h, e⟩)
    · exact ⟨a, .inl h, e⟩
    · exact ⟨a, .inr h, e⟩

theorem allowHeaders_iff (c : Config) (hc : c.allHeaders = false) (h : Str) :
    lower h ∈ c.allowHeaders.map lower ↔ HeaderAllowed c h := by
  have hs : ¬ "*".toList ∈ c.headers := by
    unfold Config.allHeaders at hc; simpa using hc
  unfold HeaderAllowed
  rw [mem_map_allowHeaders]
  have h4 : simpleRequestHeaders.map lower =
    ["accept".toList, "accept-language".toList, "content-language".toList, "content-type".toList] := by decide
  rw [h4]
  simp only [hs, false_or, List.mem_map]

/-! ## Headers of the preflight answers -/

theorem names_preflightHeaders (c : Config) (o : Str) :
    Names (preflightHeaders c) o ↔ c.allOrigins = true ∧ o = "*".toList := by
  have e1 : lower acao = "access-control-allow-origin".toList := by decide
  have e2 : lower "Access-Control-Allow-Credentials".toList ≠ "access-control-allow-origin".toList := by decide
  have e3 : lower "Access-Control-Allow-Private-Network".toList ≠ "access-control-allow-origin".toList := by decide
  have e4 : lower "Access-Control-Allow-Headers".toList ≠ "access-control-allow-origin".toList := by decide
  have e5 : lower "Vary".toList ≠ "access-control-allow-origin".toList := by decide
  have e6 : lower "Access-Control-Allow-Methods".toList ≠ "access-control-allow-origin".toList := by decide
  have e7 : lower "Access-Control-Max-Age".toList ≠ "access-control-allow-origin".toList := by decide
  unfold Names preflightHeaders
  constructor
  · rintro ⟨kv, hm, hl, hv⟩
    simp only [List.mem_append] at hm
    rcases hm with ((((hm | hm) | hm) | hm) | hm) | hm
    · split at hm
      · rename_i h
        have := List.mem_singleton.1 hm
        exact ⟨h, by rw [← hv, this]⟩
      · cases hm
    · split at hm
      · rw [List.mem_singleton.1 hm] at hl; exact absurd hl e2
      · cases hm
    · split at hm
      · rw [List.mem_singleton.1 hm] at hl; exact absurd hl e3
      · cases hm
    · rw [List.mem_singleton.1 hm] at hl; exact absurd hl e4
    · split at hm
      · rw [List.mem_singleton.1 hm] at hl; exact absurd hl e5
      · cases hm
    · rcases List.mem_cons.1 hm with h | h
      · rw [h] at hl; exact absurd hl e6
      · rw [List.mem_singleton.1 h] at hl; exact absurd hl e7
  · rintro ⟨h, rfl⟩
    refine ⟨(acao, "*".toList), ?_, e1, rfl⟩
    rw [if_pos h]
    iterate 5 apply List.mem_append_left
    exact List.mem_singleton.2 rfl

theorem varies_preflightHeaders (c : Config) (h : c.explicit = true) :
    ("Vary".toList, "Origin".toList) ∈ preflightHeaders c := by
  unfold preflightHeaders
  simp only [h, if_true, List.mem_append]
  exact .inl (.inr (List.mem_singleton.2 rfl))

theorem varies_origin (d : Items Str) (h : ("Vary".toList, "Origin".toList) ∈ d) : Varies d "Origin".toList :=
  ⟨by decide, _, h, by decide, "Origin".toList, by decide, by decide⟩

/-- Setting another header than `Vary` keeps the entry of `preflightHeaders`. -/
theorem setitem_keeps (d : Items Str) (k v : Str) (hk : k ≠ "Vary".toList)
    (h : ("Vary".toList, "Origin".toList) ∈ d) : ("Vary".toList, "Origin".toList) ∈ setitem id d k v :=
  (mem_setitem id d k v _).2 (.inr ⟨h, fun e => hk e.symm⟩)

theorem names_setitem_other (d : Items Str) (k v o : Str)
    (hk : lower k ≠ "access-control-allow-origin".toList) : Names (setitem id d k v) o ↔ Names d o := by
  unfold Names
  constructor
  · rintro ⟨kv, hm, hl, hv⟩
    rcases (mem_setitem id d k v kv).1 hm with rfl | ⟨hm, _⟩
    · exact absurd hl hk
    · exact ⟨kv, hm, hl, hv⟩
  · rintro ⟨kv, hm, hl, hv⟩
    refine ⟨kv, (mem_setitem id d k v kv).2 (.inr ⟨hm, ?_⟩), hl, hv⟩
    intro e
    simp only [id_eq] at e
    rw [e] at hl; exact hk hl

theorem names_setitem_acao (c : Config) (origin o : Str)
    (h : Names (setitem id (preflightHeaders c) acao origin) o) : o = origin := by
  obtain ⟨kv, hm, hl, hv⟩ := h
  rcases (mem_setitem id _ acao origin kv).1 hm with rfl | ⟨hm, hne⟩
  · exact hv.symm
  · exfalso
    have hno : kv.1 = acao := by
      have e2 : lower "Access-Control-Allow-Credentials".toList ≠ "access-control-allow-origin".toList := by decide
      have e3 : lower "Access-Control-Allow-Private-Network".toList ≠ "access-control-allow-origin".toList := by decide
      have e4 : lower "Access-Control-Allow-Headers".toList ≠ "access-control-allow-origin".toList := by decide
      have e5 : lower "Vary".toList ≠ "access-control-allow-origin".toList := by decide
      have e6 : lower "Access-Control-Allow-Methods".toList ≠ "access-control-allow-origin".toList := by decide
      have e7 : lower "Access-Control-Max-Age".toList ≠ "access-control-allow-origin".toList := by decide
      unfold preflightHeaders at hm
      simp only [List.mem_append] at hm
      rcases hm with ((((hm | hm) | hm) | hm) | hm) | hm
      · split at hm
        · rw [List.mem_singleton.1 hm]
        · cases hm
      · split at hm
        · rw [List.mem_singleton.1 hm] at hl; exact absurd hl e2
        · cases hm
      · split at hm
        · rw [List.mem_singleton.1 hm] at hl; exact absurd hl e3
        · cases hm
      · rw [List.mem_singleton.1 hm] at hl; exact absurd hl e4
      · split at hm
        · rw [List.mem_singleton.1 hm] at hl; exact absurd hl e5
        · cases hm
      · rcases List.mem_cons.1 hm with h | h
        · rw [h] at hl; exact absurd hl e6
        · rw [List.mem_singleton.1 h] at hl; exact absurd hl e7
    exact hne hno

theorem names_plainText (t : Str) (s : Nat) (d : Items Str) (o : Str) :
    Names (plainText t s d).headers o ↔ Names d o := by
  have e1 : lower "content-length".toList ≠ "access-control-allow-origin".toList := by decide
  have e2 : lower "content-type".toList ≠ "access-control-allow-origin".toList := by decide
  unfold Names plainText
  constructor
  · rintro ⟨kv, hm, hl, hv⟩
    rcases List.mem_append.1 hm with hm | hm
    · exact ⟨kv, hm, hl, hv⟩
    · rcases List.mem_cons.1 hm with h | h
      · rw [h] at hl; exact absurd hl e1
      · rw [List.mem_singleton.1 h] at hl; exact absurd hl e2
  · rintro ⟨kv, hm, hl, hv⟩
    exact ⟨kv, List.mem_append_left _ hm, hl, hv⟩

/-! ## Headers of ordinary answers -/

theorem fold_other (p : Prop) [Decidable p] (x k v : Str) (vs : List Str) (h : ¬ lower x = lower k) :
    List.foldl (fun vs kv => if lower x = lower kv.1 then [kv.2] else vs) vs
      (if p then [(k, v)] else []) = vs := by
  split
  · rw [List.foldl_cons, List.foldl_nil, if_neg h]
  · rfl

theorem fold_same (p : Prop) [Decidable p] (x v : Str) (vs : List Str) :
    List.foldl (fun vs kv => if lower x = lower kv.1 then [kv.2] else vs) vs
      (if p then [(x, v)] else []) = if p then [v] else vs := by
  split
  · rw [List.foldl_cons, List.foldl_nil, if_pos rfl]
  · rfl

theorem getall_simple (c : Config) (d : Items Str) :
    getall lower (update lower d (simpleHeaders c)) acao =
      if c.allOrigins then ["*".toList] else getall lower d acao := by
  have e2 : ¬ lower acao = lower "Access-Control-Allow-Credentials".toList := by decide
  have e3 : ¬ lower acao = lower "Access-Control-Expose-Headers".toList := by decide
  have e4 : ¬ lower acao = lower "Access-Control-Allow-Private-Network".toList := by decide
  rw [getall_update]
  unfold simpleHeaders
  rw [List.foldl_append, List.foldl_append, List.foldl_append, fold_other _ _ _ _ _ e2,
    fold_other _ _ _ _ _ e3, fold_other _ _ _ _ _ e4, fold_same]

theorem getall_addVary_other (d : Items Str) (v k : Str) (hk : lower k ≠ lower "vary".toList) :
    getall lower (addVary d v) k = getall lower d k := by
  unfold addVary
  split <;> rw [getall_setitem, if_neg hk]

theorem addVary_getall (d : Items Str) (new : Str) :
    ∃ y, getall lower (addVary d new) "vary".toList = [y] ∧
      (∀ v, (∃ t ∈ splitOn ',' new, strip isSpace t = v) → ∃ t ∈ splitOn ',' y, strip isSpace t = v) ∧
      (∀ x, get lower d "vary".toList = some x → ∀ v, (∃ t ∈ splitOn ',' x, strip isSpace t = v) →
        ∃ t ∈ splitOn ',' y, strip isSpace t = v) := by
  unfold addVary
  cases hg : get lower d "vary".toList with
  | none => exact ⟨new, by rw [getall_setitem, if_pos rfl], fun _ h => h, fun x hx => by cases hx⟩
  | some e =>
    refine ⟨commaJoin e new, by simp only; rw [getall_setitem, if_pos rfl], ?_, ?_⟩
    · intro v h; exact (tokens_commaJoin e new v).2 (.inr h)
    · intro x hx v h
      injection hx with hx
      rw [hx]
      exact (tokens_commaJoin _ new v).2 (.inl h)

theorem setExplicit_spec (d : Items Str) (origin : Str) :
    getall lower (setExplicit d origin) acao = [origin] ∧ Varies (setExplicit d origin) "Origin".toList := by
  have hne : lower acao ≠ lower "vary".toList := by decide
  unfold setExplicit
  simp only
  have h1 : getall lower (addVary (setitem lower d acao origin) "Origin".toList) acao = [origin] := by
    rw [getall_addVary_other _ _ _ hne, getall_setitem, if_pos rfl]
  obtain ⟨y, hy1, hy2, _⟩ := addVary_getall (setitem lower d acao origin) "Origin".toList
  have hO : ∃ t ∈ splitOn ',' "Origin".toList, strip isSpace t = "Origin".toList := by decide
  have h2 : Varies (addVary (setitem lower d acao origin) "Origin".toList) "Origin".toList := by
    rw [varies_getall]
    exact ⟨by decide, y, by rw [hy1]; simp, hy2 _ hO⟩
  split
  · split
    · refine ⟨by rw [getall_addVary_other _ _ _ hne]; exact h1, ?_⟩
      obtain ⟨z, hz1, _, hz3⟩ := addVary_getall (addVary (setitem lower d acao origin) "Origin".toList)
        "Access-Control-Expose-Headers".toList
      rw [varies_getall]
      refine ⟨by decide, z, by rw [hz1]; simp, ?_⟩
      exact hz3 y (by rw [MultiDict.get, hy1]; rfl) _ (hy2 _ hO)
    · exact ⟨h1, h2⟩
  · exact ⟨h1, h2⟩

theorem okHeaders_iff (c : Config) (hs : Option Str) : okHeaders c hs = true ↔
    ∀ t, hs = some t → ∀ e ∈ splitOn ',' t, HeaderAllowed c (strip isSpace e) := by
  unfold okHeaders
  cases hs with
  | none => exact ⟨fun _ t h => by (cases h), fun _ => rfl⟩
  | some r =>
    simp only [Option.some.injEq, forall_eq']
    cases hall : c.allHeaders with
    | true =>
      simp only [if_true, true_iff]
      intro e _
      exact .inl (by unfold Config.allHeaders at hall; simpa using hall)
    | false =>
      simp only [Bool.false_eq_true, if_false, Bool.not_eq_true']
      unfold headersFail
      rw [List.any_eq_false]
      constructor
      · intro h e he
        have := h e he
        rw [strip_lower] at this
        rw [← allowHeaders_iff c hall]
        simpa using this
      · intro h e he
        have := h e he
        rw [← allowHeaders_iff c hall] at this
        rw [strip_lower]
        simpa using this

theorem failures_iff (c : Config) (origin method : Str) (hs : Option Str) :
    failures c origin method hs = [] ↔
      validateOrigin c origin = true ∧ method ∈ c.allowMethods ∧ okHeaders c hs = true := by
  unfold failures
  rw [List.append_eq_nil_iff, List.append_eq_nil_iff, and_assoc]
  have aux : ∀ (p : Prop) [Decidable p] (x : Str), (if p then [] else [x]) = [] ↔ p := by
    intro p _ x
    by_cases h : p
    · rw [if_pos h]; exact ⟨fun _ => h, fun _ => rfl⟩
    · rw [if_neg h]; exact ⟨fun e => by (cases e), fun e => absurd e h⟩
  rw [aux, aux, aux]

theorem failures_sublist (c : Config) (origin method : Str) (hs : Option Str) :
    (failures c origin method hs).Sublist ["origin".toList, "method".toList, "headers".toList] := by
  have aux : ∀ (p : Prop) [Decidable p] (x : Str), (if p then [] else [x]).Sublist [x] := by
    intro p _ x
    split
    · exact List.nil_sublist _
    · exact List.Sublist.refl _
  unfold failures
  exact ((aux _ _).append (aux _ _)).append (aux _ _)

theorem failures_mem (c : Config) (origin method : Str) (hs : Option Str) :
    ("origin".toList ∈ failures c origin method hs ↔ ¬ validateOrigin c origin = true) ∧
    ("method".toList ∈ failures c origin method hs ↔ ¬ method ∈ c.allowMethods) ∧
    ("headers".toList ∈ failures c origin method hs ↔ ¬ okHeaders c hs = true) := by
  have aux : ∀ (p : Prop) [Decidable p] (x : Str), x ∈ (if p then [] else [x]) ↔ ¬ p := by
    intro p _ x
    by_cases h : p
    · rw [if_pos h]; exact ⟨fun e => by (cases e), fun e => absurd h e⟩
    · rw [if_neg h]; exact ⟨fun _ => h, fun _ => List.mem_singleton.2 rfl⟩
  have off : ∀ (p : Prop) [Decidable p] (x y : Str), y ≠ x → ¬ y ∈ (if p then [] else [x]) := by
    intro p _ x y hne h
    split at h
    · cases h
    · exact hne (List.mem_singleton.1 h)
  unfold failures
  refine ⟨?_, ?_, ?_⟩
  · rw [List.mem_append, List.mem_append, aux]
    constructor
    · rintro ((h | h) | h)
      · exact h
      · exact absurd h (off _ _ _ (by decide))
      · exact absurd h (off _ _ _ (by decide))
    · exact fun h => .inl (.inl h)
  · rw [List.mem_append, List.mem_append, aux]
    constructor
    · rintro ((h | h) | h)
      · exact absurd h (off _ _ _ (by decide))
      · exact h
      · exact absurd h (off _ _ _ (by decide))
    · exact fun h => .inl (.inr h)
  · rw [List.mem_append, List.mem_append, aux]
    constructor
    · rintro ((h | h) | h)
      · exact absurd h (off _ _ _ (by decide))
      · exact absurd h (off _ _ _ (by decide))
      · exact h
    · exact fun h => .inr h

/-! ### Values of the fields of the preflight answers -/

theorem getall_opt (p : Prop) [Decidable p] (k v x : Str) :
    getall lower (if p then [(k, v)] else []) x = if lower k = lower x then (if p then [v] else []) else [] := by
  by_cases h : p
  · rw [if_pos h, if_pos h]
    rw [getall_cons, getall_nil]
  · rw [if_neg h, if_neg h, getall_nil, ite_self]

/-- The names that occur in the dictionary of preflight headers. -/
def preflightNames : List Str :=
  [acao, "Access-Control-Allow-Credentials".toList, "Access-Control-Allow-Private-Network".toList,
    "Access-Control-Allow-Headers".toList, "Vary".toList, "Access-Control-Allow-Methods".toList,
    "Access-Control-Max-Age".toList]

theorem preflightHeaders_names (c : Config) (kv : Str × Str) (h : kv ∈ preflightHeaders c) : kv.1 ∈ preflightNames := by
  have aux : ∀ (p : Prop) [Decidable p] (k v : Str), kv ∈ (if p then [(k, v)] else []) → kv.1 = k := by
    intro p _ k v h
    split at h
    · rw [List.mem_singleton.1 h]
    · cases h
  unfold preflightHeaders at h
  simp only [List.mem_append] at h
  unfold preflightNames
  rcases h with ((((h | h) | h) | h) | h) | h
  · rw [aux _ _ _ h]; simp
  · rw [aux _ _ _ h]; simp
  · rw [aux _ _ _ h]; simp
  · rw [List.mem_singleton.1 h]; simp
  · rw [aux _ _ _ h]; simp
  · rcases List.mem_cons.1 h with h | h
    · rw [h]; simp
    · rw [List.mem_singleton.1 h]; simp

theorem setitem_id_lower (d : Items Str) (k v : Str) (h : ∀ kv ∈ d, lower kv.1 = lower k → kv.1 = k) :
    setitem id d k v = setitem lower d k v := by
  have hdel : ∀ d : Items Str, (∀ kv ∈ d, lower kv.1 = lower k → kv.1 = k) → delall id d k = delall lower d k := by
    intro d hd
    unfold delall
    apply List.filter_congr
    intro kv hm
    simp only [id_eq, ne_eq, decide_not]
    congr 1
    exact decide_eq_decide.2 ⟨fun e => by rw [e], hd kv hm⟩
  induction d with
  | nil => rfl
  | cons x d ih =>
    obtain ⟨k', v'⟩ := x
    rw [setitem, setitem]
    have h0 := h (k', v') List.mem_cons_self
    have ht := fun kv hm => h kv (List.mem_cons_of_mem _ hm)
    by_cases hk : k' = k
    · rw [if_pos (show id k' = id k from hk), if_pos (by rw [hk]), hdel d ht]
    · rw [if_neg (show ¬ id k' = id k from hk), if_neg (fun e => hk (h0 e)), ih ht]

theorem getall_answer (c : Config) (origin : Str) (hs : Option Str) (x : Str) :
    getall lower (preflightAnswer c origin hs) x =
      if lower x = lower "Access-Control-Allow-Headers".toList ∧ hs.isSome ∧ c.allHeaders = true then
        [hs.getD []]
      else if lower x = lower acao ∧ validateOrigin c origin = true ∧ c.explicit = true then [origin]
      else getall lower (preflightHeaders c) x := by
  have n1 : ∀ k ∈ preflightNames, lower k = lower acao → k = acao := by decide
  have n2 : ∀ k ∈ preflightNames, lower k = lower "Access-Control-Allow-Headers".toList →
    k = "Access-Control-Allow-Headers".toList := by decide
  have base : ∀ y, getall lower (if validateOrigin c origin = true ∧ c.explicit = true then
      setitem id (preflightHeaders c) acao origin else preflightHeaders c) y =
      if lower y = lower acao ∧ validateOrigin c origin = true ∧ c.explicit = true then [origin]
      else getall lower (preflightHeaders c) y := by
    intro y
    by_cases hv : validateOrigin c origin = true ∧ c.explicit = true
    · rw [if_pos hv, setitem_id_lower _ _ _ (fun kv hm => n1 _ (preflightHeaders_names c kv hm)), getall_setitem]
      by_cases hy : lower y = lower acao
      · rw [if_pos hy, if_pos ⟨hy, hv⟩]
      · rw [if_neg hy, if_neg (fun e => hy e.1)]
    · rw [if_neg hv, if_neg (fun e => hv e.2)]
  have names : ∀ kv ∈ (if validateOrigin c origin = true ∧ c.explicit = true then
      setitem id (preflightHeaders c) acao origin else preflightHeaders c), kv.1 ∈ preflightNames := by
    intro kv hm
    by_cases hv : validateOrigin c origin = true ∧ c.explicit = true
    · rw [if_pos hv, mem_setitem] at hm
      rcases hm with rfl | ⟨hm, _⟩
      · unfold preflightNames; simp
      · exact preflightHeaders_names c kv hm
    · rw [if_neg hv] at hm; exact preflightHeaders_names c kv hm
  unfold preflightAnswer
  dsimp only
  generalize (if validateOrigin c origin = true ∧ c.explicit = true then
      setitem id (preflightHeaders c) acao origin else preflightHeaders c) = d at base names
  cases hs with
  | none =>
    rw [if_neg (fun e => by simp at e)]
    exact base x
  | some r =>
    dsimp only
    by_cases ha : c.allHeaders = true
    · rw [if_pos ha, setitem_id_lower _ _ _ (fun kv hm => n2 _ (names kv hm)), getall_setitem]
      by_cases hx : lower x = lower "Access-Control-Allow-Headers".toList
      · rw [if_pos hx, if_pos ⟨hx, rfl, ha⟩]; rfl
      · rw [if_neg hx, if_neg (fun e => hx e.1)]; exact base x
    · rw [if_neg ha, if_neg (fun e => ha e.2.2)]; exact base x

theorem getall_preflight_other (c : Config) (x : Str) (h : ∀ k ∈ preflightNames, lower k ≠ lower x) :
    getall lower (preflightHeaders c) x = [] := by
  rw [List.eq_nil_iff_forall_not_mem]
  intro v hv
  obtain ⟨k, hk, hm⟩ := (mem_getall _ _ _ _).1 hv
  exact h k (preflightHeaders_names c _ hm) hk

theorem getall_first (k v k' v' x : Str) (h : lower k = lower x) (h' : lower k' ≠ lower x) :
    getall lower [(k, v), (k', v')] x = [v] := by
  rw [getall_cons, getall_cons, getall_nil]
  dsimp only
  rw [if_pos h, if_neg h']

theorem getall_second (k v k' v' x : Str) (h : lower k ≠ lower x) (h' : lower k' = lower x) :
    getall lower [(k, v), (k', v')] x = [v'] := by
  rw [getall_cons, getall_cons, getall_nil]
  dsimp only
  rw [if_neg h, if_pos h']

theorem plainText_own (t : Str) (st : Nat) (c : Config) (origin : Str) (hs : Option Str) :
    getall lower (plainText t st (preflightAnswer c origin hs)).headers "Content-Length".toList =
      [Path.natToDec t.length] ∧
    getall lower (plainText t st (preflightAnswer c origin hs)).headers "Content-Type".toList =
      ["text/plain; charset=utf-8".toList] := by
  have key : ∀ x, lower x ≠ lower "Access-Control-Allow-Headers".toList → lower x ≠ lower acao →
      (∀ k ∈ preflightNames, lower k ≠ lower x) → getall lower (preflightAnswer c origin hs) x = [] := by
    intro x h1 h2 h3
    rw [getall_answer, if_neg (fun e => h1 e.1), if_neg (fun e => h2 e.1), getall_preflight_other c x h3]
  have e1 : lower "content-length".toList = lower "Content-Length".toList := by decide
  have e2 : lower "content-type".toList ≠ lower "Content-Length".toList := by decide
  have e3 : lower "content-length".toList ≠ lower "Content-Type".toList := by decide
  have e4 : lower "content-type".toList = lower "Content-Type".toList := by decide
  generalize preflightAnswer c origin hs = d at key
  have hp : (plainText t st d).headers = d ++ [("content-length".toList, Path.natToDec t.length),
    ("content-type".toList, "text/plain; charset=utf-8".toList)] := rfl
  rw [hp]
  generalize Path.natToDec t.length = n
  constructor
  · rw [getall_append, key _ (by decide) (by decide) (by decide), getall_first _ _ _ _ _ e1 e2, List.nil_append]
  · rw [getall_append, key _ (by decide) (by decide) (by decide), getall_second _ _ _ _ _ e3 e4, List.nil_append]

theorem preflight_headers (c : Config) (origin method : Str) (hs : Option Str) :
    ∃ t s, preflight c origin method hs = plainText t s (preflightAnswer c origin hs) := by
  unfold preflight
  split <;> exact ⟨_, _, rfl⟩

theorem preflightAnswer_spec (c : Config) (origin : Str) (hs : Option Str) :
    (¬ OriginAllowed c origin → ∀ o, ¬ Names (preflightAnswer c origin hs) o) ∧
    (∀ o, Names (preflightAnswer c origin hs) o → o ≠ "*".toList →
      origin = o ∧ OriginAllowed c o ∧ ("Vary".toList, "Origin".toList) ∈ preflightAnswer c origin hs) := by
  unfold preflightAnswer
  simp only
  generalize hb : (if validateOrigin c origin = true ∧ c.explicit = true then
    setitem id (preflightHeaders c) acao origin else preflightHeaders c) = base
  have h1 : ¬ OriginAllowed c origin → ∀ o, ¬ Names base o := by
    intro hn o
    rw [← validateOrigin_iff] at hn
    rw [← hb, if_neg (fun h => hn h.1), names_preflightHeaders]
    rintro ⟨h1, _⟩
    exact hn (by unfold validateOrigin; rw [if_pos h1])
  have h2 : ∀ o, Names base o → o ≠ "*".toList →
      origin = o ∧ OriginAllowed c o ∧ ("Vary".toList, "Origin".toList) ∈ base := by
    intro o hN hne
    by_cases hv : validateOrigin c origin = true ∧ c.explicit = true
    · rw [if_pos hv] at hb
      rw [← hb] at hN ⊢
      have := names_setitem_acao c origin o hN
      subst this
      exact ⟨rfl, (validateOrigin_iff c _).1 hv.1,
        setitem_keeps _ _ _ (by decide) (varies_preflightHeaders c hv.2)⟩
    · rw [if_neg hv] at hb
      rw [← hb, names_preflightHeaders] at hN
      exact absurd hN.2 hne
  cases hs with
  | none => exact ⟨h1, h2⟩
  | some r =>
    simp only
    by_cases ha : c.allHeaders = true
    · rw [if_pos ha]
      constructor
      · intro hn o; rw [names_setitem_other _ _ _ _ (by decide)]; exact h1 hn o
      · intro o hN hne
        rw [names_setitem_other _ _ _ _ (by decide)] at hN
        obtain ⟨e1, e2, e3⟩ := h2 o hN hne
        exact ⟨e1, e2, setitem_keeps _ _ _ (by decide) e3⟩
    · rw [if_neg ha]; exact ⟨h1, h2⟩

end Verif.Cors
