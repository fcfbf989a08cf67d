import Verif.UrlQuery.Lemmas

/-!
# Property C23
-/

namespace Verif.UrlQuery

open Verif Verif.Url Verif.MultiDict Spec

/-- The rest of the URL.  For every URL text with a scheme and a netloc, replacing the query by
one made of byte pairs gives a URL with that query and the same scheme, netloc, path and
fragment. -/
theorem C23_rest_kept (ip6 : Str → Bool) (text : Str) (u : Split) (hu : mkURL ip6 text = some u)
    (hs : u.scheme ≠ []) (hn : u.netloc ≠ []) (ps : List (Str × Str)) (hps : BytePairs ps) :
    replaceQuery ip6 u (urlencode ps) = some { u with query := urlencode ps } := by
  unfold mkURL at hu
  split at hu
  · cases hu
  · rename_i u' hsplit
    split at hu
    · cases hu
    · rename_i hport
      injection hu with hu
      subst hu
      have hw := urlsplit_wf ip6 text u' hsplit hs hn
      obtain ⟨hq, cq⟩ := urlencode_clean ps hps
      have hw' : WF ip6 { u' with query := urlencode ps } :=
        ⟨hw.scheme, hw.netloc_ne, hw.netloc, hw.netlocOk, hw.path, hq, hw.cn, hw.cp, cq, hw.cf⟩
      unfold replaceQuery mkURL
      rw [urlsplit_geturl ip6 _ hw']
      simp only [hport]

/-- Non-trivial instance: credentials, IPv6 host, port, query and fragment. -/
example : mkURL (fun _ => true) "HTTP://u:p@[::1]:80/a?x=1#f".toList =
    some ⟨"http".toList, "u:p@[::1]:80".toList, "/a".toList, "x=1".toList, "f".toList⟩ := by decide +kernel

/-- C23 asks that the other pairs stay in order.  They are sorted instead. -/
theorem C23_order_false :
    includeQuery ["a".toList, "b".toList] "a=2&a=1".toList [("b".toList, "3".toList)] = "a=1&a=2&b=3".toList ∧
    ¬ Included (parseQsl true "a=2&a=1".toList) (parseQsl true "a=1&a=2&b=3".toList)
      [("b".toList, "3".toList)] := by
  refine ⟨by decide +kernel, ?_⟩
  rintro ⟨_, h⟩
  have := h "a".toList (by intro v hv; simp at hv)
  revert this; decide +kernel

/-- Including, without the order: whatever order Python gives the keys, each included key has exactly
the new value and every other key has its old values (sorted). -/
theorem C23_include_partial (query : Str) (kwargs : List (Str × Str)) (ks : List Str)
    (hq : Bytes query) (hkw : BytePairs kwargs) (hd : (kwargs.map (·.1)).Nodup)
    (hk : KeyOrder (update id (parseQsl true query) kwargs) ks) :
    (∀ k v, (k, v) ∈ kwargs → values (parseQsl true (includeQuery ks query kwargs)) k = [v]) ∧
    (∀ k, (∀ v, (k, v) ∉ kwargs) →
      List.Perm (values (parseQsl true (includeQuery ks query kwargs)) k)
        (values (parseQsl true query) k)) ∧
    (parseQsl true (includeQuery ks query kwargs)).Pairwise (fun a b => lePair a b = true) := by
  have hp1 := multiItems_perm ks _ hk
  have hp2 := (sortPairs_perm (multiItems id ks (update id (parseQsl true query) kwargs))).trans hp1
  have hb : BytePairs (sortPairs (multiItems id ks (update id (parseQsl true query) kwargs))) := by
    intro kv hkv
    rcases update_sub _ _ kv (hp2.mem_iff.1 hkv) with h | h
    · exact parseQsl_bytes true query hq kv h
    · exact hkw kv h
  have hround : parseQsl true (includeQuery ks query kwargs) =
      sortPairs (multiItems id ks (update id (parseQsl true query) kwargs)) :=
    parseQsl_urlencode true _ hb (.inl rfl)
  rw [hround]
  have hfold : ∀ (m : List (Str × Str)) (vs : List Str) (k : Str), (∀ v, (k, v) ∉ m) →
      m.foldl (fun vs kv => if id k = id kv.1 then [kv.2] else vs) vs = vs := by
    intro m
    induction m with
    | nil => intros; rfl
    | cons x m ih =>
      intro vs k hno
      rw [List.foldl_cons, if_neg, ih _ _ (fun v hv => hno v (List.mem_cons_of_mem _ hv))]
      intro e
      simp only [id_eq] at e
      exact hno x.2 (by rw [e]; simp)
  refine ⟨?_, ?_, sortPairs_pairwise _⟩
  · intro k v hkv
    have hperm := values_perm hp2 k
    rw [values_eq_getall (update id (parseQsl true query) kwargs), getall_update] at hperm
    have : kwargs.foldl (fun vs kv => if id k = id kv.1 then [kv.2] else vs)
        (getall id (parseQsl true query) k) = [v] := by
      generalize getall id (parseQsl true query) k = vs
      clear hk hp1 hp2 hb hround hperm hkw
      induction kwargs generalizing vs with
      | nil => cases hkv
      | cons x m ih =>
        rw [List.map_cons, List.nodup_cons] at hd
        rw [List.foldl_cons]
        rcases List.mem_cons.1 hkv with e | hm
        · rw [if_pos (by rw [← e])]
          rw [hfold m _ k, ← e]
          intro w hw
          exact hd.1 (by rw [← e]; exact List.mem_map.2 ⟨(k, w), hw, rfl⟩)
        · exact ih hd.2 hm _
    rw [this] at hperm
    exact List.perm_singleton.1 hperm
  · intro k hno
    have hperm := values_perm hp2 k
    rw [values_eq_getall (update id (parseQsl true query) kwargs), getall_update, hfold _ _ _ hno,
      ← values_eq_getall] at hperm
    exact hperm

/-- When no other key has two values the property holds in full. -/
theorem C23_include (query : Str) (kwargs : List (Str × Str)) (ks : List Str)
    (hq : Bytes query) (hkw : BytePairs kwargs) (hd : (kwargs.map (·.1)).Nodup)
    (hk : KeyOrder (update id (parseQsl true query) kwargs) ks)
    (hone : ∀ k, (∀ v, (k, v) ∉ kwargs) → (values (parseQsl true query) k).length ≤ 1) :
    Included (parseQsl true query) (parseQsl true (includeQuery ks query kwargs)) kwargs := by
  obtain ⟨h1, h2, _⟩ := C23_include_partial query kwargs ks hq hkw hd hk
  refine ⟨h1, ?_⟩
  intro k hno
  have hp := h2 k hno
  have hl := hone k hno
  generalize values (parseQsl true query) k = vs at hp hl
  match vs, hl with
  | [], _ => exact List.perm_nil.1 hp
  | [v], _ => exact List.perm_singleton.1 hp

/-- Non-trivial instance of the hypotheses. -/
example : KeyOrder (update id (parseQsl true "x=1&x=2".toList) [("a".toList, "b c".toList)])
    ["a".toList, "x".toList] ∧
    includeQuery ["a".toList, "x".toList] "x=1&x=2".toList [("a".toList, "b c".toList)] =
      "a=b+c&x=1&x=2".toList := by
  refine ⟨⟨by decide, ?_⟩, by decide +kernel⟩
  have : update id (parseQsl true "x=1&x=2".toList) [("a".toList, "b c".toList)] =
    [("x".toList, "1".toList), ("x".toList, "2".toList), ("a".toList, "b c".toList)] := by decide +kernel
  rw [this]
  intro k
  simp only [List.mem_cons, List.not_mem_nil, or_false, Prod.mk.injEq]
  constructor
  · rintro (h | h)
    · exact ⟨"b c".toList, .inr (.inr ⟨h, rfl⟩)⟩
    · exact ⟨"1".toList, .inl ⟨h, rfl⟩⟩
  · rintro ⟨v, (h | h | h)⟩ <;> simp [h.1]

/-- The text does not depend on the iteration order of Python's set of keys. -/
theorem C23_deterministic (query : Str) (kwargs : List (Str × Str)) (ks ks' : List Str)
    (hk : KeyOrder (update id (parseQsl true query) kwargs) ks)
    (hk' : KeyOrder (update id (parseQsl true query) kwargs) ks') :
    includeQuery ks query kwargs = includeQuery ks' query kwargs := by
  unfold includeQuery
  rw [sortPairs_congr ((multiItems_perm ks _ hk).trans (multiItems_perm ks' _ hk').symm)]

/-- C23 asks that a removed key is absent.  Only its first value is removed. -/
theorem C23_remove_false :
    removeQuery ["a".toList] "a=1&a=2".toList ["a".toList] = "a=2".toList ∧
    ¬ Removed (parseQsl true "a=1&a=2".toList) (parseQsl true "a=2".toList) ["a".toList] := by
  refine ⟨by decide +kernel, ?_⟩
  rintro ⟨h, _⟩
  have := h "a".toList (by simp)
  revert this; decide +kernel

/-- What removing does in general: a key loses as many of its values as it is named, the first
ones first; the values left are the same (sorted). -/
theorem C23_remove_partial (query : Str) (keys : List Str) (ks : List Str) (hq : Bytes query)
    (hk : KeyOrder (keys.foldl (pop id) (parseQsl true query)) ks) (k : Str) :
    List.Perm (values (parseQsl true (removeQuery ks query keys)) k)
      ((values (parseQsl true query) k).drop (keys.count k)) := by
  have hp2 := (sortPairs_perm (multiItems id ks (keys.foldl (pop id) (parseQsl true query)))).trans
    (multiItems_perm ks _ hk)
  have hb : BytePairs (sortPairs (multiItems id ks (keys.foldl (pop id) (parseQsl true query)))) := by
    intro kv hkv
    exact parseQsl_bytes true query hq kv (pops_sub _ _ kv (hp2.mem_iff.1 hkv))
  have hround : parseQsl true (removeQuery ks query keys) =
      sortPairs (multiItems id ks (keys.foldl (pop id) (parseQsl true query))) :=
    parseQsl_urlencode true _ hb (.inl rfl)
  rw [hround]
  have hperm := values_perm hp2 k
  rw [values_eq_getall (keys.foldl (pop id) (parseQsl true query)), getall_pops, ← values_eq_getall] at hperm
  exact hperm

/-- When no key of the query has two values, removing is exact. -/
theorem C23_remove (query : Str) (keys : List Str) (ks : List Str) (hq : Bytes query)
    (hk : KeyOrder (keys.foldl (pop id) (parseQsl true query)) ks)
    (hone : ∀ k, (values (parseQsl true query) k).length ≤ 1) :
    Removed (parseQsl true query) (parseQsl true (removeQuery ks query keys)) keys := by
  have h := C23_remove_partial query keys ks hq hk
  constructor
  · intro k hkm
    have hp := h k
    have hc : 0 < keys.count k := List.count_pos_iff.2 hkm
    rw [List.drop_eq_nil_of_le (by have := hone k; omega)] at hp
    exact List.perm_nil.1 hp
  · intro k hkm
    have hp := h k
    rw [List.count_eq_zero.2 hkm, List.drop_zero] at hp
    have hl := hone k
    generalize values (parseQsl true query) k = vs at hp hl
    match vs, hl with
    | [], _ => exact List.perm_nil.1 hp
    | [v], _ => exact List.perm_singleton.1 hp

/-- Non-trivial instance of the last hypothesis and the result. -/
example : (∀ k ∈ ["a".toList, "b".toList], (values (parseQsl true "b=1&a=2".toList) k).length ≤ 1) ∧
    removeQuery ["a".toList] "b=1&a=2".toList ["b".toList, "zz".toList] = "a=2".toList := by decide +kernel

/-- `replace_query_params` keeps no other pair: the new query has exactly the given pairs. -/
theorem C23_replace (kwargs : List (Str × Str)) (hkw : BytePairs kwargs) :
    parseQsl true (replaceParams kwargs) = kwargs := parseQsl_urlencode true kwargs hkw (.inl rfl)

/-- So, read as "replacing changes exactly the named keys", it is false. -/
theorem C23_replace_false :
    ¬ Included (parseQsl true "a=1&b=2".toList)
      (parseQsl true (replaceParams [("b".toList, "3".toList)])) [("b".toList, "3".toList)] := by
  rintro ⟨_, h⟩
  have := h "a".toList (by intro v hv; simp at hv)
  revert this; decide +kernel

/-- The round trip that `QueryParam` relies on: the pairs of any byte string can be encoded and
read back. -/
theorem C23_query_roundtrip (query : Str) (hq : Bytes query) :
    parseQsl true (urlencode (parseQsl true query)) = parseQsl true query :=
  parseQsl_urlencode true _ (parseQsl_bytes true query hq) (.inl rfl)

example : parseQsl true "a=%2B+b&c&=d&&e==".toList =
    [("a".toList, "+ b".toList), ("c".toList, []), ([], "d".toList), ("e".toList, "=".toList)] := by
  decide +kernel

end Verif.UrlQuery
