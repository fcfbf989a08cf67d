import Verif.FormKeys.Lemmas

namespace Verif.FormKeys

open Spec

variable {L : Type}

/-! ## Dictionaries -/

theorem aset_aset {ν : Type} (d : List (Str × ν)) (k : Str) (v w : ν) :
    aset (aset d k v) k w = aset d k w := by
  induction d with
  | nil => simp [aset]
  | cons p d ih =>
    obtain ⟨a, b⟩ := p
    by_cases h : a = k
    · simp [aset, h]
    · simp [aset, h, ih]

theorem aget_absent {ν : Type} (d : List (Str × ν)) (k : Str) (h : k ∉ d.map Prod.fst) :
    aget d k = none := by
  induction d with
  | nil => rfl
  | cons p d ih =>
    obtain ⟨a, b⟩ := p
    rw [List.map_cons, List.mem_cons, not_or] at h
    rw [aget, if_neg (Ne.symm h.1), ih h.2]

theorem putAll_append : ∀ (a b : List (List Seg × L)) (d : List (Str × Val L)),
    putAll (a ++ b) d = (putAll a d).bind (putAll b)
  | [], b, d => rfl
  | (p, x) :: a, b, d => by
    rw [List.cons_append, putAll, putAll]
    cases put x p d with
    | none => rfl
    | some d' => exact putAll_append a b d'

theorem putAll_key (k : Str) : ∀ (fs : List (List Seg × L)) (acc : List (Str × Val L)), fs ≠ [] →
    (∀ f ∈ fs, f.1 ≠ []) → putAll (fs.map fun f => (Seg.key k :: f.1, f.2)) acc =
      (putAll fs (subDict acc k)).map fun e => aset acc k (.dict e)
  | [], _, h, _ => absurd rfl h
  | (p, x) :: fs, acc, _, hp => by
    obtain ⟨s, p, rfl⟩ := List.exists_cons_of_ne_nil (hp _ List.mem_cons_self)
    rw [List.map_cons, putAll, putAll, put_key_more]
    cases h : put x (s :: p) (subDict acc k) with
    | none => rfl
    | some e =>
      simp only [Option.map_some]
      cases fs with
      | nil => rfl
      | cons f fs =>
        rw [putAll_key k (f :: fs) _ (by simp) (fun f hf => hp f (List.mem_cons_of_mem _ hf))]
        have : subDict (aset acc k (.dict e)) k = e := by unfold subDict; rw [aget_aset_self]
        rw [this]
        congr 1
        funext e'
        exact aset_aset _ _ _ _

theorem pad_same (l : List (Val L)) (i : Nat) (h : i < l.length) : pad l i = l := by
  unfold pad
  rw [show i + 1 - l.length = 0 by omega]
  simp

theorem subList_set (acc : List (Str × Val L)) (k : Str) (l : List (Val L)) :
    subList (aset acc k (.list l)) k = l := by
  unfold subList; rw [aget_aset_self]

theorem putAll_index (k : Str) (i : Nat) : ∀ (fs : List (List Seg × L)) (acc : List (Str × Val L))
    (e0 : List (Str × Val L)), fs ≠ [] → (∀ f ∈ fs, f.1 ≠ []) →
    (pad (subList acc k) i)[i]? = some (.dict e0) →
    putAll (fs.map fun f => (Seg.index k i :: f.1, f.2)) acc =
      (putAll fs e0).map fun e => aset acc k (.list ((pad (subList acc k) i).set i (.dict e)))
  | [], _, _, h, _, _ => absurd rfl h
  | (p, x) :: fs, acc, e0, _, hp, h0 => by
    obtain ⟨s, p, rfl⟩ := List.exists_cons_of_ne_nil (hp _ List.mem_cons_self)
    rw [List.map_cons, putAll, putAll, put_index_more, h0]
    simp only
    cases h : put x (s :: p) e0 with
    | none => rfl
    | some e =>
      simp only [Option.map_some]
      cases fs with
      | nil => rfl
      | cons f fs =>
        have hlen : i < ((pad (subList acc k) i).set i (.dict e)).length := by
          rw [List.length_set]; exact pad_length _ _
        rw [putAll_index k i (f :: fs) _ e (by simp) (fun f hf => hp f (List.mem_cons_of_mem _ hf))]
        · rw [subList_set, pad_same _ _ hlen]
          congr 1
          funext e'
          rw [aset_aset, List.set_set]
        · rw [subList_set, pad_same _ _ hlen, List.getElem?_set_self (pad_length _ _)]

/-! ## Fields -/

theorem fields_ne (a : Seg) (v : Val L) : ∀ f ∈ fields a v, f.1 ≠ [] := by
  cases v with
  | leaf x => intro f hf; rw [fields, List.mem_singleton] at hf; rw [hf]; simp
  | dict d =>
    intro f hf
    rw [fields] at hf
    obtain ⟨g, _, e⟩ := List.mem_map.mp hf
    rw [← e]; simp
  | list l => intro f hf; rw [fields] at hf; cases hf

theorem listFields_ne (k : Str) : ∀ (l : List (Val L)) (i : Nat), ∀ f ∈ listFields k i l, f.1 ≠ []
  | [], _, f, hf => by rw [listFields] at hf; cases hf
  | v :: l, i, f, hf => by
    rw [listFields, List.mem_append] at hf
    rcases hf with hf | hf
    · exact fields_ne _ _ f hf
    · exact listFields_ne k l _ f hf

theorem dictFields_ne : ∀ (d : List (Str × Val L)), ∀ f ∈ dictFields d, f.1 ≠ []
  | [], f, hf => by rw [dictFields] at hf; cases hf
  | (k, .leaf x) :: d, f, hf => by
    rw [dictFields, List.mem_append] at hf
    rcases hf with hf | hf
    · exact fields_ne _ _ f hf
    · exact dictFields_ne d f hf
  | (k, .dict e) :: d, f, hf => by
    rw [dictFields, List.mem_append] at hf
    rcases hf with hf | hf
    · exact fields_ne _ _ f hf
    · exact dictFields_ne d f hf
  | (k, .list l) :: d, f, hf => by
    rw [dictFields, List.mem_append] at hf
    rcases hf with hf | hf
    · exact listFields_ne _ _ _ f hf
    · exact dictFields_ne d f hf

/-- The items before the index `i`. -/
def upTo (l : List (Val L)) (i : Nat) : List (Val L) := l ++ List.replicate (i - l.length) (.dict [])

theorem upTo_length (l : List (Val L)) (i : Nat) (h : l.length ≤ i) : (upTo l i).length = i := by
  unfold upTo; rw [List.length_append, List.length_replicate]; omega

theorem pad_upTo (l : List (Val L)) (i : Nat) (h : l.length ≤ i) : pad l i = upTo l i ++ [.dict []] := by
  unfold pad upTo
  rw [show i + 1 - l.length = (i - l.length) + 1 by omega, List.replicate_succ', List.append_assoc]

theorem upTo_succ (l : List (Val L)) (i : Nat) (h : l.length ≤ i) :
    upTo l (i + 1) = upTo l i ++ [.dict []] := by
  rw [← pad_upTo l i h]; rfl

theorem upTo_full (l : List (Val L)) (i : Nat) (h : l.length = i) : upTo l i = l := by
  unfold upTo; rw [h]; simp

theorem pad_set (l : List (Val L)) (i : Nat) (h : l.length ≤ i) (v : Val L) :
    (pad l i).set i v = upTo l i ++ [v] := by
  rw [pad_upTo l i h, List.set_append_right _ _ (by rw [upTo_length l i h]; exact Nat.le_refl _),
    upTo_length l i h, Nat.sub_self]
  rfl

theorem pad_last (l : List (Val L)) (i : Nat) (h : l.length ≤ i) : (pad l i)[i]? = some (.dict []) := by
  rw [pad_upTo l i h, List.getElem?_append_right (by rw [upTo_length l i h]; exact Nat.le_refl _),
    upTo_length l i h, Nat.sub_self]
  rfl

/-- A dictionary among the items of a list. -/
theorem slot_dict (k : Str) (i : Nat) (e : List (Str × Val L)) (acc : List (Str × Val L)) (hne : e ≠ [])
    (hl : (subList acc k).length ≤ i) (he : putAll (dictFields e) [] = some e) :
    putAll (fields (.index k i) (.dict e)) acc =
      some (aset acc k (.list (upTo (subList acc k) i ++ [.dict e]))) := by
  have hf : dictFields e ≠ [] := by
    intro h; rw [h, putAll] at he; cases he; exact hne rfl
  rw [fields, putAll_index k i _ acc [] hf (dictFields_ne e) (pad_last _ _ hl), he, Option.map_some,
    pad_set _ _ hl]

/-- A text among the items of a list. -/
theorem slot_leaf (k : Str) (i : Nat) (x : L) (acc : List (Str × Val L))
    (hl : (subList acc k).length ≤ i) :
    putAll (fields (.index k i) (.leaf x)) acc =
      some (aset acc k (.list (upTo (subList acc k) i ++ [.leaf x]))) := by
  rw [fields, putAll, put]
  simp only
  rw [putAll, pad_set _ _ hl]

theorem keys_append (acc : List (Str × Val L)) (k : Str) (v : Val L) (d : List (Str × Val L))
    (hk : k ∉ d.map Prod.fst) (h : ∀ k' ∈ ((k, v) :: d).map Prod.fst, k' ∉ acc.map Prod.fst) :
    ∀ k' ∈ d.map Prod.fst, k' ∉ (acc ++ [(k, v)]).map Prod.fst := by
  intro k' hk' hm
  rw [List.map_append, List.mem_append] at hm
  rcases hm with hm | hm
  · exact h k' (List.mem_cons_of_mem _ hk') hm
  · rw [List.map_cons, List.map_nil, List.mem_singleton] at hm
    rw [hm] at hk'
    exact hk hk'

mutual

theorem dict_back {d : List (Str × Val L)} (h : Fits d) (acc : List (Str × Val L))
    (hd : ∀ k ∈ d.map Prod.fst, k ∉ acc.map Prod.fst) : putAll (dictFields d) acc = some (acc ++ d) := by
  match h with
  | .nil => rw [dictFields, putAll, List.append_nil]
  | .leaf k x d hk h =>
    rw [dictFields, putAll_append, fields, putAll, put]
    simp only
    rw [putAll, aset_absent _ _ _ (hd k List.mem_cons_self), Option.bind_some,
      dict_back h _ (keys_append acc k _ d hk hd)]
    simp
  | .dict k e d hk hne he h =>
    have hb := dict_back he [] (fun _ _ h => nomatch h)
    rw [List.nil_append] at hb
    have hf : dictFields e ≠ [] := by
      intro h; rw [h, putAll] at hb; cases hb; exact hne rfl
    have hs : subDict acc k = [] := by
      unfold subDict; rw [aget_absent _ _ (hd k List.mem_cons_self)]
    rw [dictFields, putAll_append, fields, putAll_key k _ acc hf (dictFields_ne e), hs, hb,
      Option.map_some, aset_absent _ _ _ (hd k List.mem_cons_self), Option.bind_some,
      dict_back h _ (keys_append acc k _ d hk hd)]
    simp
  | .list k l d hk hl h =>
    have hs : subList acc k = [] := by
      unfold subList; rw [aget_absent _ _ (hd k List.mem_cons_self)]
    rw [dictFields, putAll_append, list_back hl k 0 acc (by rw [hs]; exact Nat.le_refl _), hs,
      upTo_full [] 0 rfl, List.nil_append, aset_absent _ _ _ (hd k List.mem_cons_self), Option.bind_some,
      dict_back h _ (keys_append acc k _ d hk hd)]
    simp

theorem list_back {l : List (Val L)} (h : FitsAll l) (k : Str) (i : Nat) (acc : List (Str × Val L))
    (hl : (subList acc k).length ≤ i) : putAll (listFields k i l) acc =
      some (aset acc k (.list (upTo (subList acc k) i ++ l))) := by
  match h with
  | .leaf x =>
    rw [listFields, putAll_append, slot_leaf k i x acc hl, Option.bind_some, listFields, putAll]
  | .dict e hne he =>
    have hb := dict_back he [] (fun _ _ h => nomatch h)
    rw [listFields, putAll_append, slot_dict k i e acc hne hl hb, Option.bind_some, listFields, putAll]
  | .consLeaf x l h =>
    have hlen : (upTo (subList acc k) i ++ [Val.leaf x]).length = i + 1 := by
      rw [List.length_append, upTo_length _ _ hl]; rfl
    rw [listFields, putAll_append, slot_leaf k i x acc hl, Option.bind_some,
      list_back h k (i + 1) _ (by rw [subList_set, hlen]; exact Nat.le_refl _), subList_set, aset_aset,
      upTo_full _ _ hlen]
    simp
  | .consDict e l he h =>
    by_cases hne : e = []
    · subst hne
      rw [listFields, fields, dictFields, List.map_nil, List.nil_append,
        list_back h k (i + 1) acc (by omega), upTo_succ _ _ hl]
      simp
    · have hb := dict_back he [] (fun _ _ h => nomatch h)
      have hlen : (upTo (subList acc k) i ++ [Val.dict e]).length = i + 1 := by
        rw [List.length_append, upTo_length _ _ hl]; rfl
      rw [listFields, putAll_append, slot_dict k i e acc hne hl hb, Option.bind_some,
        list_back h k (i + 1) _ (by rw [subList_set, hlen]; exact Nat.le_refl _), subList_set, aset_aset,
        upTo_full _ _ hlen]
      simp

end

/-! ## Fields of a value are apart -/

theorem allApart_append : ∀ {a b : List (List Seg × L)}, AllApart a → AllApart b →
    (∀ p x q y, (p, x) ∈ a → (q, y) ∈ b → Apart p q) → AllApart (a ++ b)
  | [], _, _, hb, _ => hb
  | (p, x) :: a, b, ha, hb, h => by
    cases ha with
    | cons _ _ _ hp ha =>
      refine .cons p x _ (fun q y hm => ?_)
        (allApart_append ha hb fun p' x' q y h1 h2 => h p' x' q y (List.mem_cons_of_mem _ h1) h2)
      rcases List.mem_append.mp hm with hm | hm
      · exact hp q y hm
      · exact h p x q y List.mem_cons_self hm

theorem allApart_cons (a : Seg) : ∀ {fs : List (List Seg × L)}, AllApart fs →
    AllApart (fs.map fun f => (a :: f.1, f.2))
  | [], _ => .nil
  | (p, x) :: fs, h => by
    cases h with
    | cons _ _ _ hp h =>
      refine .cons _ _ _ (fun q y hm => ?_) (allApart_cons a h)
      obtain ⟨⟨q', y'⟩, hm', e⟩ := List.mem_map.mp hm
      cases e
      exact .later a p q' (hp q' y' hm')

/-- The first step of a field for an entry or item. -/
theorem fields_head (a : Seg) (v : Val L) {p : List Seg} {x : L} (h : (p, x) ∈ fields a v) :
    ∃ r, p = a :: r := by
  cases v with
  | leaf y => rw [fields, List.mem_singleton] at h; cases h; exact ⟨_, rfl⟩
  | dict d =>
    rw [fields] at h
    obtain ⟨g, _, e⟩ := List.mem_map.mp h
    cases e
    exact ⟨_, rfl⟩
  | list l => rw [fields] at h; cases h

theorem listFields_head (k : Str) : ∀ (l : List (Val L)) (i : Nat) {p : List Seg} {x : L},
    (p, x) ∈ listFields k i l → ∃ j r, i ≤ j ∧ p = .index k j :: r
  | [], _, _, _, h => by rw [listFields] at h; cases h
  | v :: l, i, p, x, h => by
    rw [listFields, List.mem_append] at h
    rcases h with h | h
    · obtain ⟨r, e⟩ := fields_head _ _ h
      exact ⟨i, r, Nat.le_refl _, e⟩
    · obtain ⟨j, r, hj, e⟩ := listFields_head k l (i + 1) h
      exact ⟨j, r, by omega, e⟩

theorem dictFields_head : ∀ (d : List (Str × Val L)) {p : List Seg} {x : L}, (p, x) ∈ dictFields d →
    ∃ a r, p = a :: r ∧ Seg.name a ∈ d.map Prod.fst
  | [], _, _, h => by rw [dictFields] at h; cases h
  | (k, .leaf y) :: d, p, x, h => by
    rw [dictFields, List.mem_append] at h
    rcases h with h | h
    · obtain ⟨r, e⟩ := fields_head _ _ h
      exact ⟨_, r, e, List.mem_cons_self⟩
    · obtain ⟨a, r, e, hm⟩ := dictFields_head d h
      exact ⟨a, r, e, List.mem_cons_of_mem _ hm⟩
  | (k, .dict y) :: d, p, x, h => by
    rw [dictFields, List.mem_append] at h
    rcases h with h | h
    · obtain ⟨r, e⟩ := fields_head _ _ h
      exact ⟨_, r, e, List.mem_cons_self⟩
    · obtain ⟨a, r, e, hm⟩ := dictFields_head d h
      exact ⟨a, r, e, List.mem_cons_of_mem _ hm⟩
  | (k, .list y) :: d, p, x, h => by
    rw [dictFields, List.mem_append] at h
    rcases h with h | h
    · obtain ⟨j, r, _, e⟩ := listFields_head _ _ _ h
      exact ⟨_, r, e, List.mem_cons_self⟩
    · obtain ⟨a, r, e, hm⟩ := dictFields_head d h
      exact ⟨a, r, e, List.mem_cons_of_mem _ hm⟩

theorem head_apart {k : Str} {d : List (Str × Val L)} (hk : k ∉ d.map Prod.fst) {a : Seg}
    (ha : Seg.name a = k) {p q : List Seg} {x : L} (hp : ∃ r, p = a :: r) (hq : (q, x) ∈ dictFields d) :
    Apart p q := by
  obtain ⟨r, e⟩ := hp
  obtain ⟨b, r', e', hm⟩ := dictFields_head d hq
  rw [e, e']
  refine .name a b r r' fun h => hk ?_
  rw [← ha, h]
  exact hm

mutual

theorem dict_apart {d : List (Str × Val L)} (h : Fits d) : AllApart (dictFields d) := by
  match h with
  | .nil => rw [dictFields]; exact .nil
  | .leaf k x d hk h =>
    rw [dictFields]
    refine allApart_append ?_ (dict_apart h) fun p y q z h1 h2 =>
      head_apart hk (a := .key k) rfl (fields_head _ _ h1) h2
    rw [fields]
    exact .cons _ _ _ (fun _ _ h => nomatch h) .nil
  | .dict k e d hk _ he h =>
    rw [dictFields]
    refine allApart_append ?_ (dict_apart h) fun p y q z h1 h2 =>
      head_apart hk (a := .key k) rfl (fields_head _ _ h1) h2
    rw [fields]
    exact allApart_cons _ (dict_apart he)
  | .list k l d hk hl h =>
    rw [dictFields]
    refine allApart_append (list_apart hl k 0) (dict_apart h) fun p y q z h1 h2 => ?_
    obtain ⟨j, r, _, e⟩ := listFields_head _ _ _ h1
    exact head_apart hk (a := .index k j) rfl ⟨r, e⟩ h2

theorem list_apart {l : List (Val L)} (h : FitsAll l) (k : Str) (i : Nat) : AllApart (listFields k i l) := by
  have step : ∀ (v : Val L) (l : List (Val L)), AllApart (fields (.index k i) v) →
      AllApart (listFields k (i + 1) l) → AllApart (listFields k i (v :: l)) := by
    intro v l h1 h2
    rw [listFields]
    refine allApart_append h1 h2 fun p x q y h3 h4 => ?_
    obtain ⟨r, e⟩ := fields_head _ _ h3
    obtain ⟨j, r', hj, e'⟩ := listFields_head _ _ _ h4
    rw [e, e']
    exact .index k i j r r' (by omega)
  have hleaf : ∀ x : L, AllApart (fields (.index k i) (.leaf x)) := by
    intro x
    rw [fields]
    exact .cons _ _ _ (fun _ _ h => nomatch h) .nil
  match h with
  | .leaf x => exact step _ _ (hleaf x) (by rw [listFields]; exact .nil)
  | .dict e _ he =>
    exact step _ _ (by rw [fields]; exact allApart_cons _ (dict_apart he)) (by rw [listFields]; exact .nil)
  | .consLeaf x l h => exact step _ _ (hleaf x) (list_apart h k (i + 1))
  | .consDict e l he h =>
    exact step _ _ (by rw [fields]; exact allApart_cons _ (dict_apart he)) (list_apart h k (i + 1))

end

/-! ## Texts -/

theorem get_mapDict {M : Type} (f : L → M) (d : List (Str × Val L)) (k : Str) :
    aget (mapDict f d) k = (aget d k).map (mapVal f) := by
  induction d with
  | nil => rfl
  | cons p d ih =>
    obtain ⟨a, b⟩ := p
    rw [mapDict, aget, aget, ih]
    split <;> rfl

theorem get_mapList {M : Type} (f : L → M) : ∀ (l : List (Val L)) (i : Nat),
    (mapList f l)[i]? = (l[i]?).map (mapVal f)
  | [], i => by rw [mapList]; simp
  | v :: l, 0 => by rw [mapList]; rfl
  | v :: l, i + 1 => by rw [mapList, List.getElem?_cons_succ, List.getElem?_cons_succ, get_mapList f l i]

theorem get_map {M : Type} (f : L → M) : ∀ (p : List Seg) (v : Val L),
    get (mapVal f v) p = (get v p).map (mapVal f)
  | [], v => by rw [get_nil, get_nil]; rfl
  | a :: p, .leaf x => by rw [mapVal, get_leaf, get_leaf]; rfl
  | a :: p, .list l => by rw [mapVal, get_list, get_list]; rfl
  | .key k :: p, .dict d => by
    rw [mapVal, get_key, get_key, get_mapDict]
    cases aget d k with
    | none => rfl
    | some u => exact get_map f p u
  | .index k i :: p, .dict d => by
    rw [mapVal, get_index, get_index, get_mapDict]
    cases aget d k with
    | none => rfl
    | some u =>
      cases u with
      | leaf x => simp only [Option.map_some, mapVal]; rfl
      | dict e => simp only [Option.map_some, mapVal]; rfl
      | list l =>
        simp only [Option.map_some, mapVal, get_mapList]
        cases l[i]? with
        | none => rfl
        | some u => exact get_map f p u

variable {M : Type}

theorem parse_trimmed {s : Str} (h : Trimmed s) : strip isSpace s = s := by
  obtain ⟨h1, h2⟩ := h
  have hl : lstrip isSpace s = s := by
    unfold lstrip
    cases s with
    | nil => rfl
    | cons c r => rw [List.dropWhile_cons, h1 c r rfl]; rfl
  unfold strip
  rw [hl]
  unfold rstrip
  cases e : s.reverse with
  | nil =>
    have := congrArg List.reverse e
    rw [List.reverse_reverse] at this
    rw [this]; rfl
  | cons c r =>
    have hs := congrArg List.reverse e
    rw [List.reverse_reverse, List.reverse_cons] at hs
    rw [List.dropWhile_cons, h2 c _ hs, hs]
    simp

theorem looks_iff (s : Str) : (startsWith s ['{'] || startsWith s ['[']) = true ↔ LooksJson s := by
  unfold startsWith LooksJson
  cases s with
  | nil => simp
  | cons c r =>
    simp only [List.isPrefixOf, Bool.and_true, Bool.or_eq_true, beq_iff_eq,
      List.cons.injEq]
    constructor
    · rintro (h | h)
      · exact ⟨r, .inl ⟨h.symm, rfl⟩⟩
      · exact ⟨r, .inr ⟨h.symm, rfl⟩⟩
    · rintro ⟨r', ⟨h, _⟩ | ⟨h, _⟩⟩
      · exact .inl h.symm
      · exact .inr h.symm

theorem parse_means (text : Str → M) (loads : Str → Option M) {s : Str} (h : Trimmed s) (m : M) :
    parseText text loads s = m ↔ Means text loads s m := by
  unfold parseText
  simp only [parse_trimmed h]
  by_cases hj : LooksJson s
  · rw [if_pos ((looks_iff s).mpr hj)]
    cases hl : loads s with
    | none =>
      constructor
      · intro e; rw [← e]; exact .broken s hj hl
      · intro hm
        cases hm with
        | json _ h1 h2 => rw [hl] at h2; cases h2
        | broken => rfl
        | text h => exact absurd hj h
    | some w =>
      constructor
      · intro e; rw [← e]; exact .json s w hj hl
      · intro hm
        cases hm with
        | json _ h1 h2 => rw [hl] at h2; cases h2; rfl
        | broken h1 h2 => rw [hl] at h2; cases h2
        | text h => exact absurd hj h
  · rw [if_neg fun e => hj ((looks_iff s).mp e)]
    constructor
    · intro e; rw [← e]; exact .text s hj
    · intro hm
      cases hm with
      | json _ h1 h2 => exact absurd h1 hj
      | broken h1 h2 => exact absurd h1 hj
      | text h => rfl

end Verif.FormKeys
