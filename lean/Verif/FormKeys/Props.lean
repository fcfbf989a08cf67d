import Verif.FormKeys.RoundTrip

/-!
# C78: the fields of a form become the nested value that their names describe
-/

namespace Verif.FormKeys

open Spec

variable {L M : Type}

/-! ## What is proved -/

/-- **C78.**  For every form whose keys are written as documented and do not contradict each other, in any
order of the fields: the value that is built has each field's text at the end of the way that its key
describes, and no other texts.

In full, this would hold of every form; C78_conflict_false, C78_order_false, C78_repeat_false and
C78_nested_false show what happens to the others. -/
theorem C78_leaves_partial (form : List (Str × L)) (ps : List (List Seg × L)) (h : Form form ps)
    (ha : AllApart ps) : ∃ d, expand form = some d ∧
      ∀ q y, Leads (.dict d) q (.leaf y) ↔ (q, y) ∈ ps := by
  obtain ⟨d, h1, h2⟩ := putAll_spec ps [] good_nil ha (form_ne h)
    (fun _ _ q y _ hq => absurd hq (get_empty q y))
  refine ⟨d, by rw [expand_form h (form_nodup h ha)]; exact h1, fun q y => ?_⟩
  constructor
  · intro hl
    rcases (h2 q y).mp (leads_get hl) with h | h
    · exact h
    · exact absurd h (get_empty q y)
  · intro hm
    exact get_leads q _ _ ((h2 q y).mpr (.inl hm))

/-- **C78, round trip.**  A nested value of texts, dictionaries and lists, written as a form, is read back as
the same value, order of keys included. -/
theorem C78_round_trip (d : List (Str × Val L)) (hd : Fits d) (form : List (Str × L))
    (h : Form form (dictFields d)) : expand form = some d := by
  rw [expand_form h (form_nodup h (dict_apart hd)), dict_back hd [] (fun _ _ h => nomatch h),
    List.nil_append]

/-- **C78, with JSON.**  What body inference reads has, at the end of each field's way, what the field's text
means, provided that no text begins or ends with white space (see C78_space_false). -/
theorem C78_body_partial (text : Str → M) (loads : Str → Option M) (form : List (Str × Str))
    (ps : List (List Seg × Str)) (h : Form form ps) (ha : AllApart ps) (ht : ∀ q s, (q, s) ∈ ps → Trimmed s) :
    ∃ d, formBody text loads form = some d ∧
      ∀ q m, Leads (.dict d) q (.leaf m) ↔ ∃ s, (q, s) ∈ ps ∧ Means text loads s m := by
  obtain ⟨d, h1, h2⟩ := C78_leaves_partial form ps h ha
  refine ⟨mapDict (parseText text loads) d, by rw [formBody, h1]; rfl, fun q m => ?_⟩
  have hg := get_map (parseText text loads) q (.dict d)
  rw [mapVal] at hg
  constructor
  · intro hl
    have hl := leads_get hl
    rw [hg] at hl
    cases hv : get (.dict d) q with
    | none => rw [hv] at hl; cases hl
    | some v =>
      rw [hv, Option.map_some] at hl
      cases v with
      | dict e => rw [mapVal] at hl; cases hl
      | list l => rw [mapVal] at hl; cases hl
      | leaf s =>
        rw [mapVal] at hl
        have hm := (h2 q s).mp (get_leads q _ _ hv)
        injection hl with hl
        injection hl with hl
        exact ⟨s, hm, (parse_means text loads (ht q s hm) m).mp hl⟩
  · rintro ⟨s, hm, hs⟩
    apply get_leads
    rw [hg, leads_get ((h2 q s).mpr hm), Option.map_some, mapVal,
      (parse_means text loads (ht q s hm) m).mpr hs]

/-! ## Examples -/

/-- `user.name=a&items[1].sku=b&items[0].sku=c`. -/
def exForm : List (Str × Str) :=
  [("user.name".toList, "a".toList), ("items[1].sku".toList, "b".toList), ("items[0].sku".toList, "c".toList)]

/-- The value. -/
example : expand exForm = some
    [("user".toList, .dict [("name".toList, .leaf "a".toList)]),
      ("items".toList, .list [.dict [("sku".toList, .leaf "c".toList)],
        .dict [("sku".toList, .leaf "b".toList)]])] := by
  with_unfolding_all rfl

/-- A name is plain. -/
theorem plain_of (k : Str) (h : k ≠ [] ∧ '.' ∉ k ∧ '[' ∉ k ∧ ']' ∉ k ∧ '\n' ∉ k) : Plain k := h

/-- The ways of the example. -/
def exPaths : List (List Seg × Str) :=
  [([.key "user".toList, .key "name".toList], "a".toList),
    ([.index "items".toList 1, .key "sku".toList], "b".toList),
    ([.index "items".toList 0, .key "sku".toList], "c".toList)]

example : Form exForm exPaths := by
  have k : ∀ s : Str, Plain s → Spells s [.key s] := fun s h => .one _ _ (.key s h)
  refine .cons _ _ _ _ _ (.more "user".toList "name".toList _ _ (.key _ (plain_of _ (by decide)))
    (k _ (plain_of _ (by decide)))) (.cons _ _ _ _ _ ?_ (.cons _ _ _ _ _ ?_ .nil))
  · exact .more "items[1]".toList "sku".toList _ _
      (.index "items".toList ['1'] 1 (plain_of _ (by decide)) (.one '1' (by decide)))
      (k _ (plain_of _ (by decide)))
  · exact .more "items[0]".toList "sku".toList _ _
      (.index "items".toList ['0'] 0 (plain_of _ (by decide)) (.one '0' (by decide)))
      (k _ (plain_of _ (by decide)))

example : AllApart exPaths := by
  refine .cons _ _ _ ?_ (.cons _ _ _ ?_ (.cons _ _ _ ?_ .nil))
  · intro q y hm
    rcases List.mem_cons.mp hm with e | hm
    · cases e; exact .name _ _ _ _ (by decide)
    · rw [List.mem_singleton] at hm; cases hm; exact .name _ _ _ _ (by decide)
  · intro q y hm
    rw [List.mem_singleton] at hm; cases hm; exact .index _ _ _ _ _ (by decide)
  · intro q y hm; cases hm

/-- A value that fits: `{"a": {"b": "x"}, "c": [{}, "y"]}`. -/
example : Fits [("a".toList, .dict [("b".toList, .leaf 'x')]),
    ("c".toList, .list [.dict [], .leaf 'y'])] :=
  .dict _ _ _ (by decide) (by simp) (.leaf _ _ _ (by decide) .nil)
    (.list _ _ _ (by decide) (.consDict _ _ .nil (.leaf _)) .nil)

example : dictFields [("a".toList, .dict [("b".toList, .leaf 'x')]),
    ("c".toList, .list [.dict [], .leaf 'y'])] =
    [([.key "a".toList, .key "b".toList], 'x'), ([.index "c".toList 1], 'y')] := by
  with_unfolding_all rfl

example : Trimmed "a b".toList :=
  ⟨fun c r h => (by cases h; rfl), fun c r h => (by
    have : ("a b".toList).getLast? = some c := by rw [h, List.getLast?_concat]
    cases this; rfl)⟩

/-! ## Where it fails -/

/-- **Contradicting fields.**  `a=1&a.b=2` loses the first text, `a.b=2&a=1` too, and nothing is reported. -/
theorem C78_conflict_false (x y : L) :
    expand [("a".toList, x), ("a.b".toList, y)] =
      some [("a".toList, .dict [("b".toList, .leaf y)])] ∧
    expand [("a.b".toList, y), ("a".toList, x)] = some [("a".toList, .leaf x)] := by
  constructor <;> with_unfolding_all rfl

/-- **Order.**  `items[0]=x&items[0].y=1` raises; the other way round a text is lost. -/
theorem C78_order_false (x y : L) :
    expand [("i[0]".toList, x), ("i[0].y".toList, y)] = none ∧
    expand [("i[0].y".toList, y), ("i[0]".toList, x)] = some [("i".toList, .list [.leaf x])] := by
  constructor <;> with_unfolding_all rfl

/-- **Repeated fields.**  Of several fields with one name, such as files of one upload, the last is left. -/
theorem C78_repeat_false (k : Str) (hk : Plain k) (x y : L) :
    expand [(k, x), (k, y)] = some [(k, .leaf y)] := by
  have h : aupdate ([] : List (Str × L)) [(k, x), (k, y)] = [(k, y)] := by
    simp [aupdate, aset]
  unfold expand
  rw [h, List.map_cons, List.map_nil, path_spells (.one k _ (.key k hk)), putAll, put]
  simp only
  rw [putAll]
  rfl

/-- **Lists of lists.**  `m[0][1]=x` is no item of a list in a list but an item of a list named `m[0]`. -/
theorem C78_nested_false (x : L) : expand [("m[0][1]".toList, x)] =
    some [("m[0]".toList, .list [.dict [], .leaf x])] := by
  with_unfolding_all rfl

/-- **Size.**  A short key builds a list as long as its number says: with `m` digits, of `10 ^ m` items.  So a
form of a few bytes takes any amount of memory. -/
theorem C78_size_false (x : L) (m : Nat) (hm : 0 < m) : ∃ (key : Str) (l : List (Val L)),
    key.length = m + 3 ∧ expand [(key, x)] = some [(['a'], .list l)] ∧ l.length = 10 ^ m := by
  have hd : ∀ m, 0 < m → Decimal (List.replicate m '9') (10 ^ m - 1) := by
    intro m hm
    induction m with
    | zero => omega
    | succ m ih =>
      by_cases h0 : m = 0
      · subst h0; exact .one '9' (by decide)
      · have := Decimal.more _ _ '9' (ih (by omega)) (by decide)
        rw [← List.replicate_succ'] at this
        have hp : 0 < 10 ^ m := Nat.pow_pos (by omega)
        have e : 10 * (10 ^ m - 1) + ('9'.toNat - '0'.toNat) = 10 ^ (m + 1) - 1 := by
          rw [Nat.pow_succ]
          show 10 * (10 ^ m - 1) + 9 = _
          omega
        rw [e] at this
        exact this
  have hs : Spells (['a'] ++ ['['] ++ List.replicate m '9' ++ [']']) [.index ['a'] (10 ^ m - 1)] :=
    .one _ _ (.index ['a'] _ _ (plain_of _ (by decide)) (hd m hm))
  refine ⟨['a'] ++ ['['] ++ List.replicate m '9' ++ [']'],
    (pad [] (10 ^ m - 1)).set (10 ^ m - 1) (.leaf x), ?_, ?_, ?_⟩
  · simp
  · rw [expand_form (.cons _ _ x _ _ hs .nil) (by simp), putAll, put]
    simp only
    rw [putAll]
    rfl
  · have hp : 0 < 10 ^ m := Nat.pow_pos (by omega)
    rw [List.length_set, pad, List.length_append, List.length_replicate, List.length_nil]
    omega

/-- **White space.**  A text loses the white space at its ends. -/
theorem C78_space_false (text : Str → M) (loads : Str → Option M) :
    formBody text loads [("note".toList, " a ".toList)] = some [("note".toList, .leaf (text "a".toList))] := by
  with_unfolding_all rfl

/-- **C78** (line feed): a line feed after the closing bracket changes nothing. -/
theorem C78_line (k ds : Str) (j : Str) (i : Nat) (h : seg (k ++ ['['] ++ ds ++ [']']) = .index j i) :
    seg (k ++ ['['] ++ ds ++ [']'] ++ ['\n']) = .index j i := by
  have h1 : dropLine (k ++ ['['] ++ ds ++ [']'] ++ ['\n']) = k ++ ['['] ++ ds ++ [']'] := by
    unfold dropLine
    simp
  have h2 : dropLine (k ++ ['['] ++ ds ++ [']']) = k ++ ['['] ++ ds ++ [']'] := by
    apply dropLine_same
    intro r h
    have := List.append_inj_right' h rfl
    simp at this
  have h3 : index? (k ++ ['['] ++ ds ++ [']'] ++ ['\n']) = index? (k ++ ['['] ++ ds ++ [']']) := by
    unfold index?
    rw [h1, h2]
  unfold seg at h ⊢
  rw [h3]
  cases h4 : index? (k ++ ['['] ++ ds ++ [']']) with
  | none => rw [h4] at h; cases h
  | some x => rw [h4] at h; exact h

example : seg "a[1]\n".toList = .index "a".toList 1 := by decide

end Verif.FormKeys
