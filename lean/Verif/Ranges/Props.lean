import Verif.Ranges.Lemmas

/-!
# Property C19
-/

namespace Verif.Ranges

open Verif Verif.Path Spec

theorem parse_cases (o : Opts) (units : List (Str × Int)) (h : Str) (size : Int) (rs : List Rng)
    (hp : parseRangeValue o units h = .ranges size rs) :
    ∃ max ds, aget units (splitUnit h).1 = some max ∧ ds ≠ [] ∧
      finish o max (loop o max 0 0 none [] ds) = .ranges size rs := by
  unfold parseRangeValue at hp
  split at hp
  · cases hp
  · split at hp
    · cases hp
    · rename_i max hm
      exact ⟨max, _, hm, splitOn_ne_nil _ _, hp⟩

/-- C19.  Whatever header is sent: ranges that are accepted lie in the resource, ascend and are
disjoint (and not even adjacent when merging), the reported size is their total length, there is at
least one, and not more than the limit. -/
theorem C19_valid (o : Opts) (ha : o.enforceAsc = true) (units : List (Str × Int)) (h : Str) (size : Int)
    (rs : List Rng) (hp : parseRangeValue o units h = .ranges size rs) :
    ∃ max, aget units (splitUnit h).1 = some max ∧ (∀ r ∈ rs, Within max r) ∧ Ascending rs ∧
      size = total rs ∧ (o.merge = true → rs.Pairwise fun a b => a.stop + 1 < b.start) ∧
      rs ≠ [] ∧ ∀ m, o.maxRanges = some m → rs.length ≤ m := by
  obtain ⟨max, ds, hm, hne, hf⟩ := parse_cases o units h size rs hp
  refine ⟨max, hm, ?_⟩
  cases hl : loop o max 0 0 none [] ds with
  | ignored => rw [hl] at hf; cases hf
  | notSatisfiable => rw [hl] at hf; cases hf
  | ranges size0 rs0 =>
    rw [hl] at hf
    simp only [finish, ha, if_true, Result.ranges.injEq] at hf
    obtain ⟨rfl, rfl⟩ := hf
    obtain ⟨h1, h2, h3, h4, h5⟩ := loop_good o max ds 0 0 none [] _ _ (fun _ => rfl) (good_empty o max)
      (by simp [close]) hl
    refine ⟨h1.within, h1.asc ha, h1.size, h1.apart ha, ?_, ?_⟩
    · intro e
      cases ds with
      | nil => exact hne rfl
      | cons d ds =>
        obtain ⟨r, hr⟩ := h4 d (by simp)
        have hw := ((checkRange_range max _ r).1 hr).2
        have := (h5 r.start).2 (.inr ⟨d, by simp, r, hr, by unfold Within at hw; omega, by
          unfold Within at hw; omega⟩)
        rw [e] at this
        exact covers_nil _ this
    · intro m hmr
      have := h3 m hmr hne
      omega

/-- C19, exactness for headers with elements `first-last` and `first-`: an ascending list of ranges
in the resource is accepted and the result covers exactly the requested positions.

The full statement would allow elements `-count` as well; that is refuted by
`C19_suffix_false`. -/
theorem C19_exact_partial (o : Opts) (max : Int) (items : List Item) (hne : items ≠ [])
    (hs : ∀ i ∈ items, i.Short) (hplain : ∀ i ∈ items, i.Plain)
    (hw : ∀ i ∈ items, Within max (i.denotes max)) (hasc : Ascending (items.map (Item.denotes max)))
    (hlim : ∀ m, o.maxRanges = some m → items.length ≤ m) (he : o.enforceAsc = true) :
    ∃ rs, parseRangeValue o [("bytes".toList, max)] (header items) =
        .ranges (total (items.map (Item.denotes max))) rs ∧
      ∀ x, Covers rs x ↔ Covers (items.map (Item.denotes max)) x := by
  have hread : ∀ i ∈ items, readAs max i = i.denotes max := by
    intro i hi
    have := hplain i hi
    cases i with
    | closed a b => rfl
    | tail a => rfl
    | suffix n => exact absurd this (by simp [Item.Plain])
  have hpr : ∀ i ∈ items, parseRange i.text max = .range (i.denotes max) := by
    intro i hi
    rw [parseRange_item max i (hs i hi), checkRange_range, hread i hi]
    exact ⟨rfl, hw i hi⟩
  rw [parse_header o max items hne]
  obtain ⟨size', rs, hl⟩ := loop_accepts o max (items.map fun i => (i.text, i.denotes max)) 0 0 none []
    (by
      intro p hp
      obtain ⟨i, hi, rfl⟩ := List.mem_map.1 hp
      exact hpr i hi)
    (by rw [List.map_map]; exact hasc)
    (by intro l hl; cases hl)
    (by intro m hm; have := hlim m hm; simp only [List.length_map]; omega)
  rw [List.map_map] at hl
  have hl' : loop o max 0 0 none [] (items.map Item.text) = .ranges size' rs := hl
  obtain ⟨h1, -, -, -, h5⟩ := loop_good o max _ 0 0 none [] _ _ (fun _ => rfl) (good_empty o max)
    (by simp [close]) hl'
  have hcov : ∀ x, Covers rs x ↔ Covers (items.map (Item.denotes max)) x := by
    intro x
    rw [h5]
    constructor
    · rintro (h | ⟨d, hd, r, hr, hx⟩)
      · exact absurd h (by simp [close, Covers])
      · obtain ⟨i, hi, rfl⟩ := List.mem_map.1 hd
        rw [hpr i hi] at hr
        injection hr with hr
        subst hr
        exact ⟨_, List.mem_map_of_mem hi, hx⟩
    · rintro ⟨r, hr, hx⟩
      obtain ⟨i, hi, rfl⟩ := List.mem_map.1 hr
      exact .inr ⟨_, List.mem_map_of_mem hi, _, hpr i hi, hx⟩
  -- the size: two disjoint descriptions of the same positions
  have hsize : ∀ (is : List Item) (c : Nat) (sz : Int) (la : Option Rng) (ac : List Rng) (sz' : Int)
      (rs' : List Rng), (∀ i ∈ is, parseRange i.text max = .range (i.denotes max)) →
      loop o max c sz la ac (is.map Item.text) = .ranges sz' rs' →
      sz' = sz + total (is.map (Item.denotes max)) := by
    intro is
    induction is with
    | nil =>
      intro c sz la ac sz' rs' _ h
      simp only [List.map_nil, loop, Result.ranges.injEq] at h
      simp only [List.map_nil, total]
      omega
    | cons i is ih =>
      intro c sz la ac sz' rs' hh h
      rw [List.map_cons, loop, hh i (by simp)] at h
      simp only at h
      split at h
      · cases h
      · split at h
        · cases h
        · have := ih _ _ _ _ _ _ (fun j hj => hh j (List.mem_cons_of_mem _ hj)) h
          rw [this, List.map_cons, total]
          omega
  have hsz := hsize items 0 0 none [] size' rs hpr hl'
  refine ⟨rs, ?_, hcov⟩
  rw [hl']
  simp only [finish, he, if_true, Result.ranges.injEq, and_true]
  omega

/-- C19, for every mode: when a header with elements `first-last` and `first-` is accepted, the result
covers exactly the requested positions. -/
theorem C19_cover_partial (o : Opts) (max : Int) (items : List Item) (hne : items ≠ [])
    (hs : ∀ i ∈ items, i.Short) (hplain : ∀ i ∈ items, i.Plain) (size : Int) (rs : List Rng)
    (hp : parseRangeValue o [("bytes".toList, max)] (header items) = .ranges size rs) (x : Int) :
    Covers rs x ↔ Covers (items.map (Item.denotes max)) x := by
  rw [parse_header o max items hne] at hp
  cases hl : loop o max 0 0 none [] (items.map Item.text) with
  | ignored => rw [hl] at hp; cases hp
  | notSatisfiable => rw [hl] at hp; cases hp
  | ranges size0 rs0 =>
    rw [hl] at hp
    obtain ⟨h1, -, -, h4, h5⟩ := loop_good o max _ 0 0 none [] _ _ (fun _ => rfl) (good_empty o max)
      (by simp [close]) hl
    have hpr : ∀ i ∈ items, ∀ r, parseRange i.text max = .range r → r = i.denotes max := by
      intro i hi r hr
      rw [parseRange_item max i (hs i hi), checkRange_range] at hr
      have := hplain i hi
      have h1 := hr.1
      injection h1 with h1
      rw [← h1]
      cases i with
      | closed a b => rfl
      | tail a => rfl
      | suffix n => exact absurd this (by simp [Item.Plain])
    have hcov0 : Covers rs0 x ↔ Covers (items.map (Item.denotes max)) x := by
      rw [h5]
      constructor
      · rintro (h | ⟨d, hd, r, hr, hx⟩)
        · exact absurd h (by simp [close, Covers])
        · obtain ⟨i, hi, rfl⟩ := List.mem_map.1 hd
          have := hpr i hi r hr
          subst this
          exact ⟨_, List.mem_map_of_mem hi, hx⟩
      · rintro ⟨r, hr, hx⟩
        obtain ⟨i, hi, rfl⟩ := List.mem_map.1 hr
        obtain ⟨r', hr'⟩ := h4 _ (List.mem_map_of_mem hi)
        have := hpr i hi r' hr'
        subst this
        exact .inr ⟨_, List.mem_map_of_mem hi, _, hr', hx⟩
    simp only [finish] at hp
    split at hp
    · simp only [Result.ranges.injEq] at hp
      rw [← hp.2]
      exact hcov0
    · simp only [Result.ranges.injEq] at hp
      rw [← hp.2]
      have := second_good o max (sortRngs rs0) 0 [] none 0 (fun _ => rfl)
        ⟨by simp [close], by simp [close], fun _ => rfl⟩
        (fun r hr => h1.within r ((mem_sortRngs r rs0).1 hr)) (sort_sorted rs0)
        (fun hn => absurd rfl hn) (by intro l hl; cases hl)
      rw [this.2 x, covers_sort, hcov0]
      constructor
      · rintro (h | h)
        · exact absurd h (by simp [close, Covers])
        · exact h
      · exact .inr

/-- C19 without the demand of ascending ranges: within the resource, and ascending and disjoint except
that the very last position may be listed again; the reported size is right when ranges are not
merged.  The full statement (ascending, size right) is refuted by `C19_unordered_false`. -/
theorem C19_unordered_partial (o : Opts) (ha : o.enforceAsc = false) (units : List (Str × Int)) (h : Str)
    (size : Int) (rs : List Rng) (hp : parseRangeValue o units h = .ranges size rs) :
    ∃ max, aget units (splitUnit h).1 = some max ∧ (∀ r ∈ rs, Within max r) ∧
      (rs.Pairwise fun a b => a.stop < b.start ∨ (a.stop = max ∧ b = ⟨max, max⟩)) ∧
      (o.merge = false → size = total rs) := by
  obtain ⟨max, ds, hm, hne, hf⟩ := parse_cases o units h size rs hp
  refine ⟨max, hm, ?_⟩
  cases hl : loop o max 0 0 none [] ds with
  | ignored => rw [hl] at hf; cases hf
  | notSatisfiable => rw [hl] at hf; cases hf
  | ranges size0 rs0 =>
    rw [hl] at hf
    simp only [finish, ha, Bool.false_eq_true, if_false, Result.ranges.injEq] at hf
    obtain ⟨hsz, hrs⟩ := hf
    subst hsz hrs
    obtain ⟨h1, -⟩ := loop_good o max ds 0 0 none [] _ _ (fun _ => rfl) (good_empty o max)
      (by simp [close]) hl
    have := (second_good o max (sortRngs rs0) 0 [] none 0 (fun _ => rfl)
        ⟨by simp [close], by simp [close], fun _ => rfl⟩
        (fun r hr => h1.within r ((mem_sortRngs r rs0).1 hr)) (sort_sorted rs0)
        (fun hn => absurd rfl hn) (by intro l hl; cases hl)).1
    exact ⟨this.within, this.asc, this.size⟩

/-- C19 fails for suffix ranges, for every resource and every count: `-n` is read as the last `n + 1`
positions. -/
theorem C19_suffix_false (max : Int) (n : Nat) (hn : (n : Int) ≤ max)
    (hs : (natToDec n).length ≤ 4300) :
    parseRangeValue {} [("bytes".toList, max)] (header [.suffix n]) =
      .ranges ((n : Int) + 1) [⟨max - n, max⟩] ∧
    ¬ Covers [Item.denotes max (.suffix n)] (max - n) := by
  refine ⟨?_, ?_⟩
  · rw [parse_header _ _ _ (by simp)]
    have hp : parseRange (Item.text (.suffix n)) max = .range ⟨max - n, max⟩ := by
      rw [parseRange_item max _ (by exact hs), checkRange_range]
      refine ⟨rfl, ?_⟩
      unfold Within
      simp only
      omega
    rw [List.map_cons, loop, hp]
    simp only [List.map_nil, tooMany, Bool.false_eq_true, if_false, pushRange, loop, finish, if_true,
      close, Option.toList_some, List.nil_append, Result.ranges.injEq, and_true]
    omega
  · rw [covers_single]
    simp only [Item.denotes]
    omega

/-- C19, unordered mode: the last byte twice, and a size that forgets merged ranges. -/
theorem C19_unordered_false :
    (∃ h rs size, parseRangeValue { enforceAsc := false } [("bytes".toList, 9)] h = .ranges size rs ∧
      ¬ Ascending rs) ∧
    (∃ h rs size, parseRangeValue { enforceAsc := false } [("bytes".toList, 9)] h = .ranges size rs ∧
      size ≠ total rs) := by
  refine ⟨⟨"bytes=0-9,8-9".toList, [⟨0, 9⟩, ⟨9, 9⟩], 11, by decide +kernel, ?_⟩,
    ⟨"bytes=5-9,0-4".toList, [⟨0, 9⟩], 5, by decide +kernel, by decide⟩⟩
  unfold Ascending
  decide

/-- A last position beyond the end is refused, not cut to the end of the resource as in RFC 9110. -/
theorem C19_beyond_end (o : Opts) (max : Int) (a b : Nat) (ha : a ≤ b) (hb : max < (b : Int))
    (hlim : ∀ m, o.maxRanges = some m → 1 ≤ m) (hs : (Item.closed a b).Short) :
    parseRangeValue o [("bytes".toList, max)] (header [.closed a b]) = .notSatisfiable := by
  rw [parse_header _ _ _ (by simp)]
  have hp : parseRange (Item.text (.closed a b)) max = .notSatisfiable := by
    rw [parseRange_item max _ hs]
    show (if (a : Int) > (b : Int) then Parsed.invalid else if (a : Int) < 0 then Parsed.invalid
      else if (a : Int) > max ∨ (b : Int) > max then Parsed.notSatisfiable else _) = _
    rw [if_neg (by omega), if_neg (by omega), if_pos (by omega)]
  have ht : tooMany o (0 + 1) = false := by
    unfold tooMany
    split
    · rename_i m hm
      have := hlim m hm
      simp; omega
    · rfl
  rw [List.map_cons, loop, hp, ht]
  rfl

/-- Instances of the hypotheses: two ranges of a resource of ten bytes, the second one open; a
suffix; unordered ranges. -/
example :
    (∀ i ∈ [Item.closed 0 3, Item.tail 7], Within 9 (i.denotes 9) ∧ i.Plain ∧ i.Short) ∧
    Ascending ([Item.closed 0 3, Item.tail 7].map (Item.denotes 9)) ∧
    header [Item.closed 0 3, Item.tail 7] = "bytes=0-3,7-".toList ∧
    parseRangeValue { maxRanges := some 5 } [("bytes".toList, 9)] "bytes=0-3,7-".toList =
      .ranges 7 [⟨0, 3⟩, ⟨7, 9⟩] ∧
    parseRangeValue {} [("bytes".toList, 9)] "bytes=-3".toList = .ranges 4 [⟨6, 9⟩] ∧
    parseRangeValue { enforceAsc := false, merge := false } [("bytes".toList, 9)]
      "bytes=5-9,0-4".toList = .ranges 10 [⟨0, 4⟩, ⟨5, 9⟩] := by
  refine ⟨?_, ?_, by decide +kernel, by decide +kernel, by decide +kernel, by decide +kernel⟩
  · intro i hi
    simp only [List.mem_cons, List.not_mem_nil, or_false] at hi
    rcases hi with rfl | rfl
    · exact ⟨by unfold Within; decide, trivial, by unfold Item.Short; decide⟩
    · exact ⟨by unfold Within; decide, trivial, by unfold Item.Short; decide⟩
  · unfold Ascending; decide

end Verif.Ranges
