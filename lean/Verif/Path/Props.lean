import Verif.Path.ReverseLemmas

/-!
# Properties C01, C02 and C03
-/

namespace Verif.Path

open Verif Spec

/-! ## C01 Route path normalisation -/

/-- The stored path is in normal form. -/
theorem C01_clean_path_normal (s : Str) : Normal (cleanPath s) := cleanPath_normal s

example : cleanPath "users//list///".toList = "/users/list".toList := by decide

/-- Normalising again changes nothing. -/
theorem C01_clean_path_idempotent (s : Str) : cleanPath (cleanPath s) = cleanPath s :=
  cleanPath_of_normal _ (cleanPath_normal s)

/-- A path that is already in normal form is left alone. -/
theorem C01_normal_fixed (s : Str) (h : Normal s) : cleanPath s = s := cleanPath_of_normal s h

example : Normal "/users/list".toList := by
  have h : cleanPath "/users/list".toList = "/users/list".toList := by decide
  rw [← h]; exact C01_clean_path_normal _

/-- Normalisation keeps the non-empty segments, in order, and nothing else. -/
theorem C01_segments_kept (s : Str) :
    segments (cleanPath s) = segments s ∧ cleanPath s = '/' :: joinWith ['/'] (segments s) :=
  ⟨segments_cleanPath s, cleanPath_eq s⟩

/-- Joining fragments gives the normal form whose segments are those of the
fragments in order, which is also the normal form of their concatenation with
slashes in between. -/
theorem C01_join_paths (ps : List Str) :
    Normal (joinPaths ps) ∧ segments (joinPaths ps) = ps.flatMap segments ∧
      joinPaths ps = '/' :: joinWith ['/'] (ps.flatMap segments) := by
  refine ⟨cleanPath_normal _, ?_, ?_⟩
  · unfold joinPaths; rw [segments_cleanPath, segments_joinWith]
  · unfold joinPaths; rw [cleanPath_eq, segments_joinWith]

/-- Fragments may be normalised before they are joined. -/
theorem C01_join_clean (ps : List Str) : joinPaths (ps.map cleanPath) = joinPaths ps := by
  rw [(C01_join_paths _).2.2, (C01_join_paths ps).2.2]
  congr 2
  induction ps with
  | nil => rfl
  | cons p ps ih => simp [segments_cleanPath, ih]

example : joinPaths ["/api/".toList, "".toList, "//v1".toList, "users/".toList] = "/api/v1/users".toList := by
  decide

/-! ## C02 Path template matching -/

/-- The text of a well-formed template compiles to that template. -/
theorem C02_compile (t : Tmpl) (h : WellFormed t) : compile (tmplText t) = .ok t := compile_text t h

/-- `/users/{id:int}/x`. -/
def exUsers : Tmpl := ⟨"/users/".toList, [⟨"id".toList, .int, "/x".toList⟩]⟩

theorem exUsers_wf : WellFormed exUsers := by
  refine ⟨⟨by decide, by decide⟩, List.forall_mem_cons.2 ⟨?_, by simp⟩, by decide⟩
  exact ⟨⟨'i', ['d'], rfl, by decide, by decide⟩, by decide, by decide⟩

example : compile "/users/{id:int}/x".toList = .ok exUsers := C02_compile _ exUsers_wf

/-- A type that is not a known converter is refused. -/
theorem C02_unknown_type_refused (s : Str)
    (h : ∃ x ∈ (scan s.length [] s).2, Conv.ofName x.2.1 = none) :
    compile s = .error .unknownTransformer := by
  have key : ∀ l : List (Str × Str × Str), (∃ x ∈ l, Conv.ofName x.2.1 = none) → resolveParts l = none := by
    intro l
    induction l with
    | nil => simp
    | cons x xs ih =>
      rintro ⟨y, hy, hn⟩
      obtain ⟨n, ty, l⟩ := x
      rcases List.mem_cons.1 hy with e | e
      · subst e; simp only at hn; simp [resolveParts, hn]
      · simp [resolveParts, ih ⟨y, e, hn⟩]
  simp [compile, key _ h]

example : compile "/a/{x:nope}".toList = .error .unknownTransformer := by
  apply C02_unknown_type_refused; decide

/-- Whatever the matcher reports is a cut of the path into the template's literals
and one piece of the right language per parameter — possibly after dropping one
final newline, because of the `$` in the compiled expression. -/
theorem C02_match_sound (t : Tmpl) (s : Str) (vs : List (Str × Str)) (h : matchPath t s = some vs) :
    Reads t s vs ∨ ∃ s', s = s' ++ ['\n'] ∧ Reads t s' vs := by
  unfold matchPath at h
  split at h
  · rename_i hp
    split at h
    · rename_i hs; cases h
      exact .inl ⟨[], by simp [hs], by rw [hp]; exact .nil⟩
    · cases h
  · unfold matchRegex at h
    split at h
    · cases h
    · rename_i r hr
      rw [stripPrefix?_eq_some] at hr
      obtain ⟨s', e, h1, h2, h3⟩ := matchParts_sound _ _ _ h
      rcases h2 with rfl | rfl
      · left; exact ⟨r, hr, by rw [h1]; simpa using h3⟩
      · right; exact ⟨t.head ++ s', by rw [hr, h1]; simp, s', rfl, h3⟩

/-- Every path that can be cut is matched. -/
theorem C02_match_complete (t : Tmpl) (s : Str) (vs : List (Str × Str)) (h : Reads t s vs) :
    ∃ ws, matchPath t s = some ws := by
  have := matchPath_complete t s vs h
  exact Option.isSome_iff_exists.1 this

example : Reads exUsers "/users/42/x".toList [("id".toList, "42".toList)] :=
  ⟨"42/x".toList, by decide,
    .cons (p := ⟨"id".toList, .int, "/x".toList⟩) (v := "42".toList) (s := [])
      ⟨by decide, by unfold Digit; decide⟩ .nil⟩

/-- C02 for paths that do not end in a newline: a path is matched exactly when it
can be cut, and the reported parameters are the pieces of such a cut. -/
theorem C02_match_exact_partial (t : Tmpl) (s : Str) (hnl : ∀ a, s ≠ a ++ ['\n']) :
    ((∃ vs, matchPath t s = some vs) ↔ ∃ vs, Reads t s vs) ∧
      ∀ vs, matchPath t s = some vs → Reads t s vs :=
  ⟨⟨fun ⟨vs, h⟩ => ⟨vs, matchPath_exact t s hnl vs h⟩, fun ⟨vs, h⟩ => C02_match_complete t s vs h⟩,
    fun vs h => matchPath_exact t s hnl vs h⟩

example : ∀ a, "/users/42/x".toList ≠ a ++ ['\n'] := no_final_newline _ (by decide)

/-- A template without parameters matches its own text and nothing else. -/
theorem C02_static (head s : Str) : (matchPath ⟨head, []⟩ s = some [] ↔ s = head) ∧
    (matchPath ⟨head, []⟩ s = none ↔ s ≠ head) := by
  by_cases h : s = head <;> simp [matchPath, h]

/-- When parameters are separated by slashes the cut, hence the parameter values, is
determined by the path. -/
theorem C02_params_unique (t : Tmpl) (hs : Separated t.parts) (s : Str) (hnl : ∀ a, s ≠ a ++ ['\n'])
    (vs : List (Str × Str)) : matchPath t s = some vs ↔ Reads t s vs := by
  constructor
  · exact matchPath_exact t s hnl vs
  · intro h
    obtain ⟨ws, hw⟩ := C02_match_complete t s vs h
    rw [reads_unique t hs s vs ws h (matchPath_exact t s hnl ws hw)]
    exact hw

/-- `/users/{id:int}/files/{name}`. -/
def exFiles : Tmpl := ⟨"/users/".toList,
  [⟨"id".toList, .int, "/files/".toList⟩, ⟨"name".toList, .str, []⟩]⟩

example : Separated exFiles.parts := ⟨by decide, by decide, by decide, trivial⟩

/-- The values of the parameters after conversion: a match of a template whose
converters are not `datetime`, with integers of at most 4300 digits, never raises. -/
theorem C02_transform_partial (t : Tmpl) (s : Str) (vs : List (Str × Str)) (h : matchPath t s = some vs)
    (hdt : ∀ p ∈ t.parts, p.conv ≠ .datetime) (hlen : s.length ≤ 4300) :
    ∃ xs, search t s = .params xs ∧ xs.map (·.1) = t.parts.map (·.name) := by
  have hcut : ∃ r, r.length ≤ 4300 ∧ Cut t.parts r vs := by
    rcases C02_match_sound t s vs h with ⟨r, hr, hc⟩ | ⟨s', hs', r, hr, hc⟩
    · exact ⟨r, by have := congrArg List.length hr; simp at this; omega, hc⟩
    · exact ⟨r, by
        have h1 := congrArg List.length hr
        have h2 := congrArg List.length hs'
        simp at h1 h2; omega, hc⟩
  obtain ⟨r, hr, hc⟩ := hcut
  have key : ∀ (ps : List Part) (r : Str) (vs : List (Str × Str)), (∀ p ∈ ps, p.conv ≠ .datetime) →
      r.length ≤ 4300 → Cut ps r vs →
      ∃ xs, transformAll ps vs = some xs ∧ xs.map (·.1) = ps.map (·.name) := by
    intro ps r vs hdt hr hc
    induction hc with
    | nil => exact ⟨[], rfl, rfl⟩
    | @cons p ps v s vs hl hc ih =>
      rw [List.length_append, List.length_append] at hr
      obtain ⟨xs, hx1, hx2⟩ := ih (fun q hq => hdt q (by simp [hq])) (by omega)
      have hp := hdt p (by simp)
      have : ∃ x, p.conv.transform v = some x := by
        have hv : v.length ≤ 4300 := by omega
        generalize p.conv = c at hp
        cases c
        · exact ⟨_, rfl⟩
        · exact ⟨_, rfl⟩
        · exact ⟨_, if_pos hv⟩
        · exact ⟨_, rfl⟩
        · exact ⟨_, rfl⟩
        · exact absurd rfl hp
      obtain ⟨x, hx⟩ := this
      exact ⟨(p.name, x) :: xs, by simp [transformAll, hx, hx1], by simp [hx2]⟩
  obtain ⟨xs, hx1, hx2⟩ := key t.parts r vs hdt hr hc
  exact ⟨xs, by simp [search, h, hx1], hx2⟩

example : search exUsers "/users/42/x".toList = .params [("id".toList, .nat 42)] := by decide

/-- `/items/{n:int}`. -/
def exItems : Tmpl := ⟨"/items/".toList, [⟨"n".toList, .int, []⟩]⟩

/-- C02 is false as stated: `/items/{n:int}` matches a path with a final newline, which
cannot be cut. -/
theorem C02_newline_false :
    matchPath exItems "/items/5\n".toList = some [("n".toList, "5".toList)] ∧
      ¬ ∃ vs, Reads exItems "/items/5\n".toList vs := by
  refine ⟨by decide, ?_⟩
  rintro ⟨vs, r, hr, hc⟩
  have hr' : r = ['5', '\n'] := by
    have h0 : "/items/5\n".toList = "/items/".toList ++ ['5', '\n'] := by decide
    have : "/items/".toList ++ ['5', '\n'] = "/items/".toList ++ r := h0 ▸ hr
    exact (List.append_cancel_left this).symm
  subst hr'
  generalize hx : ['5', '\n'] = x at hc
  cases hc with
  | @cons _ _ v s vs hl hc =>
    cases hc
    simp at hx
    subst hx
    have := hl.2 '\n' (by simp)
    unfold Digit at this
    exact absurd this (by decide)

/-- `/at/{t:datetime}`. -/
def exAt : Tmpl := ⟨"/at/".toList, [⟨"t".toList, .datetime, []⟩]⟩

/-- The expression of the `datetime` converter accepts texts its `transform` refuses, so
requesting such a path raises instead of matching or not matching: an impossible
date, a fraction, and even a further path segment. -/
theorem C02_datetime_raises :
    search exAt "/at/2024-13-01T00:00:00".toList = .raised ∧
    search exAt "/at/2024-01-01T00:00:00.5".toList = .raised ∧
    search exAt "/at/2024-01-01T00:00:00/5".toList = .raised := by
  decide

/-- C02, dates: a text that the expression of the `datetime` converter matches is turned into a value
exactly when it is a date and a time of day that exist. -/
theorem C02_datetime (s : Str) (h : InLang .datetime s) :
    (Conv.datetime.transform s = some (.obj .datetime s) ↔ RealTime s) ∧
    (Conv.datetime.transform s = none ↔ ¬ RealTime s) := by
  have hr := realTime_iff s
  unfold Conv.transform
  simp only
  by_cases hok : strptimeOk s = true
  · rw [if_pos hok]
    exact ⟨⟨fun _ => hr.2 ⟨h, hok⟩, fun _ => rfl⟩, ⟨fun hh => by (cases hh), fun hh => absurd (hr.2 ⟨h, hok⟩) hh⟩⟩
  · rw [if_neg hok]
    exact ⟨⟨fun hh => by (cases hh), fun hh => absurd (hr.1 hh).2 hok⟩, ⟨fun _ hh => hok (hr.1 hh).2, fun _ => rfl⟩⟩

example : RealTime "2024-02-29T23:59:59".toList ∧
    Conv.datetime.transform "2024-02-29T23:59:59".toList = some (.obj .datetime "2024-02-29T23:59:59".toList) ∧
    Conv.datetime.transform "2023-02-29T23:59:59".toList = none :=
  ⟨⟨2024, 2, 29, 23, 59, 59, by decide, by decide, by decide, ⟨29, by decide, by decide, by decide, by decide⟩,
    by decide, by decide, by decide⟩, by decide, by decide⟩

/-! ## C03 Reverse routing -/

/-- C03 for templates whose parameters are separated by slashes, values without an
opening brace, when putting the values in gives a path in normal form that does
not end in a newline: the built URL is exactly the filled-in template, and
requesting it gives back the same parameters, whatever the order in which the
values were supplied. -/
theorem C03_roundtrip_partial (t : Tmpl) (hw : WellFormed t) (hsep : Separated t.parts)
    (val : Str → Val) (hacc : ∀ p ∈ t.parts, Accepts p.conv (val p.name))
    (hbrace : ∀ p ∈ t.parts, '{' ∉ display (val p.name))
    (hnorm : Normal (fill t (fun n => display (val n))))
    (hnl : ∀ a, fill t (fun n => display (val n)) ≠ a ++ ['\n'])
    (keys : List Str) (hkeys : keys.Perm (t.parts.map (·.name))) :
    urlPathFor t (keys.map fun k => (k, val k)) = some (fill t (fun n => display (val n))) ∧
      search t (fill t (fun n => display (val n))) = .params (t.parts.map fun p => (p.name, val p.name)) := by
  have hnd : keys.Pairwise (· ≠ ·) := by
    have := hw.2.2
    exact (hkeys.pairwise_iff (fun h => Ne.symm h)).2 this
  constructor
  · unfold urlPathFor
    rw [if_pos]
    · unfold replaceParams
      have hloop := replaceLoop_mix t hw val hacc hbrace keys (fun k hk => hkeys.subset hk) hnd
        (fun _ => none) (by simp) (by simp)
      have hfmt : t.format = t.head ++ mixParts (fun _ => none) t.parts := by
        unfold Tmpl.format; rw [formatParts_eq]
      rw [hfmt, hloop]
      rw [mixParts_full t.parts (fun n => display (val n))]
      · simp only [Option.map_some]
        have : t.head ++ List.flatMap (fun p => display (val p.name) ++ p.lit) t.parts =
            fill t (fun n => display (val n)) := rfl
        rw [this, cleanPath_of_normal _ hnorm]
      · intro p hp
        have : p.name ∈ keys := hkeys.symm.subset (List.mem_map.2 ⟨p, hp, rfl⟩)
        simp [this]
    · refine ⟨?_, ?_⟩
      · intro kv hkv
        obtain ⟨k, hk, rfl⟩ := List.mem_map.1 hkv
        exact hkeys.subset hk
      · intro n hn
        have : n ∈ keys := hkeys.symm.subset hn
        simpa using this
  · have hreads : Reads t (fill t (fun n => display (val n)))
        (t.parts.map fun p => (p.name, display (val p.name))) :=
      ⟨_, rfl, cut_fill t.parts (fun n => display (val n)) (fun p hp => (accepts_spec _ _ (hacc p hp)).2.1)⟩
    have hm := (C02_params_unique t hsep _ hnl _).2 hreads
    unfold search
    rw [hm]
    simp only
    rw [transformAll_fill t.parts val hacc]

example : ∃ (val : Str → Val) (s : Str),
    s = "/users/7/files/a b".toList ∧
    urlPathFor exFiles (["name".toList, "id".toList].map fun k => (k, val k)) = some s ∧
    search exFiles s = .params (exFiles.parts.map fun p => (p.name, val p.name)) := by
  refine ⟨fun n => if n = "id".toList then .nat 7 else .text "a b".toList, _, rfl, ?_⟩
  have := C03_roundtrip_partial exFiles
    ⟨⟨by decide, by decide⟩, List.forall_mem_cons.2
      ⟨⟨⟨'i', ['d'], rfl, by decide, by decide⟩, by decide, by decide⟩, List.forall_mem_cons.2
      ⟨⟨⟨'n', "ame".toList, rfl, by decide, by decide⟩, by decide, by decide⟩, by simp⟩⟩, by decide⟩
    ⟨by decide, by decide, by decide, trivial⟩
    (fun n => if n = "id".toList then .nat 7 else .text "a b".toList)
    (List.forall_mem_cons.2 ⟨show (natToDec 7).length ≤ 4300 by decide, List.forall_mem_cons.2
      ⟨⟨by decide, by decide⟩, by simp⟩⟩)
    (by decide)
    (by
      have h : fill exFiles (fun n => display (if n = "id".toList then .nat 7 else .text "a b".toList)) =
          cleanPath "/users/7/files/a b".toList := by decide
      rw [h]; exact C01_clean_path_normal _)
    (no_final_newline _ (by decide))
    ["name".toList, "id".toList] (by decide)
  have h : fill exFiles (fun n => display (if n = "id".toList then .nat 7 else .text "a b".toList)) =
          "/users/7/files/a b".toList := by decide
  rw [h] at this
  exact this

/-- `/{a}/{b}`. -/
def exTwo : Tmpl := ⟨"/".toList, [⟨"a".toList, .str, "/".toList⟩, ⟨"b".toList, .str, []⟩]⟩
/-- `/f/{p:path}`. -/
def exPath : Tmpl := ⟨"/f/".toList, [⟨"p".toList, .path, []⟩]⟩
/-- `/{a}-{b}`. -/
def exDash : Tmpl := ⟨"/".toList, [⟨"a".toList, .str, "-".toList⟩, ⟨"b".toList, .str, []⟩]⟩

/-- C03 is false as stated: a value that looks like another placeholder is substituted
again; a double slash inside a `path` value is collapsed; an empty `path` value gives
a URL the route does not match; and two parameters in one segment may be cut
differently. -/
theorem C03_roundtrip_false :
    (∃ s, urlPathFor exTwo [("a".toList, .text "{b}".toList), ("b".toList, .text "x".toList)] = some s ∧
      search exTwo s = .params [("a".toList, .text "x".toList), ("b".toList, .text "x".toList)]) ∧
    (∃ s, urlPathFor exPath [("p".toList, .text "a//b".toList)] = some s ∧
      search exPath s = .params [("p".toList, .text "a/b".toList)]) ∧
    (∃ s, urlPathFor exPath [("p".toList, .text [])] = some s ∧ search exPath s = .none) ∧
    (∃ s, urlPathFor exDash [("a".toList, .text "x".toList), ("b".toList, .text "y-z".toList)] = some s ∧
      search exDash s = .params [("a".toList, .text "x-y".toList), ("b".toList, .text "z".toList)]) := by
  refine ⟨⟨"/x/x".toList, ?_, ?_⟩, ⟨"/f/a/b".toList, ?_, ?_⟩, ⟨"/f".toList, ?_, ?_⟩,
    ⟨"/x-y-z".toList, ?_, ?_⟩⟩ <;> decide

/-- A missing or unknown parameter name is refused. -/
theorem C03_wrong_names_refused (t : Tmpl) (vals : List (Str × Val))
    (h : (∃ kv ∈ vals, kv.1 ∉ t.parts.map (·.name)) ∨ (∃ n ∈ t.parts.map (·.name), n ∉ vals.map (·.1))) :
    urlPathFor t vals = none := by
  unfold urlPathFor
  rw [if_neg]
  rintro ⟨h1, h2⟩
  rcases h with ⟨kv, hm, hn⟩ | ⟨n, hm, hn⟩
  · exact hn (h1 kv hm)
  · exact hn (h2 n hm)

example : urlPathFor exTwo [("a".toList, .text "x".toList)] = none :=
  C03_wrong_names_refused _ _ (.inr ⟨"b".toList, by decide, by decide⟩)

end Verif.Path
