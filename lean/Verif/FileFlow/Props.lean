import Verif.FileFlow.Lemmas

/-!
# C143: a copy of a static file is the current file, and an interrupted download ends as one version
-/

namespace Verif.FileFlow.Props

open Verif Verif.Path Verif.FileFlow Verif.FileFlow.Spec

/-- Tools for the examples: a "digest" that only writes forbidden characters in another way, dates
written as the number of seconds. -/
def tools : Tools where
  md5 s := 'x' :: s.map fun c => if c = ' ' ∨ c = 'W' ∨ c = '/' ∨ c = ',' then '_' else c
  formatdate := natToDec
  parsedate s := some [decVal s, 0, 0, 0, 0, 0]
  chunk := 2
  pathsend := false
  zerocopy := false

theorem tools_hex : Hex tools := by
  intro s
  refine ⟨by simp [tools], ?_⟩
  intro c hc
  simp only [tools, List.mem_cons, List.mem_map] at hc
  rcases hc with h | ⟨x, -, h⟩
  · rw [h]; decide
  · split at h
    · rw [← h]; decide
    · rename_i hn
      rw [← h]
      simp only [not_or] at hn
      exact hn

theorem tools_dated : Dated tools := by
  refine ⟨fun s => ⟨s, 0, 0, 0, 0, 0⟩, ?_, ?_⟩
  · intro s
    refine ⟨?_, ?_⟩
    · show some [decVal (natToDec s), 0, 0, 0, 0, 0] = _
      rw [(natToDec_spec s).2]
      rfl
    · unfold StaticFiles.Spec.Date.Valid
      simp
  · intro s s'
    simp only [StaticFiles.Spec.Date.position]
    omega

/-- The first version of a file of the examples, … -/
def old : Version := ⟨"1.25".toList, 1, "aaaa".toList⟩

/-- … another one of the same second, … -/
def new : Version := ⟨"1.75".toList, 1, "bbbbb".toList⟩

/-- … a later one, … -/
def later : Version := ⟨"2.5".toList, 2, "cccccc".toList⟩

/-- … and one with the modification time and the size of the first. -/
def twin : Version := ⟨"1.25".toList, 1, "bbbb".toList⟩

/-! ## The tag -/

/-- **C143, what the tag tells.**  When different texts have different digests, two versions have the
same tag exactly when they have the same modification time, to the fraction, and the same size. -/
theorem C143_tag (t : Tools) (h : ∀ a b, t.md5 a = t.md5 b → a = b) (v w : Version) :
    etag t v = etag t w ↔ v.mtime = w.mtime ∧ v.content.length = w.content.length := by
  constructor
  · intro e
    have e := h _ _ e
    have hd : ∀ n, '-' ∉ natToDec n := fun n => (Ranges.numeral_props _ (natToDec_spec n).1).2.1
    obtain ⟨h1, h2⟩ := last_dash (hd _) (hd _) e
    refine ⟨h1, ?_⟩
    have := congrArg decVal h2
    rwa [(natToDec_spec _).2, (natToDec_spec _).2] at this
  · rintro ⟨h1, h2⟩
    unfold etag
    rw [h1, h2]

example : etag { tools with md5 := fun s => s } old = etag { tools with md5 := fun s => s } twin ∧
    (∀ a b, ({ tools with md5 := fun s => s } : Tools).md5 a =
      ({ tools with md5 := fun s => s } : Tools).md5 b → a = b) :=
  ⟨by decide +kernel, fun _ _ h => h⟩

/-! ## Copies -/

/-- **C143, asking with tags.**  However the file changes between the visits of a client that asks with
the tag alone, as long as different contents have different tags: after every visit the client has
the bytes, and the tag, of the current version. -/
theorem C143_tags (t : Tools) (hc : 0 < t.chunk) (hx : Hex t) (xs : List (Style × Version))
    (x : Style × Version) (hs : ∀ y ∈ xs ++ [x], y.1 = .tag) (hf : Faithful t ((xs ++ [x]).map (·.2))) :
    ∃ d, visits t none (xs ++ [x]) = some ⟨etag t x.2, d, x.2.content⟩ := by
  cases xs with
  | nil => exact ⟨_, visit_first t hc x.1 x.2⟩
  | cons y ys =>
    have := tags_run t hc hx ys x y.2 (lastModified t y.2)
      (fun z hz => hs z (by rw [List.cons_append]; exact List.mem_cons_of_mem _ hz)) hf
    unfold visits at this ⊢
    rw [List.cons_append, List.foldl_cons, show y = (y.1, y.2) from rfl, visit_first t hc]
    exact this

example : Faithful tools ([old, new, old, later]) ∧
    visits tools none [(.tag, old), (.tag, new), (.tag, old), (.tag, later)] =
      some ⟨etag tools later, "2".toList, "cccccc".toList⟩ := by
  unfold Faithful
  exact ⟨by decide +kernel, by decide +kernel⟩

/-- **C143, asking with dates or with both.**  The same for a client that asks in any way, when every
change of the file falls into a later second than the version before it.  Missing: changes within one
second and older dates (see `C143_stale`). -/
theorem C143_dates_partial (t : Tools) (hc : 0 < t.chunk) (hx : Hex t) (hd : Dated t)
    (xs : List (Style × Version)) (x : Style × Version) (hf : Faithful t ((xs ++ [x]).map (·.2)))
    (ho : InOrder ((xs ++ [x]).map (·.2))) :
    ∃ d, visits t none (xs ++ [x]) = some ⟨etag t x.2, d, x.2.content⟩ := by
  cases xs with
  | nil => exact ⟨_, visit_first t hc x.1 x.2⟩
  | cons y ys =>
    have := dates_run t hc hx hd ys x y.2 y.2.second (Nat.le_refl _) hf ho
    unfold visits at this ⊢
    rw [List.cons_append, List.foldl_cons, show y = (y.1, y.2) from rfl, visit_first t hc]
    exact this

example : Hex tools ∧ Dated tools ∧ Faithful tools [old, old, later] ∧ InOrder [old, old, later] ∧
    visits tools none [(.both, old), (.date, old), (.both, later)] =
      some ⟨etag tools later, "2".toList, "cccccc".toList⟩ := by
  refine ⟨tools_hex, tools_dated, ?_, ?_, by decide +kernel⟩
  · unfold Faithful; decide +kernel
  · exact ⟨.inr ⟨rfl, rfl⟩, .inl (by decide), trivial⟩

/-- **C143, a copy saves the transfer.**  While the file stays the same, every further question is
answered with 304. -/
theorem C143_saves (t : Tools) (hc : 0 < t.chunk) (hx : Hex t) (hd : Dated t) (v : Version)
    (xs : List (Style × Version)) (x : Style × Version) (hs : ∀ y ∈ x :: xs, y.2 = v) (s : Style) :
    answer t v (ask s (visits t none (x :: xs))) = .notModified (etag t v) := by
  have h : visits t none (x :: xs) = some ⟨etag t v, t.formatdate v.second, v.content⟩ := by
    have := same_run t hx hd v v.second v.content (Nat.le_refl _) xs
      fun y hy => hs y (List.mem_cons_of_mem _ hy)
    unfold visits at this ⊢
    rw [List.foldl_cons, show x = (x.1, x.2) from rfl, hs x (by simp), visit_first t hc]
    exact this
  rw [h]
  unfold answer
  rw [if_pos]
  apply (byStyle t hx hd s v v v.second v.content).2
  cases s <;> simp

example : visits tools none [(.tag, old), (.both, old), (.date, old)] =
      some ⟨etag tools old, "1".toList, "aaaa".toList⟩ ∧
    (ask .both (some ⟨etag tools old, "1".toList, "aaaa".toList⟩)).ifModifiedSince = some "1".toList := by
  exact ⟨by decide +kernel, by decide +kernel⟩

/-- **C143, stale copies.**  When a version is replaced by one that is not of a later second, a client
that asks with the date (and even one that also sends the tag, which does not match) keeps the bytes
of the old version under the tag of the new one; and however it asks from then on, it keeps them. -/
theorem C143_stale (t : Tools) (hc : 0 < t.chunk) (hx : Hex t) (hd : Dated t) (v w : Version)
    (hw : w.second ≤ v.second) (s0 s : Style) (hs : s ≠ .tag) (xs : List (Style × Version))
    (hxs : ∀ y ∈ xs, y.2 = w) :
    visits t none ((s0, v) :: (s, w) :: xs) = some ⟨etag t w, lastModified t v, v.content⟩ := by
  have h2 : visit t (some ⟨etag t v, t.formatdate v.second, v.content⟩) (s, w) =
      some ⟨etag t w, t.formatdate v.second, v.content⟩ :=
    visit_kept t _ _ _ ((byStyle t hx hd s v w v.second v.content).2 (.inr ⟨hs, hw⟩))
  have := same_run t hx hd w v.second v.content hw xs hxs
  unfold visits at this ⊢
  rw [List.foldl_cons, List.foldl_cons, visit_first t hc]
  unfold lastModified
  rw [h2]
  exact this

/-- **C143 is false for browsers**, which send both headers: after a change within one second the tag
does not match, and yet the old bytes are kept. -/
theorem C143_stale_false : ∃ (t : Tools) (v w : Version), 0 < t.chunk ∧ Hex t ∧ Dated t ∧
    Faithful t [v, w] ∧ etag t v ≠ etag t w ∧ v.content ≠ w.content ∧
    ∀ n, visits t none ((.both, v) :: (.both, w) :: List.replicate n (.tag, w)) =
      some ⟨etag t w, lastModified t v, v.content⟩ := by
  refine ⟨tools, old, new, by decide, tools_hex, tools_dated, ?_, by decide +kernel, by decide, ?_⟩
  · unfold Faithful; decide +kernel
  · intro n
    exact C143_stale tools (by decide) tools_hex tools_dated old new (by decide) _ _ (by decide) _
      fun y hy => by rw [List.eq_of_mem_replicate hy]

/-! ## Downloads -/

/-- **C143, an interrupted download.**  A download is cut off any number of times, after any number of
bytes, and the file changes in between; the client asks for the rest with the tag in `If-Range`.  As
long as different contents have different tags, what it holds is always the beginning of one version,
the one it asked last, under its tag: versions are never mixed. -/
theorem C143_download (t : Tools) (hc : 0 < t.chunk) (hx : Hex t) (xs : List (Version × Nat))
    (x : Version × Nat) (hs : ∀ y ∈ xs ++ [x], Short y.1) (hf : Faithful t ((xs ++ [x]).map (·.1))) :
    ∃ q, attempts t false none (xs ++ [x]) = some q ∧ q.tag = etag t x.1 ∧ q.got <+: x.1.content := by
  cases xs with
  | nil => exact ⟨_, attempt_first t hc false x.1 x.2, rfl, List.take_prefix _ _⟩
  | cons y ys =>
    have := download_run t hc hx ys x y.1 ⟨etag t y.1, lastModified t y.1, y.1.content.take y.2⟩ rfl
      (List.take_prefix _ _)
      (fun z hz => hs z (by rw [List.cons_append]; exact List.mem_cons_of_mem _ hz)) hf
    unfold attempts at this ⊢
    rw [List.cons_append, List.foldl_cons, show y = (y.1, y.2) from rfl, attempt_first t hc]
    exact this

/-- **C143, nothing is fetched twice.**  While the file stays the same and is not yet complete, every
attempt continues where the one before it was cut off. -/
theorem C143_progress (t : Tools) (hc : 0 < t.chunk) (v : Version) (hs : Short v) (ns : List Nat) (n : Nat)
    (hn : ns.sum < v.content.length) :
    attempts t false none ((ns ++ [n]).map fun m => (v, m)) =
      some ⟨etag t v, lastModified t v, v.content.take (ns.sum + n)⟩ := by
  cases ns with
  | nil =>
    rw [List.sum_nil, Nat.zero_add]
    exact attempt_first t hc false v n
  | cons m ms =>
    rw [List.sum_cons] at hn ⊢
    have := progress_run t hc v hs n ms m hn
    unfold attempts at this ⊢
    rw [List.cons_append, List.map_cons, List.foldl_cons, attempt_first t hc]
    exact this

theorem short_of_small (v : Version) (h : v.content.length < 10) : Short v := by
  intro k hk
  have : k < 10 := by omega
  have : ∀ k < 10, (natToDec k).length ≤ 4300 := by decide
  exact this k (by omega)

example : Short later ∧ Faithful tools [old, old, later, later, later] ∧
    attempts tools false none [(old, 1), (old, 2), (later, 3), (later, 0), (later, 9)] =
      some ⟨etag tools later, "2".toList, "cccccc".toList⟩ ∧
    attempts tools false none [(old, 1), (old, 2)] =
      some ⟨etag tools old, "1".toList, "aaa".toList⟩ := by
  refine ⟨short_of_small _ (by decide), ?_, by decide +kernel, by decide +kernel⟩
  unfold Faithful; decide +kernel

/-- **C143, a complete file is fetched again.**  The request for more of a file that is complete is not
refused (416) but answered with the whole file, so that a client that is cut off again has less than
before. -/
theorem C143_again_false : ∃ (t : Tools) (v : Version), 0 < t.chunk ∧ Hex t ∧ Short v ∧
    attempts t false none [(v, 4)] = some ⟨etag t v, lastModified t v, v.content⟩ ∧
    attempts t false none [(v, 4), (v, 1)] = some ⟨etag t v, lastModified t v, v.content.take 1⟩ ∧
    v.content.take 1 ≠ v.content :=
  ⟨tools, old, by decide, tools_hex, short_of_small _ (by decide), by decide +kernel, by decide +kernel,
    by decide⟩

/-- **C143, two versions mixed.**  A file that is replaced by one with the same modification time and
size has the same tag (`C143_tag`), and the download ends as a mixture of the two. -/
theorem C143_mixed_false : ∃ (t : Tools) (v w : Version), 0 < t.chunk ∧ Hex t ∧ Short v ∧ Short w ∧
    attempts t false none [(v, 2), (w, 4)] = some ⟨etag t w, lastModified t v, "aabb".toList⟩ ∧
    v.content ≠ "aabb".toList ∧ w.content ≠ "aabb".toList :=
  ⟨tools, old, twin, by decide, tools_hex, short_of_small _ (by decide), short_of_small _ (by decide),
    by decide +kernel, by decide, by decide⟩

/-- **C143, dates in `If-Range`.**  A client that sends the date it was given is never continued, though
the file stays the same: after every attempt it has what that attempt brought. -/
theorem C143_restart (t : Tools) (hc : 0 < t.chunk) (v : Version) (h0 : lastModified t v ≠ [])
    (he : lastModified t v ≠ etag t v) (ns : List Nat) (n : Nat) :
    attempts t true none ((ns ++ [n]).map fun m => (v, m)) =
      some ⟨etag t v, lastModified t v, v.content.take n⟩ := by
  have step : ∀ k m, attempt t true (some ⟨etag t v, lastModified t v, v.content.take k⟩) (v, m) =
      some ⟨etag t v, lastModified t v, v.content.take m⟩ :=
    fun k m => attempt_other t hc true _ v m h0 he
  have run : ∀ (ns : List Nat) k,
      attempts t true (some ⟨etag t v, lastModified t v, v.content.take k⟩) ((ns ++ [n]).map fun m => (v, m)) =
        some ⟨etag t v, lastModified t v, v.content.take n⟩ := by
    intro ns
    induction ns with
    | nil => exact fun k => step k n
    | cons m ms ih =>
      intro k
      have := ih m
      unfold attempts at this ⊢
      rw [List.cons_append, List.map_cons, List.foldl_cons, step k m, this]
  cases ns with
  | nil => exact attempt_first t hc true v n
  | cons m ms =>
    have := run ms m
    unfold attempts at this ⊢
    rw [List.cons_append, List.map_cons, List.foldl_cons, attempt_first t hc]
    exact this

/-- **C143 is false for dates in `If-Range`**: four attempts of one byte bring one byte, with tags they
bring the four. -/
theorem C143_restart_false : ∃ (t : Tools) (v : Version), 0 < t.chunk ∧ lastModified t v ≠ [] ∧
    lastModified t v ≠ etag t v ∧ v.content.length = 4 ∧
    attempts t true none [(v, 1), (v, 1), (v, 1), (v, 1)] =
      some ⟨etag t v, lastModified t v, v.content.take 1⟩ ∧
    attempts t false none [(v, 1), (v, 1), (v, 1), (v, 1)] =
      some ⟨etag t v, lastModified t v, v.content⟩ :=
  ⟨tools, old, by decide, by decide +kernel, by decide +kernel, by decide, by decide +kernel,
    by decide +kernel⟩

end Verif.FileFlow.Props
