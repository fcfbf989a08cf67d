import Verif.FileFlow.Spec
import Verif.FileResponse.Props
import Verif.StaticFiles.Lemmas

/-!
# Helper lemmas for C143
-/

namespace Verif.FileFlow

open Verif Verif.Path Verif.FileResponse Verif.FileResponse.Spec Verif.Ranges Verif.Ranges.Spec
open Verif.StaticFiles Spec

/-- A header with one element, when one range is allowed. -/
theorem oneRange (o : Opts) (max : Int) (i : Item) (r : Rng) (ho : o.maxRanges = some 1)
    (he : o.enforceAsc = true) (h : parseRange i.text max = .range r) :
    parseRangeValue o [("bytes".toList, max)] (header [i]) = .ranges (r.stop - r.start + 1) [r] := by
  rw [parse_header _ _ _ (by simp)]
  have ht : tooMany o (0 + 1) = false := by
    unfold tooMany
    rw [ho]
    rfl
  rw [List.map_cons, loop, h, ht]
  simp only [Bool.false_eq_true, if_false, List.map_nil, loop, pushRange, finish, he, if_true, close,
    Option.toList_some, List.nil_append, Result.ranges.injEq, and_true]
  omega

theorem oneInvalid (o : Opts) (max : Int) (i : Item) (h : parseRange i.text max = .invalid) :
    parseRangeValue o [("bytes".toList, max)] (header [i]) = .ignored := by
  rw [parse_header _ _ _ (by simp), List.map_cons, loop, h]
  split <;> rfl

theorem noComma (i : Item) : ',' ∉ header [i] := by
  unfold header
  simp only [List.map_cons, List.map_nil, joinWith]
  intro hc
  rcases List.mem_append.1 hc with h | h
  · revert h; decide
  · exact (item_chars i ',' h).2 rfl

/-- The rest of a file from a position inside it. -/
theorem call_rest (c : FileResponse.Conf) (hc : 0 < c.chunk) (ha : c.allowRange = true) (hb : c.boundary = .off)
    (f : Rng → Str) (file : Str) (req : Req) (hm : req.headerOnly = false)
    (hi : req.ifRange = [] ∨ req.ifRange = c.etag) (k : Nat) (hr : req.range = header [.tail k])
    (hs : (Item.tail k).Short) (hk : k < file.length) :
    ∃ bodies st, call c f (State.new c) file req =
        .sent (.start 206 ((file.length : Int) - 1 - k + 1) (some ⟨k, (file.length : Int) - 1⟩) false ::
          bodies) st ∧ bytes file bodies = file.drop k := by
  have hif : checkIfRange c req.ifRange = true := by
    unfold checkIfRange
    rcases hi with e | e <;> simp [e]
  have hp : parseRange (Item.text (.tail k)) ((file.length : Int) - 1) =
      .range ⟨k, (file.length : Int) - 1⟩ := by
    rw [parseRange_item _ _ hs, checkRange_range]
    refine ⟨rfl, ?_⟩
    unfold Within
    simp only
    omega
  have hcomma := noComma (.tail k)
  generalize hL : (file.length : Int) - 1 = L at *
  have hparse : parseRangeValue { maxRanges := some (if c.boundary = .off then 1 else 5) }
      [("bytes".toList, L)] req.range = .ranges (L - k + 1) [⟨k, L⟩] := by
    rw [hr, oneRange _ _ _ ⟨k, L⟩ (by rw [hb]; rfl) rfl hp]
  have hplan : plan c (announce file (State.new c)) req =
      (.ranges [⟨k, L⟩], ⟨206, some (L - k + 1), some ⟨k, L⟩, false⟩) := by
    rw [announce_new]
    unfold plan
    rw [if_pos ⟨hm, ha, hif⟩]
    unfold setRangeHeaders
    have : contentRanges c ⟨c.status, some file.length, none, false⟩ req.range =
        .ranges (L - k + 1) [⟨k, L⟩] := by
      unfold contentRanges
      simp only [State.length, Option.getD_some]
      rw [hL]
      exact hparse
    rw [this]
    simp only [setRanges]
    rw [if_neg (by simp), if_neg (by rw [hr]; simpa using hcomma), if_neg (by simp)]
    rfl
  have hcall : call c f (State.new c) file req =
      .sent (.start 206 (L - k + 1) (some ⟨k, L⟩) false ::
        sendRanges (if req.zerocopy then Msg.zerocopy else Msg.body) c.chunk none file 0 0 [⟨k, L⟩])
        ⟨206, some (L - k + 1), some ⟨k, L⟩, false⟩ := by
    unfold call
    rw [hplan]
    simp only [callWith, hm, Bool.false_eq_true, if_false, Outcome.sent.injEq, and_true]
    unfold sendBody
    rw [if_neg (by simp [Plan.isWhole])]
    have hsub : planSub f ⟨206, some (L - k + 1), some ⟨k, L⟩, false⟩ (.ranges [⟨k, L⟩]) = none := by
      simp [planSub]
    rw [hsub]
    exact congrArg _ (List.append_nil _)
  have := sendRanges_single _ (plainly_ite req.zerocopy) c.chunk hc file ⟨k, L⟩ (by simp)
    (by simp only; omega) (by simp only; omega)
  refine ⟨_, _, hcall, ?_⟩
  rw [this.2]
  unfold slice
  simp only [Int.toNat_natCast]
  apply List.take_of_length_le
  rw [List.length_drop]
  omega

/-- From the end on a request for the rest is read as no request for a range. -/
theorem call_beyond (c : FileResponse.Conf) (hc : 0 < c.chunk) (f : Rng → Str) (file : Str) (req : Req)
    (hm : req.headerOnly = false) (k : Nat) (hr : req.range = header [.tail k])
    (hs : (Item.tail k).Short) (hk : file.length ≤ k) :
    ∃ bodies st, call c f (State.new c) file req =
        .sent (.start c.status file.length none false :: bodies) st ∧ bytes file bodies = file := by
  have hp : parseRange (Item.text (.tail k)) ((file.length : Int) - 1) = .invalid := by
    rw [parseRange_item _ _ hs]
    have h : (readAs ((file.length : Int) - 1) (.tail k)).start >
        (readAs ((file.length : Int) - 1) (.tail k)).stop := by
      show (k : Int) > (file.length : Int) - 1
      omega
    unfold checkRange
    simp only [if_pos h]
  have hplan : plan c (announce file (State.new c)) req =
      plan c (announce file (State.new c)) { req with range := [] } := by
    unfold plan
    simp only
    split
    · rw [announce_new]
      have h1 : contentRanges c ⟨c.status, some file.length, none, false⟩ req.range = .ignored := by
        unfold contentRanges
        rw [hr]
        exact oneInvalid _ _ _ hp
      have h2 : contentRanges c ⟨c.status, some file.length, none, false⟩ [] = .ignored := rfl
      unfold setRangeHeaders
      rw [h1, h2]
    · rfl
  have hcall : call c f (State.new c) file req =
      call c f (State.new c) file { req with range := [] } := by
    unfold call
    rw [hplan]
    rfl
  obtain ⟨bodies, st, h1, -, h2⟩ := C20_whole c hc f file { req with range := [] } hm (.inl rfl)
  exact ⟨bodies, st, hcall.trans h1, h2⟩

/-! ## The test for changes -/

theorem strip_hex (t : Tools) (hx : Hex t) (s : Str) : strip isWeakMark (t.md5 s) = t.md5 s := by
  apply strip_id
  intro c hc
  obtain ⟨h1, h2, h3, -⟩ := (hx s).2 c hc
  simp [isWeakMark, h1, h2, h3]

/-- A tag alone is compared. -/
theorem byTag (t : Tools) (hx : Hex t) (s s' : Str) (lm : Option Str) :
    isNotModified t.parsedate (some (t.md5 s)) lm (some (t.md5 s')) none = decide (t.md5 s' = t.md5 s) := by
  unfold isNotModified
  simp only
  rw [splitOn_of_not_mem ',' (t.md5 s') (fun h => ((hx s').2 _ h).2.2.2 rfl)]
  simp only [List.map_cons, List.map_nil, strip_hex t hx]
  by_cases h : t.md5 s' = t.md5 s
  · simp [h]
  · have h' : ¬ t.md5 s = t.md5 s' := fun e => h e.symm
    simp [h, h']

theorem neither (t : Tools) (e lm : Option Str) : isNotModified t.parsedate e lm none none = false := rfl

/-- The answer to a style of question about a copy with the tag of one version and the date of
another one. -/
theorem byStyle (t : Tools) (hx : Hex t) (hd : Dated t) (s : Style) (v w : Version) (sec : Nat) (b : Str) :
    isNotModified t.parsedate (some (etag t w)) (some (lastModified t w))
        (ask s (some ⟨etag t v, t.formatdate sec, b⟩)).ifNoneMatch
        (ask s (some ⟨etag t v, t.formatdate sec, b⟩)).ifModifiedSince = true ↔
      (s ≠ .date ∧ etag t v = etag t w) ∨ (s ≠ .tag ∧ w.second ≤ sec) := by
  obtain ⟨date, h1, h2⟩ := hd
  have hdate : ∀ e, isNotModified t.parsedate e (some (lastModified t w)) none
      (some (t.formatdate sec)) = decide (w.second ≤ sec) := by
    intro e
    unfold isNotModified lastModified
    simp only
    rw [(h1 sec).1, (h1 w.second).1]
    simp only [Bool.false_or]
    rw [Bool.eq_iff_iff, tuple_order _ _ (h1 sec).2 (h1 w.second).2, h2]
    simp
  have htag := byTag t hx (w.mtime ++ '-' :: natToDec w.content.length)
    (v.mtime ++ '-' :: natToDec v.content.length) (some (lastModified t w))
  have hboth : ∀ a b, isNotModified t.parsedate (some (etag t w)) (some (lastModified t w)) (some a) (some b) =
      (isNotModified t.parsedate (some (etag t w)) (some (lastModified t w)) (some a) none ||
        isNotModified t.parsedate (some (etag t w)) (some (lastModified t w)) none (some b)) := by
    intro a b
    unfold isNotModified
    simp
  change isNotModified t.parsedate (some (etag t w)) _ (some (etag t v)) none = _ at htag
  cases s with
  | tag =>
    simp only [ask, reduceCtorEq, if_true, if_false]
    rw [htag]
    simp [etag]
  | date =>
    simp only [ask, reduceCtorEq, if_true, if_false]
    rw [hdate]
    simp
  | both =>
    simp only [ask, reduceCtorEq, if_false]
    rw [hboth, htag, hdate]
    simp [etag]

/-! ## One visit -/

/-- Without conditions, or when they do not hold, the copy is replaced. -/
theorem visit_sent (t : Tools) (hc : 0 < t.chunk) (old : Option Copy) (s : Style) (v : Version)
    (h : isNotModified t.parsedate (some (etag t v)) (some (lastModified t v)) (ask s old).ifNoneMatch
      (ask s old).ifModifiedSince = false) :
    visit t old (s, v) = some ⟨etag t v, lastModified t v, v.content⟩ := by
  have hr : (ask s old).range = [] := by cases old <;> rfl
  obtain ⟨ms, st, h1, -, h2⟩ := C20_whole (conf t v) hc (fun _ => []) v.content (fileReq t (ask s old))
    rfl (.inl hr)
  unfold visit
  simp only [answer, h, Bool.false_eq_true, if_false]
  rw [h1]
  simp only [arrived, conf, if_true, h2]

theorem visit_kept (t : Tools) (c : Copy) (s : Style) (v : Version)
    (h : isNotModified t.parsedate (some (etag t v)) (some (lastModified t v)) (ask s (some c)).ifNoneMatch
      (ask s (some c)).ifModifiedSince = true) :
    visit t (some c) (s, v) = some { c with tag := etag t v } := by
  unfold visit
  simp only [answer, h, if_true, Option.map_some]

/-- The first visit. -/
theorem visit_first (t : Tools) (hc : 0 < t.chunk) (s : Style) (v : Version) :
    visit t none (s, v) = some ⟨etag t v, lastModified t v, v.content⟩ :=
  visit_sent t hc none s v (neither t _ _)

/-! ## One attempt -/

theorem attempt_first (t : Tools) (hc : 0 < t.chunk) (d : Bool) (v : Version) (n : Nat) :
    attempt t d none (v, n) = some ⟨etag t v, lastModified t v, v.content.take n⟩ := by
  obtain ⟨ms, st, h1, -, h2⟩ := C20_whole (conf t v) hc (fun _ => []) v.content (fileReq t (more d none))
    rfl (.inl rfl)
  unfold attempt
  simp only [answer]
  rw [show isNotModified t.parsedate (some (etag t v)) (some (lastModified t v)) (more d none).ifNoneMatch
    (more d none).ifModifiedSince = false from rfl]
  simp only [Bool.false_eq_true, if_false]
  rw [h1]
  simp only [arrived, h2]

/-- A request for the rest of another version. -/
theorem attempt_other (t : Tools) (hc : 0 < t.chunk) (d : Bool) (p : FileFlow.Spec.Part) (v : Version) (n : Nat)
    (h0 : (if d then p.date else p.tag) ≠ []) (h : (if d then p.date else p.tag) ≠ etag t v) :
    attempt t d (some p) (v, n) = some ⟨etag t v, lastModified t v, v.content.take n⟩ := by
  obtain ⟨ms, st, h1, -, h2⟩ := C20_whole (conf t v) hc (fun _ => []) v.content
    (fileReq t (more d (some p))) rfl (.inr (.inr ⟨h0, h⟩))
  unfold attempt
  simp only [answer]
  rw [show isNotModified t.parsedate (some (etag t v)) (some (lastModified t v))
    (more d (some p)).ifNoneMatch (more d (some p)).ifModifiedSince = false from rfl]
  simp only [Bool.false_eq_true, if_false]
  rw [h1]
  simp only [arrived, h2]

/-- A request for the rest of the same version. -/
theorem attempt_rest (t : Tools) (hc : 0 < t.chunk) (p : FileFlow.Spec.Part) (v : Version) (n : Nat)
    (h : p.tag = etag t v) (hk : p.got.length < v.content.length) (hs : Short v) :
    attempt t false (some p) (v, n) =
      some { p with got := p.got ++ (v.content.drop p.got.length).take n } := by
  obtain ⟨ms, st, h1, h2⟩ := call_rest (conf t v) hc rfl rfl (fun _ => []) v.content
    (fileReq t (more false (some p))) rfl (.inr h) p.got.length rfl (hs _ (Nat.le_of_lt hk)) hk
  unfold attempt
  simp only [answer]
  rw [show isNotModified t.parsedate (some (etag t v)) (some (lastModified t v))
    (more false (some p)).ifNoneMatch (more false (some p)).ifModifiedSince = false from rfl]
  simp only [Bool.false_eq_true, if_false]
  rw [h1]
  simp only [arrived, h2, Option.map_some, Int.toNat_natCast, List.take_length]

/-- A request for more of a complete file. -/
theorem attempt_again (t : Tools) (hc : 0 < t.chunk) (d : Bool) (p : FileFlow.Spec.Part) (v : Version) (n : Nat)
    (hk : v.content.length ≤ p.got.length) (hs : (Item.tail p.got.length).Short) :
    attempt t d (some p) (v, n) = some ⟨etag t v, lastModified t v, v.content.take n⟩ := by
  obtain ⟨ms, st, h1, h2⟩ := call_beyond (conf t v) hc (fun _ => []) v.content
    (fileReq t (more d (some p))) rfl p.got.length rfl hs hk
  unfold attempt
  simp only [answer]
  rw [show isNotModified t.parsedate (some (etag t v)) (some (lastModified t v))
    (more d (some p)).ifNoneMatch (more d (some p)).ifModifiedSince = false from rfl]
  simp only [Bool.false_eq_true, if_false]
  rw [h1]
  simp only [arrived, h2]

theorem take_add_drop (l : Str) (k n : Nat) (h : k ≤ l.length) :
    l.take k ++ (l.drop (l.take k).length).take n = l.take (k + n) := by
  rw [List.length_take, Nat.min_eq_left h, List.take_add]

/-- The text behind the last dash and the one before it. -/
theorem last_dash {x y u v : Str} (hy : '-' ∉ y) (hv : '-' ∉ v) (h : x ++ '-' :: y = u ++ '-' :: v) :
    x = u ∧ y = v := by
  rcases List.append_eq_append_iff.1 h with ⟨a, h1, h2⟩ | ⟨a, h1, h2⟩
  · cases a with
    | nil => simp at h1 h2; exact ⟨h1.symm, h2⟩
    | cons b bs =>
      simp only [List.cons_append, List.cons.injEq] at h2
      exact absurd (by rw [h2.2]; simp) hy
  · cases a with
    | nil => simp at h1 h2; exact ⟨h1, h2.symm⟩
    | cons b bs =>
      simp only [List.cons_append, List.cons.injEq] at h2
      exact absurd (by rw [h2.2]; simp) hv

/-! ## Runs -/

theorem tags_step (t : Tools) (hc : 0 < t.chunk) (hx : Hex t) (v w : Version) (d : Str)
    (hf : etag t v = etag t w → v.content = w.content) :
    ∃ d', visit t (some ⟨etag t v, d, v.content⟩) (.tag, w) = some ⟨etag t w, d', w.content⟩ := by
  have hb := byTag t hx (w.mtime ++ '-' :: natToDec w.content.length)
    (v.mtime ++ '-' :: natToDec v.content.length) (some (lastModified t w))
  by_cases he : etag t v = etag t w
  · refine ⟨d, ?_⟩
    have hb : _ = true := hb.trans (decide_eq_true he)
    rw [visit_kept t ⟨etag t v, d, v.content⟩ .tag w hb, hf he]
  · have hb : _ = false := hb.trans (decide_eq_false he)
    exact ⟨_, visit_sent t hc (some ⟨etag t v, d, v.content⟩) .tag w hb⟩

theorem tags_run (t : Tools) (hc : 0 < t.chunk) (hx : Hex t) (xs : List (Style × Version)) :
    ∀ (x : Style × Version) (v : Version) (d : Str), (∀ y ∈ xs ++ [x], y.1 = .tag) →
      Faithful t (v :: (xs ++ [x]).map (·.2)) →
      ∃ d', visits t (some ⟨etag t v, d, v.content⟩) (xs ++ [x]) = some ⟨etag t x.2, d', x.2.content⟩ := by
  induction xs with
  | nil =>
    intro x v d hs hf
    obtain ⟨s, w⟩ := x
    have : s = .tag := hs (s, w) (by simp)
    subst this
    exact tags_step t hc hx v w d (hf v (by simp) w (by simp))
  | cons y ys ih =>
    intro x v d hs hf
    obtain ⟨s, w⟩ := y
    have : s = .tag := hs (s, w) (by simp)
    subst this
    obtain ⟨d', h⟩ := tags_step t hc hx v w d (hf v (by simp) w (by simp))
    have := ih x w d' (fun y hy => hs y (by rw [List.cons_append]; exact List.mem_cons_of_mem _ hy))
      (fun a ha b hb => hf a (List.mem_cons_of_mem _ ha) b (List.mem_cons_of_mem _ hb))
    unfold visits at this ⊢
    rw [List.cons_append, List.foldl_cons, h]
    exact this

theorem dates_step (t : Tools) (hc : 0 < t.chunk) (hx : Hex t) (hd : Dated t) (s : Style) (v w : Version)
    (sec : Nat) (hsec : sec ≤ v.second) (hf : etag t v = etag t w → v.content = w.content)
    (ho : v.second < w.second ∨ v.second = w.second ∧ v.content = w.content) :
    ∃ sec', sec' ≤ w.second ∧
      visit t (some ⟨etag t v, t.formatdate sec, v.content⟩) (s, w) =
        some ⟨etag t w, t.formatdate sec', w.content⟩ := by
  have hb := byStyle t hx hd s v w sec v.content
  cases hm : StaticFiles.isNotModified t.parsedate (some (etag t w)) (some (lastModified t w))
      (ask s (some ⟨etag t v, t.formatdate sec, v.content⟩)).ifNoneMatch
      (ask s (some ⟨etag t v, t.formatdate sec, v.content⟩)).ifModifiedSince with
  | false => exact ⟨w.second, Nat.le_refl _, visit_sent t hc _ _ _ hm⟩
  | true =>
    refine ⟨sec, by omega, ?_⟩
    rw [visit_kept t _ _ _ hm]
    have : v.content = w.content := by
      rcases hb.1 hm with h | h
      · exact hf h.2
      · rcases ho with ho | ho
        · omega
        · exact ho.2
    rw [this]

theorem dates_run (t : Tools) (hc : 0 < t.chunk) (hx : Hex t) (hd : Dated t) (xs : List (Style × Version)) :
    ∀ (x : Style × Version) (v : Version) (sec : Nat), sec ≤ v.second →
      Faithful t (v :: (xs ++ [x]).map (·.2)) → InOrder (v :: (xs ++ [x]).map (·.2)) →
      ∃ d', visits t (some ⟨etag t v, t.formatdate sec, v.content⟩) (xs ++ [x]) =
        some ⟨etag t x.2, d', x.2.content⟩ := by
  induction xs with
  | nil =>
    intro x v sec h hf ho
    obtain ⟨sec', -, h⟩ := dates_step t hc hx hd x.1 v x.2 sec h (hf v (by simp) x.2 (by simp)) ho.1
    exact ⟨_, h⟩
  | cons y ys ih =>
    intro x v sec h hf ho
    obtain ⟨sec', h', h⟩ := dates_step t hc hx hd y.1 v y.2 sec h (hf v (by simp) y.2 (by simp)) ho.1
    have := ih x y.2 sec' h'
      (fun a ha b hb => hf a (List.mem_cons_of_mem _ ha) b (List.mem_cons_of_mem _ hb)) ho.2
    unfold visits at this ⊢
    rw [List.cons_append, List.foldl_cons, show y = (y.1, y.2) from rfl, h]
    exact this

theorem same_run (t : Tools) (hx : Hex t) (hd : Dated t) (w : Version) (sec : Nat) (b : Str)
    (hsec : w.second ≤ sec) (xs : List (Style × Version)) (hs : ∀ y ∈ xs, y.2 = w) :
    visits t (some ⟨etag t w, t.formatdate sec, b⟩) xs = some ⟨etag t w, t.formatdate sec, b⟩ := by
  induction xs with
  | nil => rfl
  | cons y ys ih =>
    have hy : y.2 = w := hs y (by simp)
    have : visit t (some ⟨etag t w, t.formatdate sec, b⟩) (y.1, w) =
        some ⟨etag t w, t.formatdate sec, b⟩ := by
      rw [visit_kept t _ _ _ ((byStyle t hx hd y.1 w w sec b).2 ?_)]
      cases y.1 <;> simp [hsec]
    have ih := ih fun z hz => hs z (List.mem_cons_of_mem _ hz)
    unfold visits at ih ⊢
    rw [List.foldl_cons, show y = (y.1, y.2) from rfl, hy, this]
    exact ih

theorem download_step (t : Tools) (hc : 0 < t.chunk) (hx : Hex t) (v w : Version) (n : Nat)
    (p : FileFlow.Spec.Part) (hp : p.tag = etag t v) (hg : p.got <+: v.content) (hv : Short w)
    (hf : etag t v = etag t w → v.content = w.content) :
    ∃ q, attempt t false (some p) (w, n) = some q ∧ q.tag = etag t w ∧ q.got <+: w.content := by
  by_cases he : etag t v = etag t w
  · have hg : p.got <+: w.content := hf he ▸ hg
    by_cases hk : p.got.length < w.content.length
    · refine ⟨_, attempt_rest t hc p w n (hp.trans he) hk hv, hp.trans he, ?_⟩
      obtain ⟨r, hr⟩ := hg
      have : w.content.drop p.got.length = r := by rw [← hr, List.drop_left]
      refine ⟨r.drop n, ?_⟩
      simp only
      rw [this, List.append_assoc, List.take_append_drop, hr]
    · refine ⟨_, attempt_again t hc false p w n (by omega) (hv _ hg.length_le), rfl, List.take_prefix _ _⟩
  · refine ⟨_, attempt_other t hc false p w n ?_ ?_, rfl, List.take_prefix _ _⟩
    · rw [if_neg (by simp), hp]
      exact (hx _).1
    · rw [if_neg (by simp), hp]
      exact he

theorem download_run (t : Tools) (hc : 0 < t.chunk) (hx : Hex t) (xs : List (Version × Nat)) :
    ∀ (x : Version × Nat) (v : Version) (p : FileFlow.Spec.Part), p.tag = etag t v → p.got <+: v.content →
      (∀ y ∈ xs ++ [x], Short y.1) → Faithful t (v :: (xs ++ [x]).map (·.1)) →
      ∃ q, attempts t false (some p) (xs ++ [x]) = some q ∧ q.tag = etag t x.1 ∧ q.got <+: x.1.content := by
  induction xs with
  | nil =>
    intro x v p hp hg hs hf
    exact download_step t hc hx v x.1 x.2 p hp hg (hs x (by simp)) (hf v (by simp) x.1 (by simp))
  | cons y ys ih =>
    intro x v p hp hg hs hf
    obtain ⟨q, h1, h2, h3⟩ := download_step t hc hx v y.1 y.2 p hp hg (hs y (by simp))
      (hf v (by simp) y.1 (by simp))
    have := ih x y.1 q h2 h3 (fun z hz => hs z (by rw [List.cons_append]; exact List.mem_cons_of_mem _ hz))
      (fun a ha b hb => hf a (List.mem_cons_of_mem _ ha) b (List.mem_cons_of_mem _ hb))
    unfold attempts at this ⊢
    rw [List.cons_append, List.foldl_cons, show y = (y.1, y.2) from rfl, h1]
    exact this

theorem progress_run (t : Tools) (hc : 0 < t.chunk) (v : Version) (hs : Short v) (n : Nat) (ns : List Nat) :
    ∀ k, k + ns.sum < v.content.length →
      attempts t false (some ⟨etag t v, lastModified t v, v.content.take k⟩) ((ns ++ [n]).map fun m => (v, m)) =
        some ⟨etag t v, lastModified t v, v.content.take (k + ns.sum + n)⟩ := by
  have step : ∀ k m, k < v.content.length →
      attempt t false (some ⟨etag t v, lastModified t v, v.content.take k⟩) (v, m) =
        some ⟨etag t v, lastModified t v, v.content.take (k + m)⟩ := by
    intro k m hk
    rw [attempt_rest t hc _ v m rfl (by rw [List.length_take]; omega) hs]
    simp only
    rw [take_add_drop _ _ _ (Nat.le_of_lt hk)]
  induction ns with
  | nil =>
    intro k hk
    exact step k n (by simpa using hk)
  | cons m ms ih =>
    intro k hk
    rw [List.sum_cons] at hk
    have := ih (k + m) (by omega)
    unfold attempts at this ⊢
    rw [List.cons_append, List.map_cons, List.foldl_cons, step k m (by omega), this, List.sum_cons,
      Nat.add_assoc k m]

end Verif.FileFlow
