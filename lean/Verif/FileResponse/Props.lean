import Verif.FileResponse.Lemmas

/-!
# Property C20
-/

namespace Verif.FileResponse

open Verif Verif.Path Verif.Ranges Verif.Ranges.Spec Spec

/-- The announcement of a new response is the length of the file. -/
theorem announce_new (c : Conf) (file : Str) :
    announce file (State.new c) = ⟨c.status, some file.length, none, false⟩ := rfl

/-- What the decision about ranges can be for a new response. -/
theorem plan_cases (c : Conf) (file : Str) (req : Req) (pl : Plan) (st : State)
    (h : plan c (announce file (State.new c)) req = (pl, st)) :
    pl = .notSatisfiable ∨
    (pl = .whole ∧ st = ⟨c.status, some file.length, none, false⟩) ∨
    (∃ r, pl = .ranges [r] ∧ Within ((file.length : Int) - 1) r ∧
      st = ⟨206, some (r.stop - r.start + 1), some r, false⟩ ∧ c.allowRange = true ∧
      checkIfRange c req.ifRange = true ∧
      parseRangeValue { maxRanges := some (if c.boundary = .off then 1 else 5) }
        [("bytes".toList, (file.length : Int) - 1)] req.range = .ranges (r.stop - r.start + 1) [r]) ∨
    (∃ rs, pl = .ranges rs ∧ (∀ r ∈ rs, Within ((file.length : Int) - 1) r) ∧ Ascending rs ∧ rs ≠ [] ∧
      st = ⟨206, some (total rs), none, true⟩ ∧ ',' ∈ req.range ∧ c.boundary = .on) := by
  rw [announce_new] at h
  unfold plan at h
  split at h
  · rename_i hcond
    unfold setRangeHeaders at h
    split at h
    · injection h with h1 h2
      exact .inr (.inl ⟨h1.symm, h2.symm⟩)
    · injection h with h1 h2
      exact .inl h1.symm
    · rename_i size rs hp
      have hp' : parseRangeValue { maxRanges := some (if c.boundary = .off then 1 else 5) }
          [("bytes".toList, (file.length : Int) - 1)] req.range = .ranges size rs := hp
      obtain ⟨max, hmax, hw, hasc, hsize, hapart, hne, hlim⟩ := C19_valid _ rfl _ _ _ _ hp'
      have hmx : max = (file.length : Int) - 1 := by
        simp only [aget] at hmax
        split at hmax
        · injection hmax with e; exact e.symm
        · cases hmax
      subst hmx
      unfold setRanges at h
      rw [if_neg hne] at h
      by_cases hcm : ',' ∈ req.range
      · rw [if_pos (by simpa using hcm)] at h
        split at h
        · injection h with h1 h2
          exact .inr (.inl ⟨h1.symm, h2.symm⟩)
        · rename_i hb
          injection h with h1 h2
          refine .inr (.inr (.inr ⟨rs, h1.symm, hw, hasc, hne, ?_, hcm, ?_⟩))
          · rw [← h2, hsize]
          · cases hbo : c.boundary with
            | off => exact absurd hbo hb
            | on => rfl
      · rw [if_neg (by simpa using hcm)] at h
        -- without a comma there is one range
        have hone : rs.length = 1 := by
          obtain ⟨max2, ds, _, _, hf⟩ := parse_cases _ _ _ _ _ hp'
          have hds : ∃ d, splitOn ',' (splitUnit req.range).2 = [d] := by
            refine ⟨_, splitOn_of_not_mem _ _ ?_⟩
            intro hc
            apply hcm
            unfold splitUnit at hc
            split at hc
            · have := List.mem_of_mem_tail hc
              exact (List.dropWhile_sublist _).subset this
            · exact hc
          obtain ⟨d, hd⟩ := hds
          unfold parseRangeValue at hp'
          split at hp'
          · cases hp'
          · split at hp'
            · cases hp'
            · rename_i max3 hm3
              rw [hd] at hp'
              cases hl : loop { maxRanges := some (if c.boundary = .off then 1 else 5) } max3 0 0 none []
                  [d] with
              | ignored => rw [hl] at hp'; cases hp'
              | notSatisfiable => rw [hl] at hp'; cases hp'
              | ranges s0 r0 =>
                rw [hl] at hp'
                have h2 := (loop_good _ max3 [d] 0 0 none [] _ _ (fun _ => rfl) (good_empty _ max3)
                  (by simp [close]) hl).2.1
                simp only [finish, if_true, Result.ranges.injEq] at hp'
                rw [hp'.2] at h2
                have h3 : rs.length ≠ 0 := fun e => hne (List.length_eq_zero_iff.1 e)
                simp only [List.length_singleton] at h2
                omega
        match rs, hone with
        | [r], _ =>
          rw [if_neg (by simp)] at h
          injection h with h1 h2
          have hsz : size = r.stop - r.start + 1 := by rw [hsize]; simp [total]
          refine .inr (.inr (.inl ⟨r, h1.symm, hw r (by simp), ?_, hcond.2.1, hcond.2.2, ?_⟩))
          · rw [← h2, hsz]
            rfl
          · rw [hp', hsz]
  · injection h with h1 h2
    exact .inr (.inl ⟨h1.symm, h2.symm⟩)

theorem whole_slice (file : Str) : slice file ⟨0, (file.length : Int) - 1⟩ = file := by
  unfold slice
  simp only [Int.toNat_zero, List.drop_zero]
  rw [show ((file.length : Int) - 1 - 0 + 1).toNat = file.length by omega, List.take_length]

/-- C20.  A new file response that is not a multipart one sends exactly the announced bytes: either the
whole file with its length and the given status, or the one range named in the content range header
with status 206; the bytes sent are as many as announced, and exactly the last message says that
nothing more follows.  This holds for every way of sending.

The full statement has no condition on the request; requests for several ranges (when enabled)
and HEAD are refuted below. -/
theorem C20_exact_partial (c : Conf) (hc : 0 < c.chunk) (f : Rng → Str) (file : Str) (req : Req)
    (hm : req.headerOnly = false) (hb : c.boundary = .off ∨ ',' ∉ req.range) (msgs : List Msg) (st : State)
    (h : call c f (State.new c) file req = .sent msgs st) :
    ∃ status length range bodies, msgs = .start status length range false :: bodies ∧
      Finished bodies ∧ ((bytes file bodies).length : Int) = length ∧
      ((range = none ∧ status = c.status ∧ bytes file bodies = file) ∨
       (∃ r, range = some r ∧ status = 206 ∧ Within ((file.length : Int) - 1) r ∧
          bytes file bodies = slice file r ∧ c.allowRange = true ∧ checkIfRange c req.ifRange = true)) := by
  unfold call at h
  cases hp : plan c (announce file (State.new c)) req with
  | mk pl st' =>
  rw [hp] at h
  rcases plan_cases c file req pl st' hp with e | ⟨e, es⟩ | ⟨r, e, hw, es, ha, hi, -⟩ | ⟨rs, _, _, _, _, _, hcm, hon⟩
  · subst e; cases h
  · subst e es
    simp only [callWith, hm, Bool.false_eq_true, if_false, Outcome.sent.injEq] at h
    obtain ⟨rfl, rfl⟩ := h
    refine ⟨_, _, _, _, rfl, ?_⟩
    have hbody : Finished (sendBody c f ⟨c.status, some file.length, none, false⟩ file req .whole) ∧
        bytes file (sendBody c f ⟨c.status, some file.length, none, false⟩ file req .whole) = file := by
      unfold sendBody
      split
      · exact ⟨⟨[], _, rfl, rfl, by simp⟩, by simp [bytes, payload]⟩
      · simp only [planSub, planRanges, Option.isSome_none, Bool.false_eq_true, if_false, List.append_nil]
        have := sendRanges_single _ (plainly_ite req.zerocopy) c.chunk hc file
          ⟨0, (file.length : Int) - 1⟩ (by simp) (by simp) (by simp)
        rw [whole_slice] at this
        exact this
    refine ⟨hbody.1, ?_, .inl ⟨rfl, rfl, hbody.2⟩⟩
    rw [hbody.2]
    rfl
  · subst e es
    simp only [callWith, hm, Bool.false_eq_true, if_false, Outcome.sent.injEq] at h
    obtain ⟨rfl, rfl⟩ := h
    refine ⟨_, _, _, _, rfl, ?_⟩
    have hw' := hw
    unfold Within at hw
    have hbody : sendBody c f ⟨206, some (r.stop - r.start + 1), some r, false⟩ file req (.ranges [r]) =
        sendRanges (if req.zerocopy then Msg.zerocopy else Msg.body) c.chunk none file 0 0 [r] := by
      unfold sendBody
      rw [if_neg (by simp [Plan.isWhole])]
      have hsub : planSub f ⟨206, some (r.stop - r.start + 1), some r, false⟩ (.ranges [r]) = none := by
        simp [planSub]
      rw [hsub]
      exact List.append_nil _
    have := sendRanges_single _ (plainly_ite req.zerocopy) c.chunk hc file r hw.1 (by omega) hw.2.2
    rw [hbody]
    refine ⟨this.1, ?_, .inr ⟨r, rfl, rfl, hw', this.2, ha, hi⟩⟩
    rw [this.2, slice_length file r hw']
    simp only [State.length, Option.getD_some, sizeOf]
    omega
  · rcases hb with hb | hb
    · rw [hb] at hon; cases hon
    · exact absurd hcm hb

/-- C20, what is requested is what is sent: a valid range `first-last` is answered with status 206 and
exactly these bytes. -/
theorem C20_requested (c : Conf) (hc : 0 < c.chunk) (ha : c.allowRange = true) (f : Rng → Str) (file : Str)
    (req : Req) (hm : req.headerOnly = false) (hi : req.ifRange = [] ∨ req.ifRange = c.etag) (a b : Nat)
    (hr : req.range = header [.closed a b]) (hs : (Item.closed a b).Short) (hab : a ≤ b)
    (hbl : b < file.length) :
    ∃ bodies st, call c f (State.new c) file req =
        .sent (.start 206 ((b : Int) - a + 1) (some ⟨a, b⟩) false :: bodies) st ∧
      Finished bodies ∧ bytes file bodies = (file.drop a).take (b - a + 1) := by
  have hif : checkIfRange c req.ifRange = true := by
    unfold checkIfRange
    rcases hi with e | e <;> simp [e]
  have hparse : parseRangeValue { maxRanges := some (if c.boundary = .off then 1 else 5) }
      [("bytes".toList, (file.length : Int) - 1)] req.range = .ranges ((b : Int) - a + 1) [⟨a, b⟩] := by
    rw [hr, parse_header _ _ _ (by simp)]
    have hp : parseRange (Item.text (.closed a b)) ((file.length : Int) - 1) = .range ⟨a, b⟩ := by
      rw [parseRange_item _ _ hs, checkRange_range]
      refine ⟨rfl, ?_⟩
      unfold Within
      simp only
      omega
    rw [List.map_cons, loop, hp]
    have ht : tooMany { maxRanges := some (if c.boundary = .off then 1 else 5) } (0 + 1) = false := by
      unfold tooMany
      split
      · rename_i m hm'
        have : m = if c.boundary = .off then 1 else 5 := by injection hm' with e; exact e.symm
        subst this
        split <;> rfl
      · rfl
    rw [ht]
    simp only [Bool.false_eq_true, if_false, List.map_nil, loop, pushRange, finish, if_true, close,
      Option.toList_some, List.nil_append, Result.ranges.injEq, and_true]
    omega
  have hcomma : ',' ∉ req.range := by
    rw [hr]
    unfold header
    simp only [List.map_cons, List.map_nil, joinWith]
    intro hc
    rcases List.mem_append.1 hc with h | h
    · revert h; decide
    · exact (item_chars (.closed a b) ',' h).2 rfl
  have hplan : plan c (announce file (State.new c)) req =
      (.ranges [⟨a, b⟩], ⟨206, some ((b : Int) - a + 1), some ⟨a, b⟩, false⟩) := by
    rw [announce_new]
    unfold plan
    rw [if_pos ⟨hm, ha, hif⟩]
    unfold setRangeHeaders
    have : contentRanges c ⟨c.status, some file.length, none, false⟩ req.range =
        .ranges ((b : Int) - a + 1) [⟨a, b⟩] := hparse
    rw [this]
    simp only [setRanges]
    rw [if_neg (by simp), if_neg (by simpa using hcomma), if_neg (by simp)]
    rfl
  have hcall : call c f (State.new c) file req =
      .sent (.start 206 ((b : Int) - a + 1) (some ⟨a, b⟩) false ::
        sendRanges (if req.zerocopy then Msg.zerocopy else Msg.body) c.chunk none file 0 0 [⟨a, b⟩])
        ⟨206, some ((b : Int) - a + 1), some ⟨a, b⟩, false⟩ := by
    unfold call
    rw [hplan]
    simp only [callWith, hm, Bool.false_eq_true, if_false, Outcome.sent.injEq, and_true]
    unfold sendBody
    rw [if_neg (by simp [Plan.isWhole])]
    have hsub : planSub f ⟨206, some ((b : Int) - a + 1), some ⟨a, b⟩, false⟩ (.ranges [⟨a, b⟩]) = none := by
      simp [planSub]
    rw [hsub]
    exact congrArg _ (List.append_nil _)
  have := sendRanges_single _ (plainly_ite req.zerocopy) c.chunk hc file ⟨a, b⟩ (by simp) (by simp only; omega)
    (by simp only; omega)
  refine ⟨_, _, hcall, this.1, ?_⟩
  rw [this.2]
  unfold slice
  simp only [Int.toNat_natCast]
  congr 1
  omega

/-- C20: without a range header, or with an `If-Range` that is not the current entity tag, the whole
file is sent. -/
theorem C20_whole (c : Conf) (hc : 0 < c.chunk) (f : Rng → Str) (file : Str) (req : Req)
    (hm : req.headerOnly = false)
    (hr : req.range = [] ∨ c.allowRange = false ∨ (req.ifRange ≠ [] ∧ req.ifRange ≠ c.etag)) :
    ∃ bodies st, call c f (State.new c) file req =
        .sent (.start c.status file.length none false :: bodies) st ∧
      Finished bodies ∧ bytes file bodies = file := by
  have hplan : plan c (announce file (State.new c)) req =
      (.whole, ⟨c.status, some file.length, none, false⟩) := by
    rw [announce_new]
    unfold plan
    split
    · rename_i h
      rcases hr with e | e | e
      · unfold setRangeHeaders contentRanges parseRangeValue
        rw [e]
        rfl
      · rw [e] at h; simp at h
      · have := h.2.2
        unfold checkIfRange at this
        simp [e.1, e.2] at this
    · rfl
  have hcall : call c f (State.new c) file req =
      .sent (.start c.status file.length none false ::
        sendBody c f ⟨c.status, some file.length, none, false⟩ file req .whole)
        ⟨c.status, some file.length, none, false⟩ := by
    unfold call
    rw [hplan]
    simp [callWith, hm, State.length]
  have hbody : Finished (sendBody c f ⟨c.status, some file.length, none, false⟩ file req .whole) ∧
      bytes file (sendBody c f ⟨c.status, some file.length, none, false⟩ file req .whole) = file := by
    unfold sendBody
    split
    · exact ⟨⟨[], _, rfl, rfl, by simp⟩, by simp [bytes, payload]⟩
    · simp only [planSub, planRanges, Option.isSome_none, Bool.false_eq_true, if_false, List.append_nil]
      have := sendRanges_single _ (plainly_ite req.zerocopy) c.chunk hc file
        ⟨0, (file.length : Int) - 1⟩ (by simp) (by simp) (by simp)
      rw [whole_slice] at this
      exact this
  exact ⟨_, _, hcall, hbody.1, hbody.2⟩

/-- C20 for several ranges: the parts are the requested ranges in order, each after its subheader, and
exactly the last message says that nothing more follows; but the announced length counts only the
bytes of the file, so that it is wrong by the length of all subheaders. -/
theorem C20_multipart (c : Conf) (hc : 0 < c.chunk) (f : Rng → Str) (file : Str) (req : Req)
    (hm : req.headerOnly = false) (status : Nat) (length : Int) (range : Option Rng) (bodies : List Msg)
    (st : State) (h : call c f (State.new c) file req = .sent (.start status length range true :: bodies) st) :
    ∃ rs, rs ≠ [] ∧ (∀ r ∈ rs, Within ((file.length : Int) - 1) r) ∧ Ascending rs ∧ Finished bodies ∧
      bytes file bodies = (rs.map fun r => f r ++ slice file r).flatten ∧
      ((bytes file bodies).length : Int) = length + ((rs.map f).flatten.length : Int) := by
  unfold call at h
  cases hp : plan c (announce file (State.new c)) req with
  | mk pl st' =>
  rw [hp] at h
  rcases plan_cases c file req pl st' hp with e | ⟨e, es⟩ | ⟨r, e, hw, es, ha, hi, -⟩ |
    ⟨rs, e, hw, hasc, hne, es, hcm, hon⟩
  · subst e; cases h
  · subst e es
    simp only [callWith, hm, Bool.false_eq_true, if_false, Outcome.sent.injEq, List.cons.injEq,
      Msg.start.injEq] at h
    simp at h
  · subst e es
    simp only [callWith, hm, Bool.false_eq_true, if_false, Outcome.sent.injEq, List.cons.injEq,
      Msg.start.injEq] at h
    simp at h
  · subst e es
    simp only [callWith, hm, Bool.false_eq_true, if_false, Outcome.sent.injEq, List.cons.injEq,
      Msg.start.injEq] at h
    obtain ⟨⟨⟨-, hlen, -, -⟩, hbod⟩, -⟩ := h
    have hbody : bodies =
        sendRanges (if req.zerocopy then Msg.zerocopy else Msg.body) c.chunk (some f) file 0 0 rs ++
          [.body [] false] := by
      rw [← hbod]
      unfold sendBody
      rw [if_neg (by simp [Plan.isWhole])]
      have hsub : planSub f ⟨206, some (total rs), none, true⟩ (.ranges rs) = some f := by
        simp [planSub]
      rw [hsub]
      rfl
    have hstart : ∀ r ∈ rs, (0 : Int) < r.start ∨ ((0 : Int) = 0 ∧ (0 : Nat) = 0) := fun _ _ => .inr ⟨rfl, rfl⟩
    obtain ⟨m1, m2⟩ := sendRanges_multi _ (plainly_ite req.zerocopy) c.chunk hc f file rs 0 0 hw hasc hstart
    have hb2 : bytes file bodies = (rs.map fun r => f r ++ slice file r).flatten := by
      rw [hbody, bytes_append, m2]
      simp [bytes, payload]
    refine ⟨rs, hne, hw, hasc, ⟨_, _, hbody, rfl, m1⟩, hb2, ?_⟩
    rw [hb2]
    have hl : length = total rs := by rw [← hlen]; rfl
    rw [hl]
    clear hbody hb2 hl hlen hbod m1 m2 hp hasc hne hstart
    induction rs with
    | nil => rfl
    | cons r rs ih =>
      have hr := hw r (by simp)
      have := ih (fun x hx => hw x (List.mem_cons_of_mem _ hx))
      simp only [List.map_cons, List.flatten_cons, List.length_append, total, slice_length file r hr] at *
      unfold Within at hr
      unfold sizeOf
      omega

/-- C20 fails for several ranges: three bytes more than announced for a one-byte subheader. -/
theorem C20_multipart_false :
    ∃ bodies st, call ⟨4, true, .on, [], 200⟩ (fun _ => ['#']) (State.new ⟨4, true, .on, [], 200⟩)
        "0123456789".toList ⟨false, [], "bytes=0-1,4-5,8-9".toList, false, false⟩ =
          .sent (.start 206 6 none true :: bodies) st ∧
      (bytes "0123456789".toList bodies).length = 9 :=
  ⟨[.body ['#'] true, .body ['0', '1'] true, .body ['#'] true, .body ['4', '5'] true, .body ['#'] true,
    .body ['8', '9'] true, .body [] false], ⟨206, some 6, none, true⟩, by decide +kernel, by decide⟩

/-- C20 fails for HEAD and OPTIONS: the response is never finished, there is no body message. -/
theorem C20_head_false (c : Conf) (f : Rng → Str) (st : State) (file : Str) (req : Req)
    (h : req.headerOnly = true) :
    ∃ status length range mp st', call c f st file req = .sent [.start status length range mp] st' ∧
      ¬ Finished [] := by
  have hp : plan c (announce file st) req = (.whole, announce file st) := by
    unfold plan
    rw [if_neg (by rw [h]; simp)]
  have hcall : call c f st file req = .sent [.start (announce file st).status (announce file st).length
      (announce file st).contentRange (announce file st).multipart] (announce file st) := by
    unfold call; rw [hp]; simp only [callWith, h, if_true]
  refine ⟨_, _, _, _, _, hcall, ?_⟩
  rintro ⟨init, last, e, -, -⟩
  cases init <;> cases e

/-- C20 fails when a response object is called again: after a range request, the next request without a
range is answered with status 206 and a truncated body. -/
theorem C20_reuse_false :
    ∃ msgs st bodies st', call ⟨4, true, .off, [], 200⟩ (fun _ => []) (State.new ⟨4, true, .off, [], 200⟩)
        "0123456789".toList ⟨false, [], "bytes=4-5".toList, false, false⟩ = .sent msgs st ∧
      call ⟨4, true, .off, [], 200⟩ (fun _ => []) st "0123456789".toList ⟨false, [], [], false, false⟩ =
        .sent (.start 206 2 (some ⟨4, 5⟩) false :: bodies) st' ∧
      bytes "0123456789".toList bodies = "01".toList :=
  ⟨[.start 206 2 (some ⟨4, 5⟩) false, .body ['4', '5'] false], ⟨206, some 2, some ⟨4, 5⟩, false⟩,
    [.body ['0', '1'] false], ⟨206, some 2, some ⟨4, 5⟩, false⟩, by decide +kernel, by decide +kernel,
    by decide⟩

/-- Instances of the hypotheses: the whole file in three messages; a range; a range sent by the
server itself. -/
example :
    call ⟨4, true, .off, [], 200⟩ (fun _ => []) (State.new ⟨4, true, .off, [], 200⟩) "0123456789".toList
      ⟨false, [], [], false, false⟩ =
      .sent [.start 200 10 none false, .body "0123".toList true, .body "4567".toList true,
        .body "89".toList false] ⟨200, some 10, none, false⟩ ∧
    call ⟨4, true, .off, "e".toList, 200⟩ (fun _ => []) (State.new ⟨4, true, .off, "e".toList, 200⟩)
      "0123456789".toList ⟨false, "e".toList, header [.closed 3 7], true, true⟩ =
      .sent [.start 206 5 (some ⟨3, 7⟩) false, .zerocopy "3456".toList true, .zerocopy "7".toList false]
        ⟨206, some 5, some ⟨3, 7⟩, false⟩ := by
  refine ⟨by decide +kernel, by decide +kernel⟩

end Verif.FileResponse
