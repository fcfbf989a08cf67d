import Verif.Responses.Lemmas

/-!
# C55: framing of a plain response
-/

namespace Verif.Responses

open Verif Spec

/-- C55: a response is one start message with its status followed by one body message, the last, with
the bytes of its content, whether these were given at once or awaited. -/
theorem C55_messages (c : Conf) (x : Content) (caller : Headers) :
    ∃ hs, (new c x caller).call = [.start c.status hs, .body (bytes x)] :=
  ⟨_, call_eq c x caller⟩

/-- C55: a response that may have content states its length in exactly one field when the caller does
not state one, also for an awaited content. -/
theorem C55_framed_partial (c : Conf) (x : Content) (caller : Headers) (hs : Headers)
    (hc : .start c.status hs ∈ (new c x caller).call) (h : NoLength caller) (hb : ¬ Bodiless c.status) :
    Framed hs (bytes x) := by
  rw [call_eq] at hc
  simp only [List.mem_cons, List.not_mem_nil, or_false, Msg.start.injEq, reduceCtorEq, true_and] at hc
  subst hc
  exact ⟨_, fields_call c x caller (.inr h) ((hasBody_iff _).mpr hb), number_natToDec _⟩

example : NoLength [("X-A".toList, "1".toList)] ∧ ¬ Bodiless 200 ∧
    (new ⟨200, some "text/plain".toList, "utf-8".toList⟩ (.awaitable "hello".toList)
      [("X-A".toList, "1".toList)]).call =
      [.start 200 [("X-A".toList, "1".toList), ("content-type".toList, "text/plain; charset=utf-8".toList),
        ("content-length".toList, "5".toList)], .body "hello".toList] := by
  refine ⟨?_, ?_, ?_⟩
  · unfold NoLength; decide
  · unfold Bodiless; decide
  · decide +kernel

/-- C55: a failed precondition states the length of its own content, whatever the caller says. -/
theorem C55_precondition (c : Conf) (x : Content) (caller : Headers) (hs : Headers)
    (hc : .start c.status hs ∈ (new c x caller).call) (h : c.status = 412) : Framed hs (bytes x) := by
  rw [call_eq] at hc
  simp only [List.mem_cons, List.not_mem_nil, or_false, Msg.start.injEq, reduceCtorEq, true_and] at hc
  subst hc
  exact ⟨_, fields_call c x caller (.inl (by rw [h]; rfl)) (by rw [h]; rfl), number_natToDec _⟩

example : (new ⟨412, none, []⟩ (.ready "no".toList) [("Content-Length".toList, "9".toList)]).call =
    [.start 412 [("content-length".toList, "2".toList)], .body "no".toList] := by decide +kernel

/-- C55: a response that has no content adds no field: it sends those of the caller, without the ones
that describe a content in the case of 304. -/
theorem C55_bodiless (c : Conf) (x : Content) (caller : Headers) (hs : Headers)
    (hc : .start c.status hs ∈ (new c x caller).call) (hb : Bodiless c.status) :
    (c.status ≠ 304 → hs = caller) ∧
      (c.status = 304 → ∀ kv, kv ∈ hs ↔ kv ∈ caller ∧ lower kv.1 ∉ describing) := by
  rw [call_eq] at hc
  simp only [List.mem_cons, List.not_mem_nil, or_false, Msg.start.injEq, reduceCtorEq, true_and] at hc
  have hb' : hasBody c.status = false := by
    cases e : hasBody c.status with
    | false => rfl
    | true => exact absurd hb ((hasBody_iff _).mp e)
  rw [headers_bodiless c x caller hb'] at hc
  constructor
  · intro h
    rw [hc, if_neg]
    unfold Bodiless at hb
    unfold entityStatus
    simp only [Bool.or_eq_true, decide_eq_true_eq]
    omega
  · intro h kv
    rw [hc, h, if_pos (by rfl)]
    constructor
    · exact fun hk => ⟨removeEntity_sub _ _ hk, removeEntity_spec _ _ hk⟩
    · rintro ⟨h1, h2⟩
      refine List.mem_filter.mpr ⟨h1, ?_⟩
      unfold isEntity
      have key : ∀ x ∈ entityHeaders, x ∉ describing → x ∈ keptHeaders := by decide
      by_cases he : lower kv.1 ∈ entityHeaders
      · have := key _ he h2
        simp only [Bool.or_eq_true, decide_eq_true_eq]
        exact .inr this
      · simp only [Bool.or_eq_true, Bool.not_eq_true', decide_eq_false_iff_not]
        exact .inl he

example : Bodiless 304 ∧
    (new ⟨304, some "text/html".toList, "utf-8".toList⟩ (.ready [])
      [("ETag".toList, "x".toList), ("Content-Type".toList, "a/b".toList), ("Expires".toList, "0".toList)]).call =
      [.start 304 [("ETag".toList, "x".toList), ("Expires".toList, "0".toList)], .body []] := by
  refine ⟨by unfold Bodiless; decide, by decide +kernel⟩

/-- C55: otherwise every field of the caller is sent, in order, followed only by a length or a type. -/
theorem C55_caller (c : Conf) (x : Content) (caller : Headers) (hs : Headers)
    (hc : .start c.status hs ∈ (new c x caller).call) (h : c.status ≠ 304 ∧ c.status ≠ 412) :
    ∃ t : Headers, hs = caller ++ t ∧ ∀ kv ∈ t, kv.1 ∈ added := by
  rw [call_eq] at hc
  simp only [List.mem_cons, List.not_mem_nil, or_false, Msg.start.injEq, reduceCtorEq, true_and] at hc
  obtain ⟨t, e, a⟩ := headers_added c x caller
  rw [if_neg (by unfold entityStatus; simp [h.1, h.2])] at e
  exact ⟨t, by rw [hc, e], a⟩

example : (200 : Nat) ≠ 304 ∧ (200 : Nat) ≠ 412 := by decide

/-- C55: the type of the content is stated once when the caller does not state one. -/
theorem C55_type (c : Conf) (x : Content) (caller : Headers) (hs : Headers) (m : Str)
    (hc : .start c.status hs ∈ (new c x caller).call) (hm : c.media = some m)
    (h : ∀ kv ∈ caller, lower kv.1 ≠ "content-type".toList) (hb : ¬ Bodiless c.status) :
    ∃ t, TypeOf m c.charset t ∧ fields hs "content-type".toList = [t] := by
  rw [call_eq] at hc
  simp only [List.mem_cons, List.not_mem_nil, or_false, Msg.start.injEq, reduceCtorEq, true_and] at hc
  subst hc
  have hb := (hasBody_iff _).mpr hb
  by_cases hp : startsWith m "text/".toList = true
  · refine ⟨m ++ ("; charset=".toList ++ c.charset), .inl ⟨?_, rfl⟩, ?_⟩
    · obtain ⟨s, e⟩ := List.isPrefixOf_iff_prefix.mp hp
      exact ⟨s, e.symm⟩
    · refine fields_type c x caller _ h hb ?_
      unfold contentType
      rw [hm]
      simp only
      rw [if_pos hp]
  · refine ⟨m, .inr ⟨?_, rfl⟩, ?_⟩
    · rintro ⟨s, e⟩
      exact hp (List.isPrefixOf_iff_prefix.mpr ⟨s, e.symm⟩)
    · refine fields_type c x caller _ h hb ?_
      unfold contentType
      rw [hm]
      simp only
      rw [if_neg hp]

example : TypeOf "text/html".toList "utf-8".toList "text/html; charset=utf-8".toList :=
  .inl ⟨⟨"html".toList, rfl⟩, rfl⟩

/-- C55: a length that the caller states under its lower-case name is the only one sent; it is not
compared with the content. -/
theorem C55_stated (c : Conf) (x : Content) (caller : Headers) (hs : Headers) (w : Str)
    (hc : .start c.status hs ∈ (new c x caller).call) (h : ("content-length".toList, w) ∈ caller)
    (hst : c.status ≠ 304 ∧ c.status ≠ 412) :
    fields hs "content-length".toList = fields caller "content-length".toList := by
  rw [call_eq] at hc
  simp only [List.mem_cons, List.not_mem_nil, or_false, Msg.start.injEq, reduceCtorEq, true_and] at hc
  subst hc
  exact fields_stated c x caller w (by unfold entityStatus; simp [hst.1, hst.2]) h

/-- C55 fails when the caller writes the name of the field in another case: two lengths are sent. -/
theorem C55_case_false : ¬ ∀ (c : Conf) (x : Content) (caller hs : Headers),
    .start c.status hs ∈ (new c x caller).call → (fields caller "content-length".toList).length ≤ 1 →
      (fields hs "content-length".toList).length ≤ 1 := by
  intro h
  have := h ⟨200, none, []⟩ (.ready "hello".toList) [("Content-Length".toList, "5".toList)]
    [("Content-Length".toList, "5".toList), ("content-length".toList, "5".toList)]
    (by decide +kernel) (by decide +kernel)
  revert this
  decide +kernel

/-- C55 fails for 204: a content that was given is sent. -/
theorem C55_empty_false : ¬ ∀ (c : Conf) (x : Content) (caller : Headers) (b : Str), Bodiless c.status →
    .body b ∈ (new c x caller).call → b = [] := by
  intro h
  have := h ⟨204, none, []⟩ (.ready "null".toList) [] "null".toList (.inr (.inl rfl)) (by decide +kernel)
  revert this
  decide

/-- C55: responses made in turn with one dictionary of headers all state the length of the first: the
defaults are written into the dictionary of the caller. -/
theorem C55_shared (caller : Headers) (c : Conf) (b : Str) (rest : List (Conf × Content))
    (h : NoLength caller) (hb : ¬ Bodiless c.status) (hc : c.status ≠ 412)
    (ms : List Msg) (hm : ms ∈ serveShared caller ((c, .ready b) :: rest)) (st : Nat) (hs : Headers)
    (hst : .start st hs ∈ ms) (h3 : st ≠ 304) (h4 : st ≠ 412) :
    ∃ v, fields hs "content-length".toList = [v] ∧ number v = some b.length := by
  refine ⟨_, ?_, number_natToDec b.length⟩
  have hb' := (hasBody_iff _).mpr hb
  have he : entityStatus c.status = false := by
    unfold entityStatus
    unfold Bodiless at hb
    simp only [Bool.or_eq_false_iff, decide_eq_false_iff_not]
    omega
  unfold serveShared at hm
  rcases List.mem_cons.mp hm with e | hm
  · rw [e, call_eq] at hst
    simp only [List.mem_cons, List.not_mem_nil, or_false, Msg.start.injEq, reduceCtorEq] at hst
    rw [hst.2]
    exact fields_call c (.ready b) caller (.inr h) hb'
  · obtain ⟨h1, h2⟩ := callerAfter_first c b caller h hb' he
    rw [← h2]
    exact serveShared_stated _ rest _ h1 ms hm st hs hst (by unfold entityStatus; simp [h3, h4])

/-- C55 fails for the second of two responses that were given the same dictionary. -/
theorem C55_shared_false : ¬ ∀ (caller : Headers) (l : List (Conf × Content)) (ms : List Msg) (st : Nat)
    (hs : Headers) (b : Str), NoLength caller → ms ∈ serveShared caller l → ms = [.start st hs, .body b] →
      ¬ Bodiless st → Framed hs b := by
  intro h
  have key := h [] [(⟨200, none, []⟩, .ready "hello".toList), (⟨200, none, []⟩, .ready "hi".toList)]
    [.start 200 [("content-length".toList, "5".toList)], .body "hi".toList] 200
    [("content-length".toList, "5".toList)] "hi".toList (by unfold NoLength; decide) (by decide +kernel) rfl
    (by unfold Bodiless; decide)
  obtain ⟨v, h1, h2⟩ := key
  have : fields [("content-length".toList, "5".toList)] "content-length".toList = ["5".toList] := by
    decide +kernel
  rw [this] at h1
  have e : "5".toList = v := by simpa using h1
  subst e
  revert h2
  decide +kernel

end Verif.Responses
