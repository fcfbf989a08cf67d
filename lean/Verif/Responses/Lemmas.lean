import Verif.Responses.Spec
import Verif.MultiDict.Lemmas
import Verif.Path.ReverseLemmas

/-!
# Lemmas on the headers of responses
-/

namespace Verif.Responses

open Verif Verif.MultiDict Spec

theorem number_natToDec (n : Nat) : number (Path.natToDec n) = some n := by
  obtain ⟨h1, h2⟩ := Path.natToDec_spec n
  unfold number
  rw [if_pos]
  · exact congrArg some h2
  · refine ⟨h1.1, ?_⟩
    intro c hc
    have := h1.2 c hc
    unfold Path.Spec.Digit at this
    exact (by decide : ∀ c ∈ "0123456789".toList, '0' ≤ c ∧ c ≤ '9') c this

theorem fields_append (a b : Headers) (n : Str) : fields (a ++ b) n = fields a n ++ fields b n := by
  simp [fields]

theorem fields_nil_of (hs : Headers) (n : Str) (h : ∀ kv ∈ hs, lower kv.1 ≠ n) : fields hs n = [] := by
  unfold fields
  rw [List.filter_eq_nil_iff.mpr (by simpa using h)]
  rfl

theorem fields_getall (hs : Headers) (n : Str) (hn : lower n = n) : fields hs n = getall lower hs n := by
  induction hs with
  | nil => rfl
  | cons kv hs ih =>
    rw [getall_cons, hn, ← ih]
    unfold fields
    rw [List.filter_cons]
    by_cases h : lower kv.1 = n <;> simp [h]

theorem fields_single (k v : Str) (hk : lower k = k) : fields [(k, v)] k = [v] := by
  unfold fields
  rw [List.filter_cons_of_pos (by simpa using hk)]
  rfl

theorem setdefault_absent (hs : Headers) (k v : Str) (hk : lower k = k)
    (h : ∀ kv ∈ hs, lower kv.1 ≠ k) : setdefault id hs k v = hs ++ [(k, v)] := by
  unfold setdefault
  have : getall id hs k = [] := by
    unfold getall
    rw [List.filterMap_eq_nil_iff]
    intro kv hkv
    rw [if_neg]
    intro e
    have e' : kv.1 = k := e
    exact h kv hkv (by rw [e', hk])
  unfold MultiDict.get
  rw [this]
  rfl

theorem fields_setdefault_other (hs : Headers) (k v n : Str) (h : lower k ≠ n) :
    fields (setdefault id hs k v) n = fields hs n := by
  unfold setdefault
  split
  · rfl
  · unfold add
    rw [fields_append, fields_nil_of [(k, v)] n (by simpa using h), List.append_nil]

theorem setdefault_prefix (hs : Headers) (k v : Str) : ∃ t, setdefault id hs k v = hs ++ t := by
  unfold setdefault
  split
  · exact ⟨[], by simp⟩
  · exact ⟨[(k, v)], rfl⟩

theorem addType_prefix (ct : Option Str) (hs : Headers) : ∃ t, addType ct hs = hs ++ t := by
  cases ct with
  | none => exact ⟨[], by simp [addType]⟩
  | some v => exact setdefault_prefix ..

theorem addLength_prefix (b : Option Str) (hs : Headers) : ∃ t, addLength b hs = hs ++ t := by
  cases b with
  | none => exact ⟨[], by simp [addLength]⟩
  | some v => exact setdefault_prefix ..

theorem fields_addType_other (ct : Option Str) (hs : Headers) (n : Str) (h : "content-type".toList ≠ n) :
    fields (addType ct hs) n = fields hs n := by
  cases ct with
  | none => rfl
  | some v =>
    have hl : lower "content-type".toList = "content-type".toList := by decide
    exact fields_setdefault_other hs _ v n (by rw [hl]; exact h)

theorem fields_addLength_other (b : Option Str) (hs : Headers) (n : Str)
    (h : "content-length".toList ≠ n) : fields (addLength b hs) n = fields hs n := by
  cases b with
  | none => rfl
  | some v =>
    have hl : lower "content-length".toList = "content-length".toList := by decide
    exact fields_setdefault_other hs _ _ n (by rw [hl]; exact h)

theorem fields_addLength (b : Str) (hs : Headers) (h : NoLength hs) :
    fields (addLength (some b) hs) "content-length".toList = [Path.natToDec b.length] := by
  have hl : lower "content-length".toList = "content-length".toList := by decide
  unfold addLength
  simp only
  rw [setdefault_absent hs _ _ hl h, fields_append, fields_nil_of hs _ h, fields_single _ _ hl]
  rfl

theorem fields_addType (t : Str) (hs : Headers)
    (h : ∀ kv ∈ hs, lower kv.1 ≠ "content-type".toList) :
    fields (addType (some t) hs) "content-type".toList = [t] := by
  have hl : lower "content-type".toList = "content-type".toList := by decide
  unfold addType
  simp only
  rw [setdefault_absent hs _ _ hl h, fields_append, fields_nil_of hs _ h, fields_single _ _ hl]
  rfl

theorem hasBody_iff (st : Nat) : hasBody st = true ↔ ¬ Bodiless st := by
  unfold hasBody Bodiless
  simp only [Bool.and_eq_true, Bool.not_eq_true', Bool.or_eq_false_iff, decide_eq_false_iff_not,
    Bool.and_eq_false_iff]
  omega

theorem removeEntity_sub (hs : Headers) (kv : Str × Str) (h : kv ∈ removeEntity hs) : kv ∈ hs :=
  (List.mem_filter.mp h).1

theorem noLength_start (c : Conf) (hs : Headers) (h : NoLength hs) :
    NoLength (if entityStatus c.status then removeEntity hs else hs) := by
  split
  · exact fun kv hkv => h kv (removeEntity_sub hs kv hkv)
  · exact h

/-- The headers that were made are those of the caller, perhaps without entity headers, and more. -/
theorem makeHeaders_prefix (c : Conf) (b : Option Str) (hs : Headers) :
    ∃ t, makeHeaders c b hs = (if entityStatus c.status then removeEntity hs else hs) ++ t := by
  unfold makeHeaders
  simp only
  generalize (if entityStatus c.status then removeEntity hs else hs) = h0
  split
  · obtain ⟨t1, e1⟩ := addLength_prefix b h0
    obtain ⟨t2, e2⟩ := addType_prefix (contentType c.charset c.media) (addLength b h0)
    exact ⟨t1 ++ t2, by rw [e2, e1, List.append_assoc]⟩
  · exact ⟨[], by simp⟩

theorem fields_makeHeaders (c : Conf) (b : Str) (hs : Headers) (h : NoLength hs)
    (hb : hasBody c.status = true) :
    fields (makeHeaders c (some b) hs) "content-length".toList = [Path.natToDec b.length] := by
  unfold makeHeaders
  simp only
  rw [if_pos hb, fields_addType_other _ _ _ (by decide)]
  exact fields_addLength b _ (noLength_start c hs h)

theorem noLength_makeHeaders_none (c : Conf) (hs : Headers) (h : NoLength hs) :
    fields (makeHeaders c none hs) "content-length".toList = [] := by
  unfold makeHeaders
  simp only
  split
  · rw [fields_addType_other _ _ _ (by decide)]
    exact fields_nil_of _ _ (noLength_start c hs h)
  · exact fields_nil_of _ _ (noLength_start c hs h)

theorem noLength_makeHeaders_bodiless (c : Conf) (b : Option Str) (hs : Headers) (h : NoLength hs)
    (hb : hasBody c.status = false) :
    fields (makeHeaders c b hs) "content-length".toList = [] := by
  unfold makeHeaders
  simp only
  rw [if_neg (by simp [hb])]
  exact fields_nil_of _ _ (noLength_start c hs h)

theorem mem_describing (k : Str) (h : lower k ∈ describing) : isEntity k = true ∧ ¬ lower k ∈ keptHeaders := by
  unfold isEntity
  have key : ∀ x ∈ describing, x ∈ entityHeaders ∧ ¬ x ∈ keptHeaders := by decide
  obtain ⟨h1, h2⟩ := key _ h
  exact ⟨by simpa using h1, h2⟩

theorem removeEntity_spec (hs : Headers) (kv : Str × Str) (h : kv ∈ removeEntity hs) :
    ¬ lower kv.1 ∈ describing := by
  intro hd
  obtain ⟨h1, h2⟩ := mem_describing kv.1 hd
  have h3 := (List.mem_filter.mp h).2
  rw [h1] at h3
  simp only [Bool.not_true, Bool.false_or, decide_eq_true_eq] at h3
  exact h2 h3

theorem noLength_removeEntity (hs : Headers) : NoLength (removeEntity hs) := by
  intro kv hkv e
  exact removeEntity_spec hs kv hkv (by rw [e]; decide)

theorem get_lower_none (hs : Headers) (k : Str) (hk : lower k = k) (h : fields hs k = []) :
    (MultiDict.get lower hs k).isNone = true := by
  rw [fields_getall hs k hk] at h
  unfold MultiDict.get
  rw [h]
  rfl

theorem setitem_absent (hs : Headers) (k v : Str) (hk : lower k = k) (h : fields hs k = []) :
    setitem lower hs k v = hs ++ [(k, v)] := by
  induction hs with
  | nil => rfl
  | cons kv hs ih =>
    have hne : lower kv.1 ≠ k := by
      intro e
      unfold fields at h
      rw [List.filter_cons_of_pos (by simpa using e)] at h
      simp at h
    have ht : fields hs k = [] := by
      unfold fields at h ⊢
      rwa [List.filter_cons_of_neg (by simpa using hne)] at h
    obtain ⟨k', v'⟩ := kv
    unfold setitem
    rw [if_neg (by rw [hk]; exact hne), ih ht]
    rfl

/-- What the awaited content does to the headers. -/
theorem resolve_headers (c : Conf) (b : Str) (caller : Headers) :
    (new c (.awaitable b) caller).resolve.headers =
      if hasBody c.status && (MultiDict.get lower (makeHeaders c none caller) "content-length".toList).isNone then
        setitem lower (makeHeaders c none caller) "content-length".toList (Path.natToDec b.length)
      else makeHeaders c none caller := rfl

theorem resolve_ready (c : Conf) (b : Str) (caller : Headers) :
    (new c (.ready b) caller).resolve.headers = makeHeaders c (some b) caller := rfl

theorem call_eq (c : Conf) (x : Content) (caller : Headers) :
    (new c x caller).call =
      [.start c.status (new c x caller).resolve.headers, .body (bytes x)] := by
  cases x <;> rfl

theorem fields_call (c : Conf) (x : Content) (caller : Headers)
    (h : entityStatus c.status = true ∨ NoLength caller) (hb : hasBody c.status = true) :
    fields (new c x caller).resolve.headers "content-length".toList = [Path.natToDec (bytes x).length] := by
  have hl : lower "content-length".toList = "content-length".toList := by decide
  have h0 : NoLength (if entityStatus c.status then removeEntity caller else caller) := by
    by_cases he : entityStatus c.status = true
    · rw [if_pos he]; exact noLength_removeEntity caller
    · rw [if_neg he]; exact h.resolve_left he
  cases x with
  | ready b =>
    rw [resolve_ready]
    unfold makeHeaders
    simp only
    rw [if_pos hb, fields_addType_other _ _ _ (by decide)]
    exact fields_addLength b _ h0
  | awaitable b =>
    rw [resolve_headers]
    have hn : fields (makeHeaders c none caller) "content-length".toList = [] := by
      unfold makeHeaders
      simp only
      rw [if_pos hb, fields_addType_other _ _ _ (by decide)]
      exact fields_nil_of _ _ h0
    rw [hb, get_lower_none _ _ hl hn]
    generalize makeHeaders c none caller = hs at hn
    rw [Bool.and_self, if_pos rfl, setitem_absent _ _ _ hl hn, fields_append, hn, fields_single _ _ hl]
    rfl

theorem headers_bodiless (c : Conf) (x : Content) (caller : Headers) (hb : hasBody c.status = false) :
    (new c x caller).resolve.headers = if entityStatus c.status then removeEntity caller else caller := by
  have key : ∀ b, makeHeaders c b caller = if entityStatus c.status then removeEntity caller else caller := by
    intro b
    unfold makeHeaders
    simp only
    rw [if_neg (by rw [hb]; exact Bool.false_ne_true)]
  cases x with
  | ready b => rw [resolve_ready, key]
  | awaitable b =>
    rw [resolve_headers, hb, Bool.false_and, key]
    rw [if_neg Bool.false_ne_true]

theorem setdefault_added (hs : Headers) (k v : Str) (hk : k ∈ added) :
    ∃ t : Headers, setdefault id hs k v = hs ++ t ∧ ∀ kv ∈ t, kv.1 ∈ added := by
  unfold setdefault
  split
  · exact ⟨[], by simp⟩
  · exact ⟨[(k, v)], rfl, by simpa using hk⟩

theorem makeHeaders_added (c : Conf) (b : Option Str) (hs : Headers) :
    ∃ t : Headers, makeHeaders c b hs = (if entityStatus c.status then removeEntity hs else hs) ++ t ∧
      ∀ kv ∈ t, kv.1 ∈ added := by
  unfold makeHeaders
  simp only
  generalize (if entityStatus c.status then removeEntity hs else hs) = h0
  split
  · have h1 : ∃ t : Headers, addLength b h0 = h0 ++ t ∧ ∀ kv ∈ t, kv.1 ∈ added := by
      cases b with
      | none => exact ⟨[], by simp [addLength]⟩
      | some b => exact setdefault_added _ _ _ (.head _)
    obtain ⟨t1, e1, a1⟩ := h1
    have h2 : ∃ t : Headers, addType (contentType c.charset c.media) (addLength b h0) = addLength b h0 ++ t ∧
        ∀ kv ∈ t, kv.1 ∈ added := by
      cases contentType c.charset c.media with
      | none => exact ⟨[], by simp [addType]⟩
      | some b => exact setdefault_added _ _ _ (.tail _ (.head _))
    obtain ⟨t2, e2, a2⟩ := h2
    refine ⟨t1 ++ t2, by rw [e2, e1, List.append_assoc], fun kv h => ?_⟩
    rcases List.mem_append.mp h with h | h
    · exact a1 kv h
    · exact a2 kv h
  · exact ⟨[], by simp⟩

theorem headers_added (c : Conf) (x : Content) (caller : Headers) :
    ∃ t : Headers, (new c x caller).resolve.headers =
        (if entityStatus c.status then removeEntity caller else caller) ++ t ∧ ∀ kv ∈ t, kv.1 ∈ added := by
  cases x with
  | ready b => rw [resolve_ready]; exact makeHeaders_added ..
  | awaitable b =>
    rw [resolve_headers]
    obtain ⟨t, e, a⟩ := makeHeaders_added c none caller
    by_cases hc : (hasBody c.status && (MultiDict.get lower (makeHeaders c none caller)
        "content-length".toList).isNone) = true
    · rw [if_pos hc]
      have hl : lower "content-length".toList = "content-length".toList := by decide
      have hn : fields (makeHeaders c none caller) "content-length".toList = [] := by
        rw [fields_getall _ _ hl]
        have := (Bool.and_eq_true _ _ ▸ hc).2
        unfold MultiDict.get at this
        generalize getall lower (makeHeaders c none caller) "content-length".toList = l at this
        cases l with
        | nil => rfl
        | cons a l => simp at this
      rw [setitem_absent _ _ _ hl hn, e]
      refine ⟨t ++ [("content-length".toList, Path.natToDec b.length)], by rw [List.append_assoc], ?_⟩
      intro kv h
      rcases List.mem_append.mp h with h | h
      · exact a kv h
      · rw [List.mem_singleton.mp h]; exact .head _
    · rw [if_neg hc]
      exact ⟨t, e, a⟩

/-- A status that keeps the headers of the caller. -/
theorem makeHeaders_keep (c : Conf) (b : Option Str) (hs : Headers) (he : entityStatus c.status = false) :
    makeHeaders c b hs =
      if hasBody c.status then addType (contentType c.charset c.media) (addLength b hs) else hs := by
  unfold makeHeaders
  simp only [he, Bool.false_eq_true, if_false]

theorem mem_fields (hs : Headers) (k w : Str) (hk : lower k = k) (h : (k, w) ∈ hs) : w ∈ fields hs k := by
  unfold fields
  rw [List.mem_map]
  exact ⟨_, List.mem_filter.mpr ⟨h, by simpa using hk⟩, rfl⟩

theorem setdefault_present (hs : Headers) (k v w : Str) (h : (k, w) ∈ hs) : setdefault id hs k v = hs := by
  unfold setdefault
  rw [if_pos]
  have hne := getall_ne_nil id hs k w h
  unfold MultiDict.get
  generalize getall id hs k = l at hne
  cases l with
  | nil => exact absurd rfl hne
  | cons a l => rfl

theorem addLength_present (b : Option Str) (hs : Headers) (w : Str) (h : ("content-length".toList, w) ∈ hs) :
    addLength b hs = hs := by
  cases b with
  | none => rfl
  | some b => exact setdefault_present hs _ _ w h

/-- A length that the caller states stays the only one. -/
theorem fields_stated (c : Conf) (x : Content) (caller : Headers) (w : Str)
    (he : entityStatus c.status = false) (h : ("content-length".toList, w) ∈ caller) :
    fields (new c x caller).resolve.headers "content-length".toList =
      fields caller "content-length".toList := by
  have key : ∀ b, fields (makeHeaders c b caller) "content-length".toList =
      fields caller "content-length".toList := by
    intro b
    rw [makeHeaders_keep c b caller he]
    split
    · rw [fields_addType_other _ _ _ (by decide), addLength_present b caller w h]
    · rfl
  cases x with
  | ready b => rw [resolve_ready]; exact key _
  | awaitable b =>
    have hl : lower "content-length".toList = "content-length".toList := by decide
    rw [resolve_headers, if_neg, key]
    intro hc
    have hc := (Bool.and_eq_true _ _ ▸ hc).2
    have hk := key none
    rw [fields_getall _ _ hl] at hk
    unfold MultiDict.get at hc
    rw [hk] at hc
    have := mem_fields caller _ w hl h
    generalize fields caller "content-length".toList = l at hc this
    cases l with
    | nil => exact absurd this (by simp)
    | cons a l => simp at hc

theorem makeHeaders_stated (c : Conf) (b : Option Str) (caller : Headers) (w : Str)
    (h : ("content-length".toList, w) ∈ caller) :
    ∃ t, callerAfter c b caller = caller ++ t ∧ ∀ kv ∈ t, kv.1 = "content-type".toList := by
  unfold callerAfter
  by_cases he : entityStatus c.status = true
  · rw [if_pos he]; exact ⟨[], by simp⟩
  · rw [if_neg he]
    rw [makeHeaders_keep c b caller (by simpa using he)]
    split
    · rw [addLength_present b caller w h]
      cases contentType c.charset c.media with
      | none => exact ⟨[], by simp [addType]⟩
      | some v =>
        unfold addType setdefault
        simp only
        split
        · exact ⟨[], by simp⟩
        · exact ⟨[("content-type".toList, v)], rfl, by simp⟩
    · exact ⟨[], by simp⟩

theorem newCaller_stated (c : Conf) (x : Content) (caller : Headers) (w : Str)
    (h : ("content-length".toList, w) ∈ caller) :
    ("content-length".toList, w) ∈ newCaller c x caller ∧
      fields (newCaller c x caller) "content-length".toList = fields caller "content-length".toList := by
  have key : ∀ b, ("content-length".toList, w) ∈ callerAfter c b caller ∧
      fields (callerAfter c b caller) "content-length".toList = fields caller "content-length".toList := by
    intro b
    obtain ⟨t, e, ht⟩ := makeHeaders_stated c b caller w h
    rw [e]
    refine ⟨List.mem_append_left _ h, ?_⟩
    rw [fields_append, fields_nil_of t, List.append_nil]
    intro kv hkv
    rw [ht kv hkv]
    decide
  cases x with
  | ready b => exact key _
  | awaitable b => exact key _

theorem serveShared_stated (caller : Headers) (l : List (Conf × Content)) (w : Str)
    (h : ("content-length".toList, w) ∈ caller) (ms : List Msg) (hm : ms ∈ serveShared caller l)
    (st : Nat) (hs : Headers) (hst : Msg.start st hs ∈ ms) (he : entityStatus st = false) :
    fields hs "content-length".toList = fields caller "content-length".toList := by
  induction l generalizing caller with
  | nil => exact absurd hm (by simp [serveShared])
  | cons cx rest ih =>
    obtain ⟨c, x⟩ := cx
    unfold serveShared at hm
    rcases List.mem_cons.mp hm with e | hm
    · rw [e, call_eq] at hst
      simp only [List.mem_cons, List.not_mem_nil, or_false, Msg.start.injEq, reduceCtorEq] at hst
      obtain ⟨e1, e2⟩ := hst
      rw [e2]
      exact fields_stated c x caller w (by rw [← e1]; exact he) h
    · obtain ⟨h1, h2⟩ := newCaller_stated c x caller w h
      rw [← h2]
      exact ih _ h1 hm

theorem callerAfter_first (c : Conf) (b : Str) (caller : Headers) (h : NoLength caller)
    (hb : hasBody c.status = true) (he : entityStatus c.status = false) :
    ("content-length".toList, Path.natToDec b.length) ∈ newCaller c (.ready b) caller ∧
      fields (newCaller c (.ready b) caller) "content-length".toList = [Path.natToDec b.length] := by
  have hl : lower "content-length".toList = "content-length".toList := by decide
  have e : newCaller c (.ready b) caller = makeHeaders c (some b) caller := by
    unfold newCaller callerAfter
    simp only
    rw [if_neg (by rw [he]; exact Bool.false_ne_true)]
  rw [e]
  refine ⟨?_, fields_makeHeaders c b caller h hb⟩
  rw [makeHeaders_keep c _ caller he, if_pos hb]
  obtain ⟨t, e⟩ := addType_prefix (contentType c.charset c.media) (addLength (some b) caller)
  rw [e]
  refine List.mem_append_left _ ?_
  unfold addLength
  simp only
  rw [setdefault_absent caller _ _ hl h]
  exact List.mem_append_right _ (.head _)

theorem fields_type (c : Conf) (x : Content) (caller : Headers) (t : Str)
    (hn : ∀ kv ∈ caller, lower kv.1 ≠ "content-type".toList) (hb : hasBody c.status = true)
    (ht : contentType c.charset c.media = some t) :
    fields (new c x caller).resolve.headers "content-type".toList = [t] := by
  have key : ∀ b, fields (makeHeaders c b caller) "content-type".toList = [t] := by
    intro b
    unfold makeHeaders
    simp only
    rw [if_pos hb, ht]
    apply fields_addType
    have h0 : ∀ kv ∈ (if entityStatus c.status then removeEntity caller else caller),
        lower kv.1 ≠ "content-type".toList := by
      split
      · exact fun kv h => hn kv (removeEntity_sub _ _ h)
      · exact hn
    generalize (if entityStatus c.status then removeEntity caller else caller) = h0' at h0
    cases b with
    | none => exact h0
    | some b =>
      unfold addLength setdefault
      simp only
      split
      · exact h0
      · intro kv h
        rcases List.mem_append.mp h with h | h
        · exact h0 kv h
        · rw [List.mem_singleton.mp h]; show lower "content-length".toList ≠ _; decide
  cases x with
  | ready b => rw [resolve_ready]; exact key _
  | awaitable b =>
    rw [resolve_headers]
    split
    · have hl : lower "content-type".toList = "content-type".toList := by decide
      rw [fields_getall _ _ hl, getall_setitem, if_neg (by decide), ← fields_getall _ _ hl]
      exact key _
    · exact key _

end Verif.Responses
