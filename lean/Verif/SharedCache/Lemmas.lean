import Verif.SharedCache.Spec
import Verif.CorsCache.Lemmas
import Verif.Gzip.Props

namespace Verif.SharedCache

open Verif Verif.MultiDict Verif.MultiDict.Spec Verif.Cors Verif.Cors.Spec Spec

/-! ## Fields -/

theorem field_congr (a b : List (Str × Str)) (n : Str) (h : getall lower a n = getall lower b n) :
    field a n = field b n := by
  rw [field_getall, field_getall, h]

theorem forbids_congr (a b : List (Str × Str))
    (h : getall lower a "Cache-Control".toList = getall lower b "Cache-Control".toList) :
    Forbids a ↔ Forbids b := by
  unfold Forbids listed
  rw [field_congr a b _ h]

theorem varies_congr (a b : List (Str × Str)) (n : Str)
    (h : getall lower a "vary".toList = getall lower b "vary".toList) : Varies a n ↔ Varies b n := by
  rw [varies_getall, varies_getall, h]

theorem getall_append' (a b : List (Str × Str)) (n : Str) :
    getall lower (a ++ b) n = getall lower a n ++ getall lower b n := by
  unfold getall
  rw [List.filterMap_append]

theorem getall_named (fs : List Str) (k n : Str) (h : ¬ lower k = lower n) :
    getall lower (fs.map fun f => (k, f)) n = [] := by
  induction fs with
  | nil => rfl
  | cons f fs ih => rw [List.map_cons, getall_cons, if_neg h, ih]

theorem getall_cookies (fs : List Str) (n : Str) (h : ¬ lower "set-cookie".toList = lower n) :
    getall lower (fs.map fun f => ("set-cookie".toList, f)) n = [] := getall_named fs _ n h

/-- Answers with further cookies vary and are kept as before. -/
theorem cookies_kept (hs : List (Str × Str)) (fs : List Str) :
    (∀ n, Varies (hs ++ fs.map fun f => ("set-cookie".toList, f)) n ↔ Varies hs n) ∧
    (Forbids (hs ++ fs.map fun f => ("set-cookie".toList, f)) ↔ Forbids hs) := by
  constructor
  · intro n
    refine varies_congr _ _ _ ?_
    rw [getall_append', getall_cookies fs _ (by decide), List.append_nil]
  · refine forbids_congr _ _ ?_
    rw [getall_append', getall_cookies fs _ (by decide), List.append_nil]

/-! ## Compression -/

theorem contains_infix (s p : Str) (h : contains s p = true) : p <:+: s := by
  induction s with
  | nil =>
    have : p = [] := by
      unfold contains at h
      simpa using h
    rw [this]
    exact List.nil_infix
  | cons c cs ih =>
    unfold contains at h
    rcases (Bool.or_eq_true _ _).mp h with h | h
    · exact (List.isPrefixOf_iff_prefix.mp h).isInfix
    · exact (ih h).trans (List.suffix_cons c cs).isInfix

theorem head_infix (v : Str) (vs : List Str) : v <:+: joinWith ", ".toList (v :: vs) := by
  cases vs with
  | nil => exact List.infix_rfl
  | cons w ws =>
    show v <:+: v ++ ", ".toList ++ joinWith ", ".toList (w :: ws)
    rw [List.append_assoc]
    exact (List.prefix_append v _).isInfix

/-- Only requests that mention gzip get a compressed answer. -/
theorem wanted_takes (r : Request) (h : Gzip.wanted r.headers = true) : TakesGzip r := by
  unfold Gzip.wanted at h
  have hi := contains_infix _ _ h
  unfold MultiDict.get at hi
  cases hg : getall lower r.headers "Accept-Encoding".toList with
  | nil =>
    rw [hg] at hi
    have hn : ¬ "gzip".toList <:+: ([] : Str) := by decide
    exact absurd hi hn
  | cons v vs =>
    rw [hg] at hi
    refine ⟨joinWith ", ".toList (v :: vs), ?_, ?_⟩
    · rw [field_getall, hg]
    · exact List.IsInfix.trans hi (head_infix v vs)

theorem wire (h : List (Str × Str)) (ds : List Gzip.Bytes) (last : Gzip.Bytes) :
    (⟨headersOf (Gzip.Spec.response h ds last), (Gzip.Spec.response h ds last).flatMap bytesOf⟩ :
      Answer Gzip.Bytes) = ⟨h, ds.flatten ++ last⟩ := by
  have hb : ∀ ds : List Gzip.Bytes,
      ((ds.map fun d => Gzip.Msg.body d true).flatMap bytesOf) = ds.flatten := by
    intro ds
    induction ds with
    | nil => rfl
    | cons d ds ih => rw [List.map_cons, List.flatMap_cons, ih, List.flatten_cons]; rfl
  unfold Gzip.Spec.response
  congr 1
  rw [List.cons_append, List.flatMap_cons, List.flatMap_append, hb, List.flatMap_cons, List.flatMap_nil,
    List.append_nil]
  rfl

theorem messages_eq (x : Zipped) : x.messages = Gzip.Spec.response x.headers x.pieces x.last := rfl

/-- The headers of a compressed answer. -/
theorem run_headers (c : Gzip.Codec) (min : Nat) (h : List (Str × Str)) (ds : List Gzip.Bytes) (last : Gzip.Bytes)
    (he : Gzip.Spec.valuesOf h "content-encoding".toList = []) (hd : ds ≠ [] ∨ min ≤ last.length) :
    ∃ h' outs lo, Gzip.run c min (Gzip.Spec.response h ds last) = some (Gzip.Spec.response h' outs lo) ∧
      getall lower h' "vary".toList = getall lower (addVary h "Accept-Encoding".toList) "vary".toList := by
  have hset : (MultiDict.get lower h "content-encoding".toList).isSome = false := by
    rw [Gzip.valuesOf_eq] at he
    unfold MultiDict.get
    rw [he]; rfl
  have hv : ∀ (d d' : Items Str), getall lower d "vary".toList = getall lower d' "vary".toList →
      getall lower (addVary d "Accept-Encoding".toList) "vary".toList =
        getall lower (addVary d' "Accept-Encoding".toList) "vary".toList := by
    intro d d' e
    rw [Gzip.getall_addVary_head, Gzip.getall_addVary_head]
    unfold MultiDict.get
    rw [e]
  cases ds with
  | nil =>
    rcases hd with hd | hd
    · exact absurd rfl hd
    let out : Gzip.Bytes := c.init.2 ++ (c.write c.init.1 last).2 ++ c.close (c.write c.init.1 last).1
    refine ⟨Gzip.standardHeaders h out.length, [], out, ?_, ?_⟩
    · have : Gzip.Spec.response h [] last = [.start h, .body last false] := rfl
      rw [this, Gzip.run_start, Gzip.onStart_eq c h _ hset]
      simp [Gzip.runFrom, Gzip.step, Gzip.onFirst, Gzip.initialMsg, Gzip.onStandard, Gzip.State.write,
        Gzip.State.close, Nat.not_lt.2 hd, Gzip.Spec.response, out]
    · unfold Gzip.standardHeaders
      refine hv _ _ ?_
      rw [getall_setitem, if_neg (by decide), getall_setitem, if_neg (by decide)]
  | cons d ds =>
    let s1 : Gzip.State c := ⟨some (Gzip.streamHeaders h), true, false, .isOpen (c.write c.init.1 d).1, []⟩
    obtain ⟨outs, lo, h1, _, _⟩ := Gzip.stream_tail c min ds last s1 (c.write c.init.1 d).1 rfl rfl rfl rfl
    refine ⟨Gzip.streamHeaders h, (c.init.2 ++ (c.write c.init.1 d).2) :: outs, lo, ?_, ?_⟩
    · have : Gzip.Spec.response h (d :: ds) last =
        .start h :: .body d true :: ((ds.map fun d => Gzip.Msg.body d true) ++ [.body last false]) := rfl
      rw [this, Gzip.run_start, Gzip.onStart_eq c h _ hset, Gzip.runFrom]
      have hstep : Gzip.step (c := c) min ⟨some h, false, false, .unused, []⟩ (.body d true) =
          some (s1, [.start (Gzip.streamHeaders h), .body (c.init.2 ++ (c.write c.init.1 d).2) true]) := by
        simp [Gzip.step, Gzip.onFirst, Gzip.initialMsg, Gzip.onStream, Gzip.State.write, s1]
      rw [hstep]
      simp only
      rw [h1]
      rfl
    · unfold Gzip.streamHeaders
      rw [getall_pop, if_neg (by decide)]
      refine hv _ _ ?_
      rw [getall_setitem, if_neg (by decide)]

/-- What leaves the middleware: the answer of the application, or a compressed one. -/
theorem sent_cases (c : Gzip.Codec) (hc : Gzip.Spec.Faithful c) (min : Nat) (y : Zipped) (a : Answer Gzip.Bytes)
    (h : y.sent c min = some a) :
    a = ⟨y.headers, content y⟩ ∨
    (TakesGzip y.request ∧ CorsCache.Spec.values y.headers "Content-Encoding".toList = [] ∧
      CorsCache.Spec.values a.headers "Content-Encoding".toList = ["gzip".toList] ∧
      c.inflate a.body = some (content y) ∧
      getall lower a.headers "vary".toList = getall lower (addVary y.headers "Accept-Encoding".toList) "vary".toList ∧
      getall lower a.headers "Cache-Control".toList = getall lower y.headers "Cache-Control".toList) := by
  unfold Zipped.sent Gzip.serve at h
  rw [messages_eq] at h
  have plain : ∀ o, o = some (Gzip.Spec.response y.headers y.pieces y.last) →
      (o.map fun ms => (⟨headersOf ms, ms.flatMap bytesOf⟩ : Answer Gzip.Bytes)) = some a →
      a = ⟨y.headers, content y⟩ := by
    intro o ho h
    rw [ho, Option.map_some, wire] at h
    exact (Option.some.inj h).symm
  split at h
  · rename_i hw
    by_cases he : Gzip.Spec.valuesOf y.headers "content-encoding".toList = []
    · by_cases hd : y.pieces ≠ [] ∨ min ≤ y.last.length
      · right
        obtain ⟨h', outs, lo, hr, _, hi, hce, _, _, _, hk⟩ :=
          Gzip.C14_compressed c hc min y.headers y.pieces y.last he hd
        obtain ⟨h2, outs2, lo2, hr2, hv⟩ := run_headers c min y.headers y.pieces y.last he hd
        rw [hr] at hr2
        have hh : h' = h2 := by
          have := Option.some.inj hr2
          unfold Gzip.Spec.response at this
          rw [List.cons_append, List.cons_append] at this
          injection this with e _
          injection e
        rw [hr, Option.map_some, wire] at h
        have ha := Option.some.inj h
        subst ha
        refine ⟨wanted_takes _ hw, ?_, ?_, hi, hh ▸ hv, ?_⟩
        · rw [CorsCache.values_getall]
          rw [Gzip.valuesOf_eq] at he
          rw [← he]
          exact CorsCache.getall_lower _ _ _ (by decide)
        · rw [CorsCache.values_getall]
          rw [Gzip.valuesOf_eq] at hce
          rw [← hce]
          exact CorsCache.getall_lower _ _ _ (by decide)
        · have := hk "Cache-Control".toList (by decide)
          rw [Gzip.valuesOf_eq, Gzip.valuesOf_eq] at this
          exact this
      · left
        have h1 : y.pieces = [] := by
          by_cases e : y.pieces = []
          · exact e
          · exact absurd (.inl e) hd
        have h2 : y.last.length < min := by
          apply Nat.lt_of_not_le
          intro e
          exact hd (.inr e)
        rw [h1] at h plain
        exact plain _ (Gzip.C14_small c min y.headers y.last h2) h
    · left
      exact plain _ (Gzip.C14_encoded c min y.headers y.pieces y.last he) h
  · left
    exact plain _ rfl h

theorem takes_same (a b : Request)
    (h : field b.headers "Accept-Encoding".toList = field a.headers "Accept-Encoding".toList) (ht : TakesGzip a) :
    TakesGzip b := by
  obtain ⟨v, h1, h2⟩ := ht
  exact ⟨v, h.trans h1, h2⟩

/-! ## Cookies -/

/-- Two requests with one line of cookies at most and the same field have the same cookies. -/
theorem same_cookies (a b : Request) (ha : OneCookieLine a) (hb : OneCookieLine b)
    (h : field b.headers "Cookie".toList = field a.headers "Cookie".toList) : cookiesOf b = cookiesOf a := by
  unfold OneCookieLine at ha hb
  rw [CorsCache.values_getall] at ha hb
  rw [field_getall, field_getall] at h
  have hl : ∀ r : Request, getall lower r.headers "cookie".toList = getall lower r.headers "Cookie".toList :=
    fun r => CorsCache.getall_lower _ _ _ (by decide)
  unfold cookiesOf
  rw [hl, hl]
  cases h1 : getall lower a.headers "Cookie".toList with
  | nil =>
    cases h2 : getall lower b.headers "Cookie".toList with
    | nil => rfl
    | cons w ws => rw [h1, h2] at h; cases h
  | cons v vs =>
    cases h2 : getall lower b.headers "Cookie".toList with
    | nil => rw [h1, h2] at h; cases h
    | cons w ws =>
      rw [h1] at ha
      rw [h2] at hb
      have e1 : vs = [] := List.eq_nil_of_length_eq_zero (Nat.le_zero.mp (Nat.le_of_succ_le_succ ha))
      have e2 : ws = [] := List.eq_nil_of_length_eq_zero (Nat.le_zero.mp (Nat.le_of_succ_le_succ hb))
      subst e1
      subst e2
      rw [h1, h2] at h
      have : w = v := Option.some.inj h
      rw [this]

end Verif.SharedCache
