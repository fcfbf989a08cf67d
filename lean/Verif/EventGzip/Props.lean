import Verif.EventGzip.Lemmas
import Verif.Session.Lemmas

/-!
# C147: event streams behind the compression middleware
-/

namespace Verif.EventGzip.Props

open Verif Verif.MultiDict Verif.Gzip Verif.Gzip.Spec Spec

/-! ## Things for the instances -/

/-- A charset that meets the laws: each character as its number of ones, and a zero. -/
def unary : Charset where
  enc := fun s => s.flatMap fun c => List.replicate c.toNat 1 ++ [0]
  dec := go 0
where
  go : Nat → Bytes → Str
    | _, [] => []
    | n, b :: bs => if b = 0 then Char.ofNat n :: go 0 bs else go (n + 1) bs

theorem go_ones (k n : Nat) (rest : Bytes) :
    unary.go n (List.replicate k 1 ++ 0 :: rest) = Char.ofNat (n + k) :: unary.go 0 rest := by
  induction k generalizing n with
  | zero => rw [List.replicate_zero, List.nil_append, unary.go, if_pos rfl, Nat.add_zero]
  | succ k ih =>
    rw [List.replicate_succ, List.cons_append, unary.go, if_neg (by decide), ih, Nat.add_right_comm, Nat.add_assoc]

theorem unary_lawful : Lawful unary := by
  refine ⟨fun s => ?_, fun a b => List.flatMap_append, rfl, fun a b => ?_⟩
  · show unary.go 0 (s.flatMap fun c => List.replicate c.toNat 1 ++ [0]) = s
    induction s with
    | nil => rfl
    | cons c s ih =>
      rw [List.flatMap_cons, List.append_assoc, List.singleton_append, go_ones, ih, Nat.zero_add, Char.ofNat_toNat]
  · show unary.go 0 a <+: unary.go 0 (a ++ b)
    generalize 0 = n
    induction a generalizing n with
    | nil => exact List.nil_prefix
    | cons x a ih =>
      rw [List.cons_append, unary.go, unary.go]
      split
      · exact (List.prefix_cons_inj _).2 (ih 0)
      · exact ih _

/-- A compressor that writes out everything when it is closed. -/
def slow : Codec where
  S := Bytes
  init := ([], [])
  write := fun s d => (s ++ d, [])
  close := id
  inflate := some

theorem slow_emitted (s : Bytes) (ds : List Bytes) : emitted slow s ds = [] := by
  induction ds generalizing s with
  | nil => rfl
  | cons d ds ih => exact ih _

theorem slow_streaming : Streaming slow := by
  constructor
  · have h : ∀ (ds : List Bytes) (s : Bytes), written slow s ds = s ++ ds.flatten := by
      intro ds
      induction ds with
      | nil => intro s; exact (List.append_nil s).symm
      | cons d ds ih =>
        intro s
        rw [List.flatten_cons, ← List.append_assoc]
        exact ih (s ++ d)
    intro ds
    rw [show written slow slow.init.1 ds = [] ++ ds.flatten from h ds []]
    rfl
  · intro ds
    unfold expanded
    rw [show emitted slow slow.init.1 ds = [] from slow_emitted [] ds]
    exact List.nil_prefix

theorem slow_collects (n : Nat) : Collects slow n := by
  intro ds _
  unfold expanded
  rw [show emitted slow slow.init.1 ds = [] from slow_emitted [] ds]
  exact ⟨rfl, rfl⟩

/-- A compressor that writes out everything at once. -/
def quick : Codec where
  S := Unit
  init := ((), [])
  write := fun _ d => ((), d)
  close := fun _ => []
  inflate := some

theorem quick_emitted (ds : List Bytes) : emitted quick () ds = ds.flatten := by
  induction ds with
  | nil => rfl
  | cons d ds ih =>
    rw [List.flatten_cons, ← ih]
    rfl

theorem quick_flushing : Flushing quick := by
  intro ds
  unfold expanded
  rw [show emitted quick quick.init.1 ds = ds.flatten from quick_emitted ds]
  rfl

theorem quick_streaming : Streaming quick := by
  refine ⟨fun ds => ?_, fun ds => ?_⟩
  · have h : ∀ ds, written quick () ds = ds.flatten := by
      intro ds
      induction ds with
      | nil => rfl
      | cons d ds ih => rw [List.flatten_cons, ← ih]; rfl
    rw [show written quick quick.init.1 ds = ds.flatten from h ds]
    rfl
  · rw [quick_flushing ds]
    exact List.prefix_rfl

/-- A stream with the headers of the class. -/
def ticks : Stream := ⟨defaultHeaders, "\n".toList, none⟩

/-- An event. -/
def tick (d : Str) : Sse.EventDict := ⟨none, none, some "tick".toList, some d, none⟩

/-- A ping. -/
def ping : Sse.EventDict := ⟨some "ping".toList, none, none, none, none⟩

theorem ticks_writable : Writable ticks [ping, tick "1".toList, tick "2".toList] := by
  refine ⟨.inl rfl, ?_, ?_⟩
  · intro e he
    simp only [List.mem_cons, List.not_mem_nil, or_false] at he
    have lit : ∀ s ∈ ["ping".toList, "tick".toList, "1".toList, "2".toList], Sse.Spec.OneLine s := by
      unfold Sse.Spec.OneLine
      decide
    rcases he with rfl | rfl | rfl <;> refine ⟨?_, ?_, ?_, ?_⟩ <;> intro v hv <;>
      first
      | cases hv; exact lit _ (by decide)
      | cases hv
  · intro e he n hn
    simp only [List.mem_cons, List.not_mem_nil, or_false] at he
    rcases he with rfl | rfl | rfl <;> cases hn

/-! ## The property -/

/-- C147, without compression.  If the client does not ask for gzip, a page has been given exactly the events that
have been sent, at every moment. -/
theorem C147_plain (c : Codec) (min : Nat) (t : Charset) (ht : Lawful t) (r : Stream) (es : List Sse.EventDict)
    (request : Items Str) (hw : Writable r es) (hq : wanted request = false)
    (he : valuesOf r.headers "content-encoding".toList = []) :
    ∃ ms, serve c min request (sofar t r es) = some ms ∧ seen c t ms = Sse.Spec.responseEvents [] es := by
  refine ⟨_, C14_not_wanted c min request _ hq, ?_⟩
  rw [sofar_pieces, seen_plain c t _ _ (by rw [he]; decide), bytesOf_bodies, read_pieces t ht r es hw]

/-- A request by a client that knows no compression. -/
example : wanted [("accept".toList, "text/event-stream".toList)] = false ∧
    valuesOf ticks.headers "content-encoding".toList = [] ∧
    Sse.Spec.responseEvents [] [ping, tick "1".toList, tick "2".toList] =
      [⟨"tick".toList, "1".toList, []⟩, ⟨"tick".toList, "2".toList, []⟩] := by
  refine ⟨by decide, by decide, by decide +kernel⟩

/-- C147, with a content coding set by the application, for instance `identity`.  The middleware leaves the stream
alone, and a page has been given exactly the events that have been sent.
Part: from the first event on (see `C147_open_false`). -/
theorem C147_identity_partial (c : Codec) (min : Nat) (t : Charset) (ht : Lawful t) (r : Stream)
    (es : List Sse.EventDict) (request : Items Str) (hw : Writable r es) (hes : es ≠ [])
    (he : valuesOf r.headers "content-encoding".toList ≠ [])
    (hg : valuesOf r.headers "content-encoding".toList ≠ ["gzip".toList]) :
    ∃ ms, serve c min request (sofar t r es) = some ms ∧ seen c t ms = Sse.Spec.responseEvents [] es := by
  refine ⟨sofar t r es, ?_, ?_⟩
  · unfold serve
    split
    · rw [sofar_pieces]
      cases hp : pieces t r es with
      | nil => exact absurd (List.map_eq_nil_iff.1 hp) hes
      | cons d ds => exact run_encoded c min _ _ _ he
    · rfl
  · rw [sofar_pieces, seen_plain c t _ _ hg, bytesOf_bodies, read_pieces t ht r es hw]

example : valuesOf [("content-encoding".toList, "identity".toList)] "content-encoding".toList ≠ [] ∧
    valuesOf [("content-encoding".toList, "identity".toList)] "content-encoding".toList ≠ ["gzip".toList] := by
  decide

/-- C147, with a compressor that would write out everything at once: a page has been given exactly the events that
have been sent.
Part: `gzip.GzipFile` without a flush is no such compressor, see `C147_held_false`. -/
theorem C147_flushing_partial (c : Codec) (hc : Flushing c) (min : Nat) (t : Charset) (ht : Lawful t) (r : Stream)
    (es : List Sse.EventDict) (hes : es ≠ []) (hw : Writable r es)
    (he : valuesOf r.headers "content-encoding".toList = []) :
    ∃ ms, run c min (sofar t r es) = some ms ∧ seen c t ms = Sse.Spec.responseEvents [] es := by
  obtain ⟨outs, h1, _, h3⟩ := run_sofar c min t r es hes he
  exact ⟨_, h1, by rw [h3, hc, read_pieces t ht r es hw]⟩

example : Flushing quick ∧ Lawful unary := ⟨quick_flushing, unary_lawful⟩

/-- C147, order.  At every moment a page has been given the first of the events that have been sent, in order and
unchanged: nothing is lost, doubled or changed by compression. -/
theorem C147_order (c : Codec) (hc : Streaming c) (min : Nat) (t : Charset) (ht : Lawful t) (r : Stream)
    (es : List Sse.EventDict) (hw : Writable r es) (he : valuesOf r.headers "content-encoding".toList = []) :
    ∃ ms, run c min (sofar t r es) = some ms ∧ seen c t ms <+: Sse.Spec.responseEvents [] es := by
  by_cases hes : es = []
  · subst hes
    refine ⟨[], run_none c min _, ?_⟩
    have h : t.dec [] = [] := by
      have := ht.1 []
      rwa [ht.2.2.1] at this
    show (if valuesOf [] "content-encoding".toList = ["gzip".toList] then
      (Sse.Spec.read (t.dec ((c.inflate []).getD []))).out else (Sse.Spec.read (t.dec [])).out) <+: _
    rw [if_neg (by decide), h]
    exact List.nil_prefix
  · obtain ⟨outs, h1, _, h3⟩ := run_sofar c min t r es hes he
    refine ⟨_, h1, ?_⟩
    rw [h3, ← read_pieces t ht r es hw]
    obtain ⟨rest, hr⟩ := hc.2 (pieces t r es)
    rw [← hr]
    exact read_prefix _ _ (ht.2.2.2 _ _)

example : Streaming slow ∧ Streaming quick ∧ Lawful unary ∧ Writable ticks [ping, tick "1".toList, tick "2".toList] :=
  ⟨slow_streaming, quick_streaming, unary_lawful, ticks_writable⟩

/-- C147, the end.  When the stream has ended, a page has been given all events. -/
theorem C147_end (c : Codec) (hc : Streaming c) (min : Nat) (t : Charset) (ht : Lawful t) (r : Stream)
    (es : List Sse.EventDict) (hw : Writable r es) (he : valuesOf r.headers "content-encoding".toList = []) :
    ∃ ms, run c min (whole t r es) = some ms ∧ seen c t ms = Sse.Spec.responseEvents [] es := by
  have hwhole : whole t r es = response r.headers (pieces t r es) [] := by
    unfold whole
    rw [sofar_pieces]
    rfl
  have hread := read_pieces t ht r es hw
  rw [hwhole]
  by_cases hd : pieces t r es ≠ [] ∨ min ≤ ([] : Bytes).length
  · obtain ⟨h', outs, lo, h1, _, h3, h4, _⟩ := C14_compressed c hc.1 min r.headers (pieces t r es) [] he hd
    refine ⟨_, h1, ?_⟩
    have hr : response h' outs lo = .start h' :: (response h' outs lo).tail := rfl
    have hb : bytesOf (response h' outs lo).tail = outs.flatten ++ lo := by
      rw [← bytesOf_response h' outs lo]
      rfl
    rw [hr, seen_gzip c t _ _ h4, hb, h3, Option.getD_some, List.append_nil]
    exact hread
  · have hp : pieces t r es = [] := by
      cases h : pieces t r es with
      | nil => rfl
      | cons a b => exact absurd (.inl (by rw [h]; exact List.cons_ne_nil _ _)) hd
    rw [hp] at hread ⊢
    refine ⟨_, C14_small c min r.headers [] (Nat.lt_of_not_le fun h => hd (.inr h)), ?_⟩
    have hr : response r.headers [] [] = .start r.headers :: [.body [] false] := rfl
    rw [hr, seen_plain c t _ _ (by rw [he]; decide)]
    exact hread

/-- A stream that has ended. -/
example : run quick 500 (whole ⟨fun s => s.map fun c => c.toNat.toUInt8, fun b => b.map fun x => Char.ofNat x.toNat⟩
      ticks [tick "1".toList]) =
    some [.start (streamHeaders defaultHeaders),
      .body ("event: tick\ndata: 1\n\n".toList.map fun c => c.toNat.toUInt8) true, .body [] false] := by decide +kernel

/-- C147 is false: with a compressor that collects `n` bytes, a page is given none of the events while these have no
more than `n` bytes, however long ago they were sent; nor do pings reach the client: all messages after the headers
together have just the bytes of the header of the compressed format. -/
theorem C147_held_false (c : Codec) (n : Nat) (hc : Collects c n) (min : Nat) (t : Charset) (ht : Lawful t)
    (r : Stream) (es : List Sse.EventDict) (hes : es ≠ [])
    (he : valuesOf r.headers "content-encoding".toList = []) (hn : (pieces t r es).flatten.length ≤ n) :
    ∃ ms, run c min (sofar t r es) = some ms ∧ seen c t ms = [] ∧ bytesOf ms = c.init.2 := by
  obtain ⟨outs, h1, h2, h3⟩ := run_sofar c min t r es hes he
  obtain ⟨hc1, hc2⟩ := hc _ hn
  have h : t.dec [] = [] := by
    have := ht.1 []
    rwa [ht.2.2.1] at this
  refine ⟨_, h1, ?_, ?_⟩
  · rw [h3, hc2, h]
    rfl
  · show bytesOf (outs.map fun d => Msg.body d true) = _
    rw [bytesOf_bodies, h2, hc1, List.append_nil]

/-- There is such a compressor which is a good one otherwise, and there are events that should be seen. -/
example : Streaming slow ∧ (∀ n, Collects slow n) ∧
    Sse.Spec.responseEvents [] [tick "1".toList] = [⟨"tick".toList, "1".toList, []⟩] :=
  ⟨slow_streaming, slow_collects, by decide +kernel⟩

/-- C147 is false: a client that asks for gzip does not even get the headers before the first event, so the page is not
told that the stream is open; whether the stream is compressed or not. -/
theorem C147_open_false (c : Codec) (min : Nat) (t : Charset) (r : Stream) (request : Items Str)
    (hq : wanted request = true) :
    serve c min request (sofar t r []) = some [] := by
  unfold serve
  rw [if_pos hq]
  exact run_none c min _

example : wanted [("Accept-Encoding".toList, "gzip, deflate, br".toList)] = true := by decide

/-- C147 is false: a stream that ends because of `send_timeout` sends its last message twice; behind the middleware
the second one raises, since the compressor is closed. -/
theorem C147_timeout_false (c : Codec) (min : Nat) (t : Charset) (r : Stream) (es : List Sse.EventDict) (hes : es ≠ [])
    (he : valuesOf r.headers "content-encoding".toList = []) : run c min (timedOut t r es) = none := by
  have h : timedOut t r es = response r.headers (pieces t r es) [] ++ [.body [] false] := by
    unfold timedOut response
    rw [sofar_pieces, List.append_assoc]
    rfl
  rw [h]
  exact C14_after_end c min r.headers _ [] he (.inl fun e => hes (List.map_eq_nil_iff.1 e)) [] false

/-- C147, headers.  If the application gives headers in lower case, they replace those of the class; the type is always
that of event streams, which proxies and browsers go by, and no length is stated. -/
theorem C147_headers (given : Items Str) (hd : (given.map (·.1)).Nodup) (hl : ∀ kv ∈ given, lower kv.1 = kv.1) :
    valuesOf (headersFor given) "content-type".toList = ["text/event-stream".toList] ∧
    valuesOf (headersFor given) "content-length".toList = [] ∧
    ∀ n, lower n = n → n ≠ "content-type".toList → n ≠ "content-length".toList →
      valuesOf (headersFor given) n = ((aget given n).or (aget
        [("cache-control".toList, "no-cache".toList), ("connection".toList, "keep-alive".toList),
          ("x-accel-buffering".toList, "no".toList), ("transfer-encoding".toList, "chunked".toList)] n)).toList := by
  have e1 : lower "content-type".toList = "content-type".toList := by decide
  have e2 : lower "content-length".toList = "content-length".toList := by decide
  have e3 : "content-type".toList ≠ "content-length".toList := by decide
  have hdef : ∀ kv ∈ defaultHeaders, lower kv.1 = kv.1 := by decide
  have hnd : (defaultHeaders.map (·.1)).Nodup := by decide
  have hl1 := aupdate_lower defaultHeaders given hl hdef
  have hn1 := Session.nodup_aupdate defaultHeaders given hnd
  have hg := fun k => aget_aupdate defaultHeaders given hd k
  obtain ⟨h1, h2, h3⟩ := finish _ _ _ _ _ e1 e2 e3 hl1 hn1 (headersFor given) rfl
  refine ⟨by rw [valuesOf_getall]; exact h1, by rw [valuesOf_getall]; exact h2, fun n hn ha hb => ?_⟩
  rw [valuesOf_getall, h3 n hn ha hb, hg n]
  exact congrArg (fun o => ((aget given n).or o).toList)
    (aget_skip [("cache-control".toList, "no-cache".toList), ("connection".toList, "keep-alive".toList)]
      [("x-accel-buffering".toList, "no".toList), ("transfer-encoding".toList, "chunked".toList)] _ _ n ha)

example : headersFor [] = defaultHeaders ∧
    headersFor [("cache-control".toList, "no-store".toList), ("content-type".toList, "text/plain".toList),
      ("content-length".toList, "5".toList), ("x".toList, "y".toList)] =
      [("cache-control".toList, "no-store".toList), ("connection".toList, "keep-alive".toList),
        ("content-type".toList, "text/event-stream".toList), ("x-accel-buffering".toList, "no".toList),
        ("transfer-encoding".toList, "chunked".toList), ("x".toList, "y".toList)] := by
  refine ⟨?_, ?_⟩ <;> decide +kernel

/-- C147 is false of headers with capital letters: they do not replace those of the class, and a given `Content-Length`
makes the stream state the length 0. -/
theorem C147_headers_false :
    valuesOf (headersFor [("Cache-Control".toList, "no-store".toList)]) "cache-control".toList =
      ["no-cache".toList, "no-store".toList] ∧
    valuesOf (headersFor [("Content-Length".toList, "5".toList)]) "content-length".toList = ["0".toList] := by
  refine ⟨?_, ?_⟩ <;> decide +kernel

end Verif.EventGzip.Props
