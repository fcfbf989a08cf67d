import Verif.FileGzip.Lemmas

/-!
# C132: files behind the compression middleware

Full statement (refuted below): behind `GZipMiddleware` a client can fetch a file, or a range of it to continue
an interrupted transfer, and check by the entity tag that it continues the same representation: whatever the
method and the abilities of the server there is an answer; two answers with the same (strong) entity tag have
the same bytes; and the body of a partial response is the range, named by its `Content-Range`, of the body of
the response to the request without a range.
-/

namespace Verif.FileGzip.Props

open Verif Verif.MultiDict Verif.Gzip Verif.Ranges
open Verif.Gzip.Spec (valuesOf)
open Verif.FileGzip.Spec

/-- C132 for what a client reads after decompression: whenever an ordinary request is answered, the answer is
whole, its length is announced rightly if at all, it has the entity tag of the file, and it decodes to the whole
file or to the range of the file that the header names. -/
theorem C132_partial (s : Site) (headers : Items Str) (req : FileResponse.Req) (ms : List Msg)
    (hf : Gzip.Spec.Faithful s.codec) (hb : Free s.base) (hc : 0 < s.conf.chunk) (ho : Ordinary s req)
    (h : answer s headers req = some ms) :
    ∃ hd body content, Whole ms hd body ∧ Reads s.codec hd body content ∧
      (∀ v ∈ valuesOf hd "content-length".toList, v = (toString body.length).toList) ∧
      valuesOf hd "etag".toList = [s.conf.etag] ∧
      ((valuesOf hd "content-range".toList = [] ∧ content = s.file) ∨
       ∃ r, valuesOf hd "content-range".toList = [contentRange r s.file.length] ∧ content = part s.file r) := by
  obtain ⟨msgs, hd, body, range, hp, hs⟩ := answer_plain ho hb hc h
  obtain ⟨h', body', hw, hr, hl, he, hrg⟩ := served hf hp hs
  refine ⟨h', body', body, hw, hr, hl, by rw [he, hp.etag], ?_⟩
  rw [hrg, hp.range, hp.content]
  cases range with
  | none => exact Or.inl ⟨rfl, rfl⟩
  | some r => exact Or.inr ⟨r, rfl, rfl⟩

/-- C132 for the range that is asked for: `bytes=a-b` within the file is answered, by exactly these bytes of the
file once decompressed. -/
theorem C132_requested (s : Site) (headers : Items Str) (req : FileResponse.Req)
    (hf : Gzip.Spec.Faithful s.codec) (hb : Free s.base) (hc : 0 < s.conf.chunk) (ho : Ordinary s req)
    (ha : s.conf.allowRange = true) (hi : req.ifRange = [] ∨ req.ifRange = s.conf.etag) (a b : Nat)
    (hr : req.range = Ranges.Spec.header [.closed a b]) (hs : (Ranges.Spec.Item.closed a b).Short) (hab : a ≤ b)
    (hbl : b < s.file.length) :
    ∃ ms hd body, answer s headers req = some ms ∧ Whole ms hd body ∧
      Reads s.codec hd body ((s.file.drop a).take (b - a + 1)) ∧
      valuesOf hd "content-range".toList = [contentRange ⟨a, b⟩ s.file.length] := by
  obtain ⟨bodies, st, hcall, -, -⟩ := FileResponse.C20_requested s.conf hc ha s.sub (ofBytes s.file) req ho.reads hi
    a b hr hs hab (by rw [ofBytes_length]; exact hbl)
  obtain ⟨hd, body, range, hp, status, length, bodies', e⟩ := plain_of_call ho hb hc hcall
  have hrange : range = some ⟨a, b⟩ := by
    have := (List.cons.inj e).1
    injection this with _ _ h3 _
    exact h3.symm
  subst hrange
  obtain ⟨ms, hms⟩ := served_some headers hf hp
  obtain ⟨h', body', hw, hrd, -, -, hrg⟩ := served hf hp hms
  refine ⟨ms, h', body', ?_, hw, ?_, by rw [hrg, hp.range]⟩
  · unfold answer; rw [hcall]; exact hms
  · have hbody : body = (s.file.drop a).take (b - a + 1) := by
      rw [hp.content]
      unfold part
      dsimp only
      congr 1
      omega
    rw [← hbody]
    exact hrd

/-- C132 without compression: the body of a partial response is the named range of the body of the whole
response, byte by byte, under the same entity tag. -/
theorem C132_identity (s : Site) (headers : Items Str) (req req0 : FileResponse.Req) (ms ms0 : List Msg)
    (hn : wanted headers = false) (hb : Free s.base) (hc : 0 < s.conf.chunk) (ho : Ordinary s req)
    (ho0 : Ordinary s req0) (hr : req0.range = [])
    (h : answer s headers req = some ms) (h0 : answer s headers req0 = some ms0) :
    ∃ hd body hd0 body0, Whole ms hd body ∧ Whole ms0 hd0 body0 ∧
      valuesOf hd "etag".toList = valuesOf hd0 "etag".toList ∧
      ((valuesOf hd "content-range".toList = [] ∧ body = body0) ∨
       ∃ r, valuesOf hd "content-range".toList = [contentRange r body0.length] ∧ body = part body0 r) := by
  have direct : ∀ {msgs ms : List Msg}, Gzip.serve s.codec s.min headers msgs = some ms → msgs = ms := by
    intro msgs ms e
    rw [Gzip.C14_not_wanted _ _ _ _ hn] at e
    exact Option.some.inj e
  obtain ⟨msgs, hd, body, range, hp, hs⟩ := answer_plain ho hb hc h
  have hcall := call_whole s.conf s.sub (ofBytes s.file) req0 ho0.reads hr
  obtain ⟨hd0, body0, range0, hp0, status, length, bodies', e⟩ := plain_of_call ho0 hb hc hcall
  have hrange : range0 = none := by
    have := (List.cons.inj e).1
    injection this with _ _ h3 _
    exact h3.symm
  subst hrange
  unfold answer at h0
  rw [hcall] at h0
  have e1 := direct hs
  have e0 := direct h0
  subst e1 e0
  have hb0 : body0 = s.file := hp0.content
  refine ⟨hd, body, hd0, body0, hp.whole, hp0.whole, by rw [hp.etag, hp0.etag], ?_⟩
  rw [hp.range, hp.content, hb0]
  cases range with
  | none => exact Or.inl ⟨rfl, rfl⟩
  | some r => exact Or.inr ⟨r, rfl, rfl⟩

/-! ### Where it fails -/

/-- A file of four bytes behind a compressor. -/
def site : Site :=
  ⟨Gzip.toy, 0, ⟨65536, true, .off, "e".toList, 200⟩, fun _ => [], [], [1, 2, 3, 4]⟩

/-- `Accept-Encoding: gzip`. -/
def accepts : Items Str := [("accept-encoding".toList, "gzip".toList)]

/-- A request for the file, or for a range of it if its entity tag is `e`. -/
def get (range : String) : FileResponse.Req :=
  ⟨false, if range = "" then [] else "e".toList, range.toList, false, false⟩

theorem site_faithful : Gzip.Spec.Faithful site.codec := by
  intro ds
  show Gzip.toy.inflate (_ ++ Gzip.Spec.written Gzip.toy () ds) = _
  rw [Gzip.toy_written]
  simp [Gzip.toy, site]

/-- C132 fails for partial responses that are compressed: the range is taken of the file before compression, and
compressed by itself.  It is not the range of the compressed whole, its `Content-Range` has the length of
another representation, and a client that got the first two bytes of the whole and continues from there with
`If-Range` (the tag agrees) ends up with something that is not the file. -/
theorem C132_range_false : ∃ ms hd body ms0 hd0 body0,
    answer site accepts (get "bytes=2-") = some ms ∧ Whole ms hd body ∧
    answer site accepts (get "") = some ms0 ∧ Whole ms0 hd0 body0 ∧
    valuesOf hd "etag".toList = valuesOf hd0 "etag".toList ∧
    valuesOf hd "content-encoding".toList = valuesOf hd0 "content-encoding".toList ∧
    valuesOf hd "content-range".toList = [contentRange ⟨2, 3⟩ 4] ∧
    body ≠ part body0 ⟨2, 3⟩ ∧ body0.length ≠ 4 ∧
    site.codec.inflate body0 = some site.file ∧
    site.codec.inflate (body0.take 2 ++ body) ≠ some site.file :=
  ⟨_, [("Content-Length".toList, "4".toList), ("etag".toList, "e".toList),
      ("content-range".toList, contentRange ⟨2, 3⟩ 4), ("Content-Encoding".toList, "gzip".toList),
      ("vary".toList, "Accept-Encoding".toList)], [31, 3, 4, 0], _,
    [("Content-Length".toList, "6".toList), ("etag".toList, "e".toList),
      ("Content-Encoding".toList, "gzip".toList), ("vary".toList, "Accept-Encoding".toList)],
    [31, 1, 2, 3, 4, 0], by decide +kernel, ⟨[], _, rfl, rfl⟩, by decide +kernel, ⟨[], _, rfl, rfl⟩,
    by decide +kernel, by decide +kernel, by decide +kernel, by decide +kernel, by decide +kernel, by decide +kernel,
    by decide +kernel⟩

/-- C132 fails for the entity tag: a strong tag for two representations with different bytes. -/
theorem C132_etag_false : ∃ ms hd body ms0 hd0 body0,
    answer site accepts (get "") = some ms ∧ Whole ms hd body ∧
    answer site [] (get "") = some ms0 ∧ Whole ms0 hd0 body0 ∧
    valuesOf hd "etag".toList = valuesOf hd0 "etag".toList ∧ body ≠ body0 :=
  ⟨_, [("Content-Length".toList, "6".toList), ("etag".toList, "e".toList),
      ("Content-Encoding".toList, "gzip".toList), ("vary".toList, "Accept-Encoding".toList)],
    [31, 1, 2, 3, 4, 0], _, [("content-length".toList, "4".toList), ("etag".toList, "e".toList)], [1, 2, 3, 4],
    by decide +kernel, ⟨[], _, rfl, rfl⟩, by decide +kernel, ⟨[], _, rfl, rfl⟩, by decide +kernel,
    by decide +kernel⟩

/-- C132 fails for `HEAD` and `OPTIONS` from every client that accepts gzip, whatever the file: the response is
only a start, the middleware keeps it back for the first piece of the body, and nothing is sent at all.  Without
gzip the start is sent. -/
theorem C132_head_false (s : Site) (headers : Items Str) (req : FileResponse.Req) (hh : req.headerOnly = true) :
    (wanted headers = true → answer s headers req = some []) ∧
    (wanted headers = false → ∃ h, answer s headers req = some [.start h]) := by
  obtain ⟨status, length, range, mp, st', hcall, -⟩ :=
    FileResponse.C20_head_false s.conf s.sub (FileResponse.State.new s.conf) (ofBytes s.file) req hh
  unfold answer
  rw [hcall]
  refine ⟨fun hw => ?_, fun hw => ?_⟩
  · unfold Gzip.serve
    rw [hw]
    exact run_others s.min _ _ (fun m hm => Or.inr ⟨_, List.mem_singleton.mp hm⟩)
  · exact ⟨_, Gzip.C14_not_wanted _ _ _ _ hw⟩

/-- C132 fails for servers that copy the file themselves (`http.response.pathsend`, `http.response.zerocopysend`):
the middleware passes on neither these messages nor, for want of a body, the start. -/
theorem C132_copy_false (s : Site) (headers : Items Str) (req : FileResponse.Req) (hm : req.headerOnly = false)
    (hr : req.range = []) (hc : req.pathsend = true ∨ req.zerocopy = true) (hw : wanted headers = true) :
    answer s headers req = some [] := by
  have hcall := call_whole s.conf s.sub (ofBytes s.file) req hm hr
  unfold answer
  rw [hcall]
  unfold Gzip.serve
  rw [hw]
  refine run_others s.min _ _ ?_
  intro m hmem
  rw [List.map_cons] at hmem
  rcases List.mem_cons.mp hmem with e | hmem
  · exact Or.inr ⟨_, e⟩
  · obtain ⟨x, hx, e⟩ := List.mem_map.mp hmem
    refine Or.inl ?_
    unfold FileResponse.sendBody at hx
    split at hx
    · rw [List.mem_singleton.mp hx] at e
      exact e.symm
    · rename_i hnot
      have hz : req.zerocopy = true := by
        rcases hc with hp | hz
        · exact absurd ⟨rfl, hp⟩ hnot
        · exact hz
      simp only [hz, if_true, FileResponse.planSub, Option.isSome_none, Bool.false_eq_true, if_false,
        List.append_nil] at hx
      obtain ⟨d, b, e'⟩ := sendRanges_copy _ _ _ _ _ x hx
      rw [e'] at e
      exact e.symm

/-! ### Instances -/

/-- The hypotheses can be met: the request for a range is ordinary, and answered. -/
example : Gzip.Spec.Faithful site.codec ∧ Free site.base ∧ 0 < site.conf.chunk ∧ Ordinary site (get "bytes=2-3") ∧
    (answer site accepts (get "bytes=2-3")).isSome = true :=
  ⟨site_faithful, fun _ _ => rfl, by decide, ⟨rfl, Or.inl rfl, rfl, rfl⟩, by decide +kernel⟩

/-- The range of `C132_requested`. -/
example : (get "bytes=2-3").range = Ranges.Spec.header [.closed 2 3] ∧ (Ranges.Spec.Item.closed 2 3).Short ∧
    (get "bytes=2-3").ifRange = site.conf.etag ∧ 3 < site.file.length ∧ wanted accepts = true ∧
    wanted [] = false :=
  ⟨by decide +kernel, ⟨by decide +kernel, by decide +kernel⟩, by decide +kernel, by decide, by decide +kernel, by
      decide +kernel⟩

end Verif.FileGzip.Props
