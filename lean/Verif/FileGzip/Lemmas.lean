import Verif.FileGzip.Spec
import Verif.FileResponse.Props
import Verif.Gzip.Props

/-!
# Lemmas about files behind compression
-/

namespace Verif.FileGzip

open Verif Verif.MultiDict Verif.Gzip Verif.Ranges
open Verif.Gzip.Spec (valuesOf)
open Verif.FileGzip.Spec

/-! ### Bytes -/

theorem byte_back (x : UInt8) : (Char.ofNat x.toNat).toNat.toUInt8 = x := by
  have h : x.toNat < 256 := x.toNat_lt
  have hv : x.toNat.isValidChar := Or.inl (by omega)
  have : (Char.ofNat x.toNat).toNat = x.toNat := by
    unfold Char.ofNat
    rw [dif_pos hv]
    rfl
  rw [this]
  exact UInt8.ofNat_toNat

theorem toBytes_ofBytes (b : Bytes) : toBytes (ofBytes b) = b := by
  unfold toBytes ofBytes
  rw [List.map_map]
  conv => rhs; rw [← List.map_id b]
  exact List.map_congr_left (fun x _ => byte_back x)

theorem ofBytes_length (b : Bytes) : (ofBytes b).length = b.length := List.length_map _

theorem toBytes_slice (b : Bytes) (r : Rng) : toBytes (FileResponse.Spec.slice (ofBytes b) r) = part b r := by
  conv => rhs; rw [← toBytes_ofBytes b]
  unfold part FileResponse.Spec.slice toBytes
  rw [List.map_take, List.map_drop]

theorem toBytes_append (a b : Str) : toBytes (a ++ b) = toBytes a ++ toBytes b := List.map_append

/-! ### The messages of the file response -/

theorem chunks_shape (mk : Str → Bool → FileResponse.Msg) (chunk : Nat) (sub : Bool) (file : Str) :
    ∀ (fuel size pos : Nat), ∀ m ∈ (FileResponse.chunks mk chunk sub file fuel size pos).1, ∃ d b, m = mk d b
  | 0, _, _, _, h => nomatch h
  | fuel + 1, size, pos, m, h => by
    unfold FileResponse.chunks at h
    split at h
    · rcases List.mem_cons.mp h with e | e
      · exact ⟨_, _, e⟩
      · exact chunks_shape mk chunk sub file fuel _ _ m e
    · rw [List.mem_singleton] at h
      exact ⟨_, _, h⟩

theorem sendRanges_body (chunk : Nat) (sub : Option (Rng → Str)) (file : Str) : ∀ (rs : List Rng) (l : Int) (p : Nat),
    ∀ m ∈ FileResponse.sendRanges .body chunk sub file l p rs, ∃ d b, m = .body d b
  | [], _, _, _, h => nomatch h
  | r :: rs, l, p, m, h => by
    unfold FileResponse.sendRanges at h
    simp only [List.mem_append] at h
    rcases h with (h | h) | h
    · cases sub with
      | none => exact nomatch h
      | some f => exact ⟨_, _, List.mem_singleton.mp h⟩
    · exact chunks_shape _ _ _ _ _ _ _ m h
    · exact sendRanges_body chunk sub file rs _ _ m h

theorem sendRanges_copy (chunk : Nat) (file : Str) : ∀ (rs : List Rng) (l : Int) (p : Nat),
    ∀ m ∈ FileResponse.sendRanges .zerocopy chunk none file l p rs, ∃ d b, m = .zerocopy d b
  | [], _, _, _, h => nomatch h
  | r :: rs, l, p, m, h => by
    unfold FileResponse.sendRanges at h
    simp only [List.mem_append] at h
    rcases h with (h | h) | h
    · exact nomatch h
    · exact chunks_shape _ _ _ _ _ _ _ m h
    · exact sendRanges_copy chunk file rs _ _ m h

theorem sendBody_body {c : FileResponse.Conf} {f : Rng → Str} {st : FileResponse.State} {file : Str}
    {req : FileResponse.Req} {pl : FileResponse.Plan} (hp : req.pathsend = false) (hz : req.zerocopy = false) :
    ∀ m ∈ FileResponse.sendBody c f st file req pl, ∃ d b, m = .body d b := by
  intro m hm
  unfold FileResponse.sendBody at hm
  rw [if_neg (by rw [hp]; simp), hz] at hm
  rcases List.mem_append.mp hm with h | h
  · exact sendRanges_body _ _ _ _ _ _ m (by simpa using h)
  · split at h
    · exact ⟨_, _, List.mem_singleton.mp h⟩
    · exact nomatch h

theorem call_shape {c : FileResponse.Conf} {f : Rng → Str} {st st' : FileResponse.State} {file : Str}
    {req : FileResponse.Req} {msgs : List FileResponse.Msg} (hm : req.headerOnly = false)
    (h : FileResponse.call c f st file req = .sent msgs st') :
    ∃ s l r mp pl, msgs = .start s l r mp :: FileResponse.sendBody c f st' file req pl ∧
      FileResponse.plan c (FileResponse.announce file st) req = (pl, st') ∧ pl ≠ .notSatisfiable := by
  unfold FileResponse.call at h
  cases hp : FileResponse.plan c (FileResponse.announce file st) req with
  | mk pl st1 =>
    rw [hp] at h
    cases pl with
    | notSatisfiable => simp [FileResponse.callWith] at h
    | whole =>
      simp only [FileResponse.callWith, hm, Bool.false_eq_true, if_false, FileResponse.Outcome.sent.injEq] at h
      obtain ⟨h1, h2⟩ := h
      subst h1 h2
      exact ⟨_, _, _, _, .whole, rfl, rfl, fun e => nomatch e⟩
    | ranges rs =>
      simp only [FileResponse.callWith, hm, Bool.false_eq_true, if_false, FileResponse.Outcome.sent.injEq] at h
      obtain ⟨h1, h2⟩ := h
      subst h1 h2
      exact ⟨_, _, _, _, .ranges rs, rfl, rfl, fun e => nomatch e⟩

/-- Bodies that end as they should, as the middleware sees them. -/
theorem wire_bodies (base : Items Str) (etag : Str) (size : Nat) (file : Str) :
    ∀ {ms : List FileResponse.Msg}, (∀ m ∈ ms, ∃ d b, m = .body d b) →
    (∀ m ∈ ms, FileResponse.Spec.more m = true) →
    ∃ ds : List Bytes, ms.map (wire base etag size) = ds.map (fun d => Gzip.Msg.body d true) ∧
      ds.flatten = toBytes (FileResponse.Spec.bytes file ms)
  | [], _, _ => ⟨[], rfl, rfl⟩
  | m :: ms, hb, hm => by
    obtain ⟨ds, h1, h2⟩ := wire_bodies base etag size file
      (fun x hx => hb x (List.mem_cons_of_mem _ hx)) (fun x hx => hm x (List.mem_cons_of_mem _ hx))
    obtain ⟨d, b, e⟩ := hb m (by simp)
    have hmore := hm m (by simp)
    subst e
    have hb' : b = true := hmore
    subst hb'
    refine ⟨toBytes d :: ds, ?_, ?_⟩
    · simp only [List.map_cons, h1]; rfl
    · simp only [List.flatten_cons, h2, FileResponse.Spec.bytes, List.map_cons, FileResponse.Spec.payload,
        toBytes_append]

theorem wire_finished (base : Items Str) (etag : Str) (size : Nat) (file : Str)
    {ms : List FileResponse.Msg} (hb : ∀ m ∈ ms, ∃ d b, m = .body d b) (hf : FileResponse.Spec.Finished ms) :
    ∃ (ds : List Bytes) (last : Bytes), ms.map (wire base etag size) = ds.map (fun d => Gzip.Msg.body d true) ++
        [.body last false] ∧
      ds.flatten ++ last = toBytes (FileResponse.Spec.bytes file ms) := by
  obtain ⟨init, l, e, hl, hi⟩ := hf
  subst e
  obtain ⟨ds, h1, h2⟩ := wire_bodies base etag size file
    (fun m hm => hb m (List.mem_append_left _ hm)) hi
  obtain ⟨d, b, e⟩ := hb l (by simp)
  subst e
  have hb' : b = false := hl
  subst hb'
  refine ⟨ds, toBytes d, ?_, ?_⟩
  · rw [List.map_append, h1]; rfl
  · rw [h2]
    simp [FileResponse.Spec.bytes, FileResponse.Spec.payload, toBytes_append]

/-! ### Headers -/

theorem valuesOf_append (a b : Items Str) (n : Str) : valuesOf (a ++ b) n = valuesOf a n ++ valuesOf b n := by
  unfold valuesOf
  rw [List.filter_append, List.map_append]

theorem valuesOf_cons_eq {k v n : Str} {h : Items Str} (e : lower k = lower n) :
    valuesOf ((k, v) :: h) n = v :: valuesOf h n := by
  unfold valuesOf
  rw [List.filter_cons_of_pos (by simpa using e)]
  rfl

theorem valuesOf_cons_ne {k v n : Str} {h : Items Str} (e : lower k ≠ lower n) :
    valuesOf ((k, v) :: h) n = valuesOf h n := by
  unfold valuesOf
  rw [List.filter_cons_of_neg (by simpa using e)]

theorem valuesOf_nil (n : Str) : valuesOf [] n = [] := rfl

theorem headersOf_encoding {base : Items Str} (hb : Free base) (etag : Str) (size : Nat) (l : Int)
    (r : Option Rng) : valuesOf (headersOf base etag size l r) "content-encoding".toList = [] := by
  unfold headersOf
  rw [valuesOf_append, valuesOf_append, hb _ (by decide), List.nil_append,
    valuesOf_cons_ne (by decide), valuesOf_cons_ne (by decide), valuesOf_nil, List.nil_append]
  cases r with
  | none => rfl
  | some r => exact valuesOf_cons_ne (by decide)

theorem headersOf_length {base : Items Str} (hb : Free base) (etag : Str) (size : Nat) (l : Int)
    (r : Option Rng) :
    valuesOf (headersOf base etag size l r) "content-length".toList = [(toString l).toList] := by
  unfold headersOf
  rw [valuesOf_append, valuesOf_append, hb _ (by decide), List.nil_append,
    valuesOf_cons_eq (by decide), valuesOf_cons_ne (by decide), valuesOf_nil]
  cases r with
  | none => rfl
  | some r =>
    rw [valuesOf_cons_ne (by decide)]
    rfl

theorem headersOf_etag {base : Items Str} (hb : Free base) (etag : Str) (size : Nat) (l : Int)
    (r : Option Rng) : valuesOf (headersOf base etag size l r) "etag".toList = [etag] := by
  unfold headersOf
  rw [valuesOf_append, valuesOf_append, hb _ (by decide), List.nil_append,
    valuesOf_cons_ne (by decide), valuesOf_cons_eq (by decide), valuesOf_nil]
  cases r with
  | none => rfl
  | some r =>
    rw [valuesOf_cons_ne (by decide)]
    rfl

theorem rangeText_eq (r : Ranges.Rng) (size : Nat) : rangeText r size = Spec.contentRange r size := by
  unfold rangeText Spec.contentRange
  rw [String.toList_append, String.toList_append, String.toList_append, String.toList_append, String.toList_append]
  simp only [List.append_assoc, show "-".toList = ['-'] from rfl, show "/".toList = ['/'] from rfl,
    List.cons_append, List.nil_append]

theorem headersOf_range {base : Items Str} (hb : Free base) (etag : Str) (size : Nat) (l : Int)
    (r : Option Rng) : valuesOf (headersOf base etag size l r) "content-range".toList =
      match r with
      | some r => [contentRange r size]
      | none => [] := by
  unfold headersOf
  rw [valuesOf_append, valuesOf_append, hb _ (by decide), List.nil_append,
    valuesOf_cons_ne (by decide), valuesOf_cons_ne (by decide), valuesOf_nil, List.nil_append]
  cases r with
  | none => rfl
  | some r =>
    show _ = [contentRange r size]
    rw [← rangeText_eq]
    exact valuesOf_cons_eq (by decide)

/-! ### An ordinary request -/

/-- What an ordinary request is answered with before compression. -/
structure Plain (s : Site) (msgs : List Gzip.Msg) (h : Items Str) (body : Bytes) (rg : Option Rng) : Prop where
  whole : ∃ ds last, msgs = Gzip.Spec.response h ds last ∧ body = ds.flatten ++ last
  encoding : valuesOf h "content-encoding".toList = []
  length : valuesOf h "content-length".toList = [(toString body.length).toList]
  etag : valuesOf h "etag".toList = [s.conf.etag]
  range : valuesOf h "content-range".toList = match rg with
    | some r => [contentRange r s.file.length]
    | none => []
  content : body = match rg with
    | some r => part s.file r
    | none => s.file

theorem plain_of_call {s : Site} {req : FileResponse.Req} {msgs : List FileResponse.Msg} {st : FileResponse.State}
    (ho : Ordinary s req) (hb : Free s.base) (hc : 0 < s.conf.chunk)
    (h : FileResponse.call s.conf s.sub (FileResponse.State.new s.conf) (ofBytes s.file) req = .sent msgs st) :
    ∃ hd body range, Plain s (msgs.map (wire s.base s.conf.etag s.file.length)) hd body range ∧
      ∃ status length bodies, msgs = .start status length range false :: bodies := by
  obtain ⟨s', l', r', mp', pl, e', -, -⟩ := call_shape ho.reads h
  obtain ⟨status, length, range, bodies, e, hf, hl, hcase⟩ :=
    FileResponse.C20_exact_partial s.conf hc s.sub (ofBytes s.file) req ho.reads ho.single msgs st h
  have hbodies : ∀ m ∈ bodies, ∃ d b, m = .body d b := by
    rw [e] at e'
    have := (List.cons.inj e').2
    rw [this]
    exact sendBody_body ho.path ho.copy
  obtain ⟨ds, last, hw, hfl⟩ := wire_finished s.base s.conf.etag s.file.length (ofBytes s.file) hbodies hf
  subst e
  refine ⟨headersOf s.base s.conf.etag s.file.length length range, ds.flatten ++ last, range, ?_,
    status, length, bodies, rfl⟩
  have hlen : (toString length).toList = (toString (ds.flatten ++ last).length).toList := by
    rw [hfl, ← hl]
    unfold toBytes
    rw [List.length_map]
    rfl
  refine ⟨⟨ds, last, ?_, rfl⟩, headersOf_encoding hb _ _ _ _, ?_, headersOf_etag hb _ _ _ _,
    headersOf_range hb _ _ _ _, ?_⟩
  · rw [List.map_cons, hw]; rfl
  · rw [headersOf_length hb, hlen]
  · rw [hfl]
    rcases hcase with ⟨e1, -, e2⟩ | ⟨r, e1, -, -, e2, -⟩
    · subst e1; rw [e2]; exact toBytes_ofBytes s.file
    · subst e1; rw [e2]; exact toBytes_slice s.file r

theorem answer_plain {s : Site} {headers : Items Str} {req : FileResponse.Req} {ms : List Gzip.Msg}
    (ho : Ordinary s req) (hb : Free s.base) (hc : 0 < s.conf.chunk) (h : answer s headers req = some ms) :
    ∃ msgs hd body range, Plain s msgs hd body range ∧ Gzip.serve s.codec s.min headers msgs = some ms := by
  unfold answer at h
  cases hcall : FileResponse.call s.conf s.sub (FileResponse.State.new s.conf) (ofBytes s.file) req with
  | notSatisfiable => rw [hcall] at h; exact nomatch h
  | sent msgs st =>
    rw [hcall] at h
    obtain ⟨hd, body, range, hp, -⟩ := plain_of_call ho hb hc hcall
    exact ⟨_, hd, body, range, hp, h⟩

/-- An answer behind the middleware. -/
theorem served {s : Site} {headers : Items Str} {msgs ms : List Gzip.Msg} {hd : Items Str} {body : Bytes}
    {range : Option Rng} (hf : Gzip.Spec.Faithful s.codec) (hp : Plain s msgs hd body range)
    (h : Gzip.serve s.codec s.min headers msgs = some ms) :
    ∃ h' body', Whole ms h' body' ∧ Reads s.codec h' body' body ∧
      (∀ v ∈ valuesOf h' "content-length".toList, v = (toString body'.length).toList) ∧
      valuesOf h' "etag".toList = valuesOf hd "etag".toList ∧
      valuesOf h' "content-range".toList = valuesOf hd "content-range".toList := by
  obtain ⟨ds, last, e, eb⟩ := hp.whole
  subst e
  have same : ms = Gzip.Spec.response hd ds last → ∃ h' body', Whole ms h' body' ∧ Reads s.codec h' body' body ∧
      (∀ v ∈ valuesOf h' "content-length".toList, v = (toString body'.length).toList) ∧
      valuesOf h' "etag".toList = valuesOf hd "etag".toList ∧
      valuesOf h' "content-range".toList = valuesOf hd "content-range".toList := by
    intro e
    refine ⟨hd, body, ⟨ds, last, e, eb⟩, Or.inl ⟨hp.encoding, rfl⟩, ?_, rfl, rfl⟩
    intro v hv
    rw [hp.length] at hv
    exact List.mem_singleton.mp hv
  unfold Gzip.serve at h
  split at h
  · by_cases hd' : ds ≠ [] ∨ s.min ≤ last.length
    · obtain ⟨h', outs, lo, hr, hn, hi, he, hl1, hl2, -, hother⟩ :=
        Gzip.C14_compressed s.codec hf s.min hd ds last hp.encoding hd'
      rw [hr] at h
      cases h
      refine ⟨h', outs.flatten ++ lo, ⟨outs, lo, rfl, rfl⟩, Or.inr ⟨he, by rw [hi, ← eb]⟩, ?_,
        hother _ (by decide), hother _ (by decide)⟩
      by_cases hds : ds = []
      · intro v hv
        rw [hl1 hds] at hv
        rw [List.mem_singleton.mp hv]
        have hlen : outs.length = 0 := by
          rw [hn, hds]; rfl
        rw [List.length_eq_zero_iff.mp hlen]
        rfl
      · intro v hv
        rw [hl2 hds, hp.length] at hv
        exact nomatch hv
    · have hds : ds = [] := by
        cases ds with
        | nil => rfl
        | cons a b => exact absurd (Or.inl (fun e => nomatch e)) hd'
      subst hds
      have hlt : last.length < s.min := by
        rcases Nat.lt_or_ge last.length s.min with h1 | h1
        · exact h1
        · exact absurd (Or.inr h1) hd'
      rw [Gzip.C14_small s.codec s.min hd last hlt] at h
      exact same (Option.some.inj h).symm
  · exact same (Option.some.inj h).symm

/-- There is always an answer. -/
theorem served_some {s : Site} (headers : Items Str) {msgs : List Gzip.Msg} {hd : Items Str} {body : Bytes}
    {range : Option Rng} (hf : Gzip.Spec.Faithful s.codec) (hp : Plain s msgs hd body range) :
    ∃ ms, Gzip.serve s.codec s.min headers msgs = some ms := by
  obtain ⟨ds, last, e, eb⟩ := hp.whole
  subst e
  unfold Gzip.serve
  split
  · by_cases hd' : ds ≠ [] ∨ s.min ≤ last.length
    · obtain ⟨h', outs, lo, hr, -⟩ := Gzip.C14_compressed s.codec hf s.min hd ds last hp.encoding hd'
      exact ⟨_, hr⟩
    · have hds : ds = [] := by
        cases ds with
        | nil => rfl
        | cons a b => exact absurd (Or.inl (fun e => nomatch e)) hd'
      subst hds
      have hlt : last.length < s.min := by
        rcases Nat.lt_or_ge last.length s.min with h1 | h1
        · exact h1
        · exact absurd (Or.inr h1) hd'
      exact ⟨_, Gzip.C14_small s.codec s.min hd last hlt⟩
  · exact ⟨_, rfl⟩

/-- A request without a range. -/
theorem call_whole (c : FileResponse.Conf) (f : Rng → Str) (file : Str) (req : FileResponse.Req)
    (hm : req.headerOnly = false) (hr : req.range = []) :
    FileResponse.call c f (FileResponse.State.new c) file req =
      .sent (.start c.status file.length none false ::
        FileResponse.sendBody c f ⟨c.status, some file.length, none, false⟩ file req .whole)
        ⟨c.status, some file.length, none, false⟩ := by
  have hplan : FileResponse.plan c (FileResponse.announce file (FileResponse.State.new c)) req =
      (.whole, ⟨c.status, some file.length, none, false⟩) := by
    rw [FileResponse.announce_new]
    unfold FileResponse.plan
    split
    · unfold FileResponse.setRangeHeaders FileResponse.contentRanges parseRangeValue
      rw [hr]
      rfl
    · rfl
  unfold FileResponse.call
  rw [hplan]
  simp [FileResponse.callWith, hm, FileResponse.State.length]

/-- The middleware sends nothing for a start and messages that it does not know. -/
theorem run_others {c : Codec} (min : Nat) : ∀ (ms : List Gzip.Msg) (st : Gzip.State c),
    (∀ m ∈ ms, m = .other ∨ ∃ h, m = .start h) → runFrom min st ms = some []
  | [], _, _ => rfl
  | m :: ms, st, h => by
    have ih := fun st' : Gzip.State c => run_others min ms st' (fun x hx => h x (List.mem_cons_of_mem _ hx))
    rcases h m (by simp) with e | ⟨hd, e⟩
    · subst e
      unfold runFrom step
      dsimp only
      rw [ih]
      rfl
    · subst e
      unfold runFrom step
      dsimp only
      rw [ih]
      rfl

end Verif.FileGzip
