import Verif.EventGzip.Spec
import Verif.Gzip.Props
import Verif.Sse.Props

namespace Verif.EventGzip

open Verif Verif.MultiDict Verif.Gzip Verif.Gzip.Spec Spec

/-! ## The reading client -/

theorem linesFrom_prefix (cr : Bool) (cur a b : Str) :
    Sse.Spec.linesFrom cr cur a <+: Sse.Spec.linesFrom cr cur (a ++ b) := by
  induction a generalizing cr cur with
  | nil => exact List.nil_prefix
  | cons c a ih =>
    rw [List.cons_append, Sse.Spec.linesFrom, Sse.Spec.linesFrom]
    split
    · exact ih _ _
    · split
      · exact (List.prefix_cons_inj _).2 (ih _ _)
      · exact ih _ _

theorem dispatch_grows (c : Sse.Spec.Client) : c.out <+: c.dispatch.out := by
  unfold Sse.Spec.Client.dispatch
  split
  · exact List.prefix_rfl
  · exact List.prefix_append _ _

theorem field_keeps (c : Sse.Spec.Client) (n v : Str) : (c.field n v).out = c.out := by
  unfold Sse.Spec.Client.field
  split
  · rfl
  · split
    · rfl
    · split
      · split <;> rfl
      · split
        · split <;> rfl
        · rfl

theorem line_grows (c : Sse.Spec.Client) (l : Str) : c.out <+: (c.line l).out := by
  unfold Sse.Spec.Client.line
  split
  · exact dispatch_grows c
  · split
    · exact List.prefix_rfl
    · rw [field_keeps]; exact List.prefix_rfl

theorem lines_grow (c : Sse.Spec.Client) (ls : List Str) : c.out <+: (ls.foldl Sse.Spec.Client.line c).out := by
  induction ls generalizing c with
  | nil => exact List.prefix_rfl
  | cons l ls ih => exact (line_grows c l).trans (ih _)

/-- More text only adds events. -/
theorem read_prefix (a b : Str) (h : a <+: b) : (Sse.Spec.read a).out <+: (Sse.Spec.read b).out := by
  obtain ⟨r, rfl⟩ := h
  obtain ⟨ls, hls⟩ := linesFrom_prefix false [] a r
  unfold Sse.Spec.read
  rw [← hls, List.foldl_append]
  exact lines_grow _ _

theorem read_nil : (Sse.Spec.read []).out = [] := rfl

/-! ## The bytes -/

theorem flatMap_enc (t : Charset) (ht : Lawful t) (ts : List Str) : (ts.map t.enc).flatten = t.enc ts.flatten := by
  induction ts with
  | nil => exact ht.2.2.1.symm
  | cons a ts ih => rw [List.map_cons, List.flatten_cons, ih, List.flatten_cons, ht.2.1]

/-- The texts of events, as bytes. -/
def pieces (t : Charset) (r : Stream) (es : List Sse.EventDict) : List Bytes :=
  es.map fun e => t.enc (Sse.encodeEvent r.sep r.retry e)

theorem pieces_dec (t : Charset) (ht : Lawful t) (r : Stream) (es : List Sse.EventDict) :
    t.dec (pieces t r es).flatten = es.flatMap (Sse.encodeEvent r.sep r.retry) := by
  have h : pieces t r es = (es.map (Sse.encodeEvent r.sep r.retry)).map t.enc := by
    unfold pieces
    rw [List.map_map]
    rfl
  rw [h, flatMap_enc t ht, ht.1]
  rfl

theorem read_pieces (t : Charset) (ht : Lawful t) (r : Stream) (es : List Sse.EventDict) (hw : Writable r es) :
    (Sse.Spec.read (t.dec (pieces t r es).flatten)).out = Sse.Spec.responseEvents [] es := by
  rw [pieces_dec t ht]
  exact Sse.C33_response_partial r.sep hw.1 r.retry es hw.2.1 hw.2.2

theorem sofar_pieces (t : Charset) (r : Stream) (es : List Sse.EventDict) :
    sofar t r es = .start r.headers :: (pieces t r es).map fun d => .body d true := by
  unfold sofar pieces
  rw [List.map_map]
  rfl

theorem bytesOf_bodies (ds : List Bytes) : bytesOf (ds.map fun d => Msg.body d true) = ds.flatten := by
  induction ds with
  | nil => rfl
  | cons d ds ih => rw [List.map_cons, bytesOf, ih]; rfl

theorem bytesOf_append (a b : List Msg) : bytesOf (a ++ b) = bytesOf a ++ bytesOf b := by
  induction a with
  | nil => rfl
  | cons m a ih =>
    cases m <;> simp only [List.cons_append, bytesOf, ih, List.append_assoc]

theorem bytesOf_response (h : Items Str) (ds : List Bytes) (last : Bytes) :
    bytesOf (response h ds last) = ds.flatten ++ last := by
  unfold response
  rw [List.cons_append, bytesOf, bytesOf_append, bytesOf_bodies, bytesOf, bytesOf, List.append_nil]
  intro d m h
  cases h

/-! ## The middleware while the stream is being sent -/

theorem open_tail (c : Codec) (min : Nat) (ds : List Bytes) (s : State c) (f : c.S)
    (hf : s.file = .isOpen f) (hb : s.buffer = []) (hs : s.started = true) (he : s.encodingSet = false) :
    ∃ outs : List Bytes, runFrom min s (ds.map fun d => Msg.body d true) = some (outs.map fun d => Msg.body d true) ∧
      outs.flatten = emitted c f ds := by
  induction ds generalizing s f with
  | nil => exact ⟨[], rfl, rfl⟩
  | cons d ds ih =>
    obtain ⟨outs, h1, h2⟩ := ih ⟨s.initial, true, false, .isOpen (c.write f d).1, []⟩ (c.write f d).1 rfl rfl rfl rfl
    have hstep : step min s (.body d true) =
        some (⟨s.initial, true, false, .isOpen (c.write f d).1, []⟩, [.body (c.write f d).2 true]) := by
      simp [step, onBody, State.write, hf, hb, hs, he]
    refine ⟨(c.write f d).2 :: outs, ?_, ?_⟩
    · rw [List.map_cons, runFrom, hstep]
      simp only
      rw [h1]
      rfl
    · rw [List.flatten_cons, h2]
      rfl

theorem notSet (h : Items Str) (he : valuesOf h "content-encoding".toList = []) :
    (MultiDict.get lower h "content-encoding".toList).isSome = false := by
  rw [valuesOf_eq] at he
  unfold MultiDict.get
  rw [he]; rfl

theorem run_open (c : Codec) (min : Nat) (h : Items Str) (d : Bytes) (ds : List Bytes)
    (he : valuesOf h "content-encoding".toList = []) :
    ∃ outs : List Bytes, run c min (.start h :: (d :: ds).map fun d => Msg.body d true) =
        some (.start (streamHeaders h) :: outs.map fun d => Msg.body d true) ∧
      outs.flatten = c.init.2 ++ emitted c c.init.1 (d :: ds) := by
  let s1 : State c := ⟨some (streamHeaders h), true, false, .isOpen (c.write c.init.1 d).1, []⟩
  obtain ⟨outs, h1, h2⟩ := open_tail c min ds s1 (c.write c.init.1 d).1 rfl rfl rfl rfl
  refine ⟨(c.init.2 ++ (c.write c.init.1 d).2) :: outs, ?_, ?_⟩
  · rw [List.map_cons, run_start, onStart_eq c h _ (notSet h he), runFrom]
    have hstep : step (c := c) min ⟨some h, false, false, .unused, []⟩ (.body d true) =
        some (s1, [.start (streamHeaders h), .body (c.init.2 ++ (c.write c.init.1 d).2) true]) := by
      simp [step, onFirst, initialMsg, onStream, State.write, s1]
    rw [hstep]
    simp only
    rw [h1]
    rfl
  · rw [List.flatten_cons, h2, List.append_assoc]
    rfl

theorem stream_encoding (h : Items Str) : valuesOf (streamHeaders h) "content-encoding".toList = ["gzip".toList] := by
  rw [valuesOf_eq, streamHeaders, getall_pop, if_neg (by decide),
    Gzip.getall_addVary_other _ _ _ (by decide), getall_setitem, if_pos (by decide)]

theorem seen_gzip (c : Codec) (t : Charset) (h : Items Str) (ms : List Msg)
    (he : valuesOf h "content-encoding".toList = ["gzip".toList]) :
    seen c t (.start h :: ms) = (Sse.Spec.read (t.dec ((c.inflate (bytesOf ms)).getD []))).out := by
  unfold seen
  rw [show headersOf (.start h :: ms) = h from rfl, if_pos he]
  rfl

theorem seen_plain (c : Codec) (t : Charset) (h : Items Str) (ms : List Msg)
    (he : valuesOf h "content-encoding".toList ≠ ["gzip".toList]) :
    seen c t (.start h :: ms) = (Sse.Spec.read (t.dec (bytesOf ms))).out := by
  unfold seen
  rw [show headersOf (.start h :: ms) = h from rfl, if_neg he]
  rfl

/-- What is sent while the stream is open, with at least one event. -/
theorem run_sofar (c : Codec) (min : Nat) (t : Charset) (r : Stream) (es : List Sse.EventDict) (hes : es ≠ [])
    (he : valuesOf r.headers "content-encoding".toList = []) :
    ∃ outs : List Bytes, run c min (sofar t r es) =
        some (.start (streamHeaders r.headers) :: outs.map fun d => Msg.body d true) ∧
      outs.flatten = c.init.2 ++ emitted c c.init.1 (pieces t r es) ∧
      seen c t (.start (streamHeaders r.headers) :: outs.map fun d => Msg.body d true) =
        (Sse.Spec.read (t.dec (expanded c (pieces t r es)))).out := by
  rw [sofar_pieces]
  cases hp : pieces t r es with
  | nil => exact absurd (List.map_eq_nil_iff.1 hp) hes
  | cons d ds =>
    obtain ⟨outs, h1, h2⟩ := run_open c min r.headers d ds he
    refine ⟨outs, h1, h2, ?_⟩
    rw [seen_gzip c t _ _ (stream_encoding _), bytesOf_bodies, h2]
    rfl

theorem run_none (c : Codec) (min : Nat) (h : Items Str) : run c min [.start h] = some [] := by
  rw [run_start]
  rfl

/-- Headers with an encoding are passed on. -/
theorem run_encoded (c : Codec) (min : Nat) (h : Items Str) (d : Bytes) (ds : List Bytes)
    (he : valuesOf h "content-encoding".toList ≠ []) :
    run c min (.start h :: (d :: ds).map fun d => Msg.body d true) =
      some (.start h :: (d :: ds).map fun d => Msg.body d true) := by
  have hset : (MultiDict.get lower h "content-encoding".toList).isSome = true := by
    rw [valuesOf_eq] at he
    unfold MultiDict.get
    cases hg : getall lower h "content-encoding".toList with
    | nil => exact absurd hg he
    | cons a t => rfl
  have hm : ∀ ds : List Bytes, (ds.map fun d => Msg.body d true) =
      (ds.map fun d => (d, true)).map fun m => Msg.body m.1 m.2 := by
    intro ds
    rw [List.map_map]
    rfl
  rw [List.map_cons, run_start, onStart_eq c h _ hset, runFrom]
  have hstep : step (c := c) min ⟨some h, false, true, .unused, []⟩ (.body d true) =
      some (⟨some h, true, true, .unused, []⟩, [.start h, .body d true]) := by
    simp [step, onEncoded, initialMsg]
  rw [hstep]
  simp only
  rw [hm ds, encoded_tail c min _ _ rfl rfl]
  rfl

/-! ## Headers -/

theorem valuesOf_getall (h : Items Str) (n : Str) : valuesOf h n = getall lower h n := by
  unfold valuesOf getall
  induction h with
  | nil => rfl
  | cons kv h ih =>
    rw [List.filter_cons, List.filterMap_cons]
    by_cases e : lower kv.1 = lower n
    · simp only [e, decide_true, if_true, List.map_cons, ih]
    · simp only [e, decide_false, Bool.false_eq_true, if_false, ih]

/-- In a dictionary of names in lower case each name is looked up as it is. -/
theorem getall_dict (d : Items Str) (hd : (d.map (·.1)).Nodup) (hl : ∀ kv ∈ d, lower kv.1 = kv.1) (n : Str)
    (hn : lower n = n) : getall lower d n = (aget d n).toList := by
  induction d with
  | nil => rfl
  | cons kv d ih =>
    rw [List.map_cons, List.nodup_cons] at hd
    have := ih hd.2 (fun x hx => hl x (List.mem_cons_of_mem _ hx))
    rw [getall_cons, hl kv List.mem_cons_self, hn, this]
    obtain ⟨k, v⟩ := kv
    by_cases e : k = n
    · subst e
      have hno : aget d k = none := by
        clear ih this
        induction d with
        | nil => rfl
        | cons x d ih =>
          obtain ⟨k', v'⟩ := x
          have hne : k' ≠ k := fun e => hd.1 (by rw [e]; exact List.mem_cons_self)
          simp only [aget, if_neg hne]
          exact ih ⟨fun h => hd.1 (List.mem_cons_of_mem _ h), (List.nodup_cons.1 hd.2).2⟩
            (fun x hx => hl x (by
              rcases List.mem_cons.1 hx with h | h
              · rw [h]; exact List.mem_cons_self
              · exact List.mem_cons_of_mem _ (List.mem_cons_of_mem _ h)))
      simp [aget, hno]
    · simp [aget, e]

theorem aset_lower (d : Items Str) (k v : Str) (hk : lower k = k) (h : ∀ kv ∈ d, lower kv.1 = kv.1) :
    ∀ kv ∈ aset d k v, lower kv.1 = kv.1 := by
  induction d with
  | nil =>
    intro kv hkv
    rw [List.mem_singleton.1 hkv]
    exact hk
  | cons x d ih =>
    obtain ⟨k', v'⟩ := x
    intro kv hkv
    simp only [aset] at hkv
    by_cases e : k' = k
    · rw [if_pos e] at hkv
      rcases List.mem_cons.1 hkv with h' | h'
      · rw [h']; exact hk
      · exact h kv (List.mem_cons_of_mem _ h')
    · rw [if_neg e] at hkv
      rcases List.mem_cons.1 hkv with h' | h'
      · rw [h']; exact h (k', v') List.mem_cons_self
      · exact ih (fun y hy => h y (List.mem_cons_of_mem _ hy)) kv h'

theorem aupdate_lower (d e : Items Str) (he : ∀ kv ∈ e, lower kv.1 = kv.1) (h : ∀ kv ∈ d, lower kv.1 = kv.1) :
    ∀ kv ∈ aupdate d e, lower kv.1 = kv.1 := by
  unfold aupdate
  induction e generalizing d with
  | nil => exact h
  | cons x e ih =>
    rw [List.foldl_cons]
    exact ih _ (fun y hy => he y (List.mem_cons_of_mem _ hy)) (aset_lower d x.1 x.2 (he x List.mem_cons_self) h)

theorem aget_aupdate (d e : Items Str) (he : (e.map (·.1)).Nodup) (k : Str) :
    aget (aupdate d e) k = (aget e k).or (aget d k) := by
  induction e generalizing d with
  | nil => rfl
  | cons x e ih =>
    obtain ⟨k', v⟩ := x
    rw [List.map_cons, List.nodup_cons] at he
    have hs : aupdate d ((k', v) :: e) = aupdate (aset d k' v) e := rfl
    rw [hs, ih _ he.2, aget_aset]
    by_cases e' : k' = k
    · subst e'
      have hno : aget e k' = none := by
        cases hx : aget e k' with
        | none => rfl
        | some y =>
          exfalso
          apply he.1
          clear ih hs he
          induction e with
          | nil => cases hx
          | cons z e ih =>
            obtain ⟨k'', v''⟩ := z
            simp only [aget] at hx
            by_cases e2 : k'' = k'
            · rw [e2]; exact List.mem_cons_self
            · rw [if_neg e2] at hx
              exact List.mem_cons_of_mem _ (ih hx)
      simp [aget, hno]
    · simp only [aget, if_neg e', if_neg (fun h => e' h.symm : ¬ k = k')]

theorem adel_sub (d : Items Str) (k : Str) : (adel d k).Sublist d := by
  induction d with
  | nil => exact List.Sublist.refl _
  | cons x d ih =>
    obtain ⟨k', v⟩ := x
    simp only [adel]
    by_cases e : k' = k
    · rw [if_pos e]; exact ih.cons _
    · rw [if_neg e]; exact ih.cons_cons _

theorem aget_skip (a b : Items Str) (k v n : Str) (h : n ≠ k) : aget (a ++ (k, v) :: b) n = aget (a ++ b) n := by
  induction a with
  | nil => simp only [List.nil_append, aget, if_neg (fun e => h e.symm : ¬ k = n)]
  | cons x a ih =>
    obtain ⟨k', v'⟩ := x
    simp only [List.cons_append, aget, ih]

/-- The last steps of `headersFor`, on a dictionary of names in lower case. -/
theorem finish (d : Items Str) (len ty zero kind : Str) (e1 : lower ty = ty) (e2 : lower len = len) (e3 : ty ≠ len)
    (hl1 : ∀ kv ∈ d, lower kv.1 = kv.1) (hn1 : (d.map (·.1)).Nodup) (h : Items Str)
    (hh : h = pop lower (setitem lower (setdefault id (adel d len) len zero) ty kind) len) :
    getall lower h ty = [kind] ∧ getall lower h len = [] ∧
    ∀ n, lower n = n → n ≠ ty → n ≠ len → getall lower h n = (aget d n).toList := by
  have hdel : aget (adel d len) len = none := by rw [aget_adel, if_pos rfl]
  have hl2 : ∀ kv ∈ adel d len, lower kv.1 = kv.1 := fun kv h => hl1 kv ((adel_sub d len).subset h)
  have hn2 : ((adel d len).map (·.1)).Nodup := hn1.sublist ((adel_sub d len).map _)
  have hg2 : ∀ n, lower n = n → getall lower (adel d len) n = (aget (adel d len) n).toList :=
    fun n hn => getall_dict _ hn2 hl2 n hn
  have hid : get id (adel d len) len = none := by
    have : getall id (adel d len) len = [] := by
      unfold getall
      rw [List.filterMap_eq_nil_iff]
      intro kv hkv
      rw [if_neg]
      intro e
      have h1 := hg2 len e2
      rw [hdel] at h1
      have : kv.2 ∈ getall lower (adel d len) len := by
        unfold getall
        rw [List.mem_filterMap]
        exact ⟨kv, hkv, by rw [if_pos (by rw [show kv.1 = len from e])]⟩
      rw [h1] at this
      cases this
    unfold MultiDict.get
    rw [this]
    rfl
  have hset : setdefault id (adel d len) len zero = adel d len ++ [(len, zero)] := by
    unfold setdefault
    rw [hid]
    rfl
  rw [hset] at hh
  subst hh
  refine ⟨?_, ?_, ?_⟩
  · rw [getall_pop, if_neg (by rw [e1, e2]; exact e3), getall_setitem, if_pos rfl]
  · rw [getall_pop, if_pos rfl, getall_setitem, if_neg (by rw [e1, e2]; exact e3.symm),
      getall_append, hg2 len e2, hdel, getall_cons, if_pos rfl]
    rfl
  · intro n hn h1 h2
    rw [getall_pop, if_neg (by rw [hn, e2]; exact h2), getall_setitem,
      if_neg (by rw [hn, e1]; exact h1), getall_append, hg2 n hn, getall_cons,
      if_neg (by rw [hn, e2]; exact fun e => h2 e.symm), aget_adel, if_neg h2]
    exact List.append_nil _

end Verif.EventGzip
