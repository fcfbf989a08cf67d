import Verif.Multipart.ParserLemmas

/-!
# The callbacks for a body delivered in chunks
-/

namespace Verif.Multipart

open Verif Verif.Url Spec

/-! ### The headers of a part -/

theorem strip_ends (p : Char → Bool) (a b : Char) (s : Str) (ha : p a = false) (hb : p b = false) :
    strip p (a :: (s ++ [b])) = a :: (s ++ [b]) := by
  unfold strip lstrip rstrip
  rw [List.dropWhile_cons_of_neg (by simp [ha])]
  simp [hb]

theorem strip_space (p : Char → Bool) (s : Str) (h : p ' ' = true) : strip p (' ' :: s) = strip p s := by
  unfold strip lstrip
  rw [List.dropWhile_cons_of_pos h]

/-- The headers of a part as the parser keeps them. -/
def kept (s : Submitted) : List (Str × Str) := ("content-disposition".toList, disposition s) :: s.headers

theorem disposition_form (s : Submitted) : ∃ m, disposition s = 'f' :: (m ++ ['"']) := by
  unfold disposition
  cases s.filename with
  | none => exact ⟨"orm-data; name=\"".toList ++ s.name, by simp⟩
  | some f => exact ⟨"orm-data; name=\"".toList ++ s.name ++ ['"'] ++ "; filename=\"".toList ++ f, by simp⟩

theorem disposition_strip (s : Submitted) : strip isSpace (disposition s) = disposition s := by
  obtain ⟨m, h⟩ := disposition_form s
  rw [h]
  exact strip_ends _ _ _ _ (by decide) (by decide)

theorem disposition_cr {boundary : Str} {s : Submitted} (h : GoodPart boundary s) : '\r' ∉ disposition s := by
  unfold disposition
  have h1 := h.name.1
  cases hf : s.filename with
  | none => simp [h1]
  | some f => have h2 := (h.filename f hf).1; simp [h1, h2]

theorem aset_new (hs : List (Str × Str)) (k v : Str) (h : k ∉ hs.map (·.1)) : aset hs k v = hs ++ [(k, v)] := by
  induction hs with
  | nil => rfl
  | cons kv hs ih =>
    simp only [List.map_cons, List.mem_cons, not_or] at h
    rw [aset, if_neg (Ne.symm h.1), ih h.2]
    rfl

theorem online_headerLine (bnd : Str) (hs : List (Str × Str)) (k v : Str) (hk : ':' ∉ k) (hkr : '\r' ∉ k)
    (hne : k ≠ []) (hvr : '\r' ∉ v) (hv : strip isSpace v = v) :
    Online bnd ⟨.headers, [], hs⟩ (headerLine k v) [] ⟨.headers, [], aset hs (lower (strip isSpace k)) v⟩ := by
  have h := online_header bnd hs (k ++ ": ".toList ++ v) k (' ' :: v) (by simp [hkr, hvr])
    (by intro e; exact hne (List.append_eq_nil_iff.1 (List.append_eq_nil_iff.1 e).1).1) (by
      have : k ++ ": ".toList ++ v = k ++ ':' :: (' ' :: v) := by simp
      rw [this, partition_append _ _ _ hk])
  rw [strip_space _ _ (by decide), hv] at h
  exact h

theorem online_headers (bnd : Str) (hs rest : List (Str × Str))
    (hgood : ∀ kv ∈ rest, GoodKey kv.1 ∧ GoodValue kv.2) (hnd : ((hs ++ rest).map (·.1)).Nodup) :
    Online bnd ⟨.headers, [], hs⟩ (rest.flatMap fun kv => headerLine kv.1 kv.2) [] ⟨.headers, [], hs ++ rest⟩ := by
  induction rest generalizing hs with
  | nil => rw [List.append_nil]; exact .nil _ (stable_headers bnd hs)
  | cons kv rest ih =>
    obtain ⟨hk, hv⟩ := hgood kv (by simp)
    have h1 := online_headerLine bnd hs kv.1 kv.2 hk.colon hk.cr hk.ne hv.1 hv.2
    rw [hk.strip, hk.lower, aset_new hs kv.1 kv.2 (by
      rw [List.map_append, List.nodup_append] at hnd
      intro hm
      exact hnd.2.2 _ hm kv.1 (by simp) rfl)] at h1
    have h2 := ih (hs ++ [(kv.1, kv.2)]) (fun x hx => hgood x (by simp [hx])) (by simpa using hnd)
    have := h1.trans h2
    simpa using this

theorem online_headerText {boundary : Str} (bnd : Str) {s : Submitted} (h : GoodPart boundary s) :
    Online bnd ⟨.headers, [], []⟩ (headerText s) (emitHeaders (kept s)) ⟨.body, [], kept s⟩ := by
  have h1 := online_headerLine bnd [] "Content-Disposition".toList (disposition s) (by decide) (by decide) (by decide)
    (disposition_cr h) (disposition_strip s)
  rw [show aset [] (lower (strip isSpace "Content-Disposition".toList)) (disposition s) =
    [("content-disposition".toList, disposition s)] from by
      rw [show lower (strip isSpace "Content-Disposition".toList) = "content-disposition".toList from by decide]
      rfl] at h1
  have h2 := online_headers bnd [("content-disposition".toList, disposition s)] s.headers h.keys (by
    rw [List.map_append, List.nodup_append]
    refine ⟨by simp, h.distinct, ?_⟩
    intro a ha b hb e
    obtain ⟨kv, hkv, rfl⟩ := List.mem_map.1 hb
    obtain ⟨kw, hkw, rfl⟩ := List.mem_map.1 ha
    rw [List.mem_singleton] at hkw
    subst hkw
    exact (h.keys kv hkv).1.notDisposition e.symm)
  have := (h1.trans h2).trans (online_blank bnd _)
  exact this

/-! ### The expected callbacks -/

/-- The callbacks for a part after its begin. -/
def partEvs (s : Submitted) : List Ev := emitHeaders (kept s) ++ [.partData s.content, .partEnd]

/-- The callbacks for parts after the begin of the first. -/
def partsEvs : List Submitted → List Ev
  | [] => []
  | [s] => partEvs s ++ [.stop]
  | s :: t :: rest => partEvs s ++ .partBegin :: partsEvs (t :: rest)

/-- Callbacks with the ends of chunks between them are the expected ones, up to the way the data is
divided. -/
inductive Flow : List Ev → List (Option Ev) → Prop where
  | nil : Flow [] []
  | flush (G : List Ev) (M : List (Option Ev)) (h : Flow G M) : Flow G (none :: M)
  | ev (e : Ev) (G : List Ev) (M : List (Option Ev)) (h : Flow G M) : Flow (e :: G) (some e :: M)
  | data (x d : Str) (G : List Ev) (M : List (Option Ev)) (h : Flow (.partData d :: G) M) :
      Flow (.partData (x ++ d) :: G) (some (.partData x) :: M)
  | skip (G : List Ev) (M : List (Option Ev)) (h : Flow G M) : Flow (.partData [] :: G) M

theorem Flow.evs (E : List Ev) {G : List Ev} {M : List (Option Ev)} (h : Flow G M) :
    Flow (E ++ G) (E.map some ++ M) := by
  induction E with
  | nil => exact h
  | cons e E ih => exact .ev e _ _ ih

theorem Flow.dataPart (t d : Str) {G : List Ev} {M : List (Option Ev)} (h : Flow (.partData d :: G) M) :
    Flow (.partData (t ++ d) :: G) ((dataEv t).map some ++ M) := by
  unfold dataEv
  split
  · rename_i ht; rw [ht]; exact h
  · exact .data t d G M h

theorem Flow.dataAll (t : Str) {G : List Ev} {M : List (Option Ev)} (h : Flow G M) :
    Flow (.partData t :: G) ((dataEv t).map some ++ M) := by
  have := Flow.dataPart t [] (.skip G M h)
  rwa [List.append_nil] at this

/-- The writes of the chunks, with the end of each chunk. -/
def writes (bnd : Str) (p : Parser) : List Str → Option (Parser × List (Option Ev))
  | [] => some (p, [])
  | c :: cs =>
    (p.write bnd c).bind fun r => (writes bnd r.1 cs).map fun q => (q.1, r.2.map some ++ none :: q.2)

/-! ### The main induction -/

/-- The text `held`, not yet read, and the pieces to come, for a parser at `p`, have the callbacks `G`. -/
inductive Pos (boundary : Str) : Parser → Str → List Seg → List Ev → Prop where
  | on (p q : Parser) (t : Str) (E G : List Ev) (segs : List Seg) (h : Online (dashes ++ boundary) p t E q)
      (hq : Pos boundary q [] segs G) : Pos boundary p [] (.soft t :: segs) (E ++ G)
  | data (hs : List (Str × Str)) (t : Str) (ht : ¬ (crlf ++ dashes ++ boundary) <:+: t) (G : List Ev) (segs : List Seg)
      (hq : Pos boundary ⟨.headers, [], []⟩ [] segs G) :
      Pos boundary ⟨.body, [], hs⟩ [] (.soft t :: .hard (delimiter boundary) :: segs)
        (.partData t :: .partEnd :: .partBegin :: G)
  | held (hs : List (Str × Str)) (t : Str) (ht : ¬ (crlf ++ dashes ++ boundary) <:+: t) (G : List Ev) (segs : List Seg)
      (hq : Pos boundary ⟨.headers, [], []⟩ [] segs G) :
      Pos boundary ⟨.body, [], hs⟩ t (.hard (delimiter boundary) :: segs) (.partData t :: .partEnd :: .partBegin :: G)
  | lastData (hs : List (Str × Str)) (t : Str) (ht : ¬ (crlf ++ dashes ++ boundary) <:+: t) :
      Pos boundary ⟨.body, [], hs⟩ [] [.soft t, .hard (closing boundary)] [.partData t, .partEnd, .stop]
  | lastHeld (hs : List (Str × Str)) (t : Str) (ht : ¬ (crlf ++ dashes ++ boundary) <:+: t) :
      Pos boundary ⟨.body, [], hs⟩ t [.hard (closing boundary)] [.partData t, .partEnd, .stop]
  | last (hs : List (Str × Str)) (t : Str) (ht : ¬ (crlf ++ dashes ++ boundary) <:+: t) :
      Pos boundary ⟨.body, [], hs⟩ (t ++ closing boundary) [] [.partData t, .partEnd, .stop]

theorem infix_right {d a b : Str} (h : ¬ d <:+: a ++ b) : ¬ d <:+: a ∧ ¬ d <:+: b :=
  ⟨fun hi => h (hi.trans (List.prefix_append a b).isInfix), fun hi => h (hi.trans (List.suffix_append a b).isInfix)⟩

theorem writes_flow (boundary : Str) (hb : '\r' ∉ boundary) (segs : List Seg) (pend : Str) (chunks : List Str)
    (hc : Chunking segs pend chunks) :
    ∀ (p0 p1 : Parser) (pend' held : Str) (E G : List Ev), Stable (dashes ++ boundary) p0 →
      Reaches (dashes ++ boundary) p0 pend' E p1 → pend = pend' ++ held → Pos boundary p1 held segs G →
      ∃ pf M, writes (dashes ++ boundary) p0 chunks = some (pf, E.map some ++ M) ∧ Flow G M ∧ pf.buffer = [] := by
  induction hc with
  | done pending =>
    intro p0 p1 pend' held E G hst hre hpe hpos
    cases hpos with
    | last hs t ht =>
      have h1 := hre (t ++ closing boundary)
      rw [run_closing boundary hb hs t ht] at h1
      rw [hpe, writes, write_eq hst, h1]
      refine ⟨⟨.body, [], hs⟩, (dataEv t).map some ++ [some .partEnd, some .stop, none], ?_, ?_, rfl⟩
      · simp [writes]
      · exact .dataAll t (.ev _ _ _ (.ev _ _ _ (.flush _ _ .nil)))
  | cut t1 t2 pending segs chunks hc ih =>
    intro p0 p1 pend' held E G hst hre hpe hpos
    generalize hT : t1 ++ t2 = T at hpos
    cases hpos with
    | on _ q _ E1 G1 _ hon hq =>
      subst hT
      obtain ⟨q', F1, F2, h1, h2, rfl⟩ := hon.split
      obtain ⟨pf, M, hw, hf, hbuf⟩ := ih q' q' [] [] [] (F2 ++ G1) h1.stable.2 (.refl _ _) rfl (.on _ _ _ _ _ _ h2 hq)
      have hr := (hre.trans h1.reaches).run h1.stable.2
      rw [hpe, List.append_nil, writes, write_eq hst, hr]
      refine ⟨pf, F1.map some ++ none :: M, ?_, ?_, hbuf⟩
      · simp [hw]
      · rw [List.append_assoc]; exact .evs F1 (.flush _ _ hf)
    | data hs _ ht G1 _ hq =>
      subst hT
      obtain ⟨ht1, ht2⟩ := infix_right ht
      obtain ⟨pf, M, hw, hf, hbuf⟩ := ih ⟨.body, [], hs⟩ ⟨.body, [], hs⟩ [] [] [] _ (stable_body _ hs) (.refl _ _) rfl
        (.data hs t2 ht2 G1 _ hq)
      have hr := hre t1
      rw [run_data boundary hs t1 ht1] at hr
      rw [hpe, List.append_nil, writes, write_eq hst, hr]
      refine ⟨pf, (dataEv t1).map some ++ none :: M, ?_, ?_, hbuf⟩
      · simp [hw]
      · exact .dataPart t1 t2 (.flush _ _ hf)
    | lastData hs _ ht =>
      subst hT
      obtain ⟨ht1, ht2⟩ := infix_right ht
      obtain ⟨pf, M, hw, hf, hbuf⟩ := ih ⟨.body, [], hs⟩ ⟨.body, [], hs⟩ [] [] [] _ (stable_body _ hs) (.refl _ _) rfl
        (.lastData hs t2 ht2)
      have hr := hre t1
      rw [run_data boundary hs t1 ht1] at hr
      rw [hpe, List.append_nil, writes, write_eq hst, hr]
      refine ⟨pf, (dataEv t1).map some ++ none :: M, ?_, ?_, hbuf⟩
      · simp [hw]
      · exact .dataPart t1 t2 (.flush _ _ hf)
  | soft t pending segs chunks hc ih =>
    intro p0 p1 pend' held E G hst hre hpe hpos
    cases hpos with
    | on _ q _ E1 G1 _ hon hq =>
      obtain ⟨pf, M, hw, hf, hbuf⟩ := ih p0 q (pend' ++ t) [] (E ++ E1) G1 hst (hre.trans hon.reaches)
        (by rw [hpe]; simp) hq
      exact ⟨pf, E1.map some ++ M, by rw [hw]; simp, .evs E1 hf, hbuf⟩
    | data hs _ ht G1 _ hq => exact ih p0 _ pend' t E _ hst hre (by rw [hpe]; simp) (.held hs t ht G1 _ hq)
    | lastData hs _ ht => exact ih p0 _ pend' t E _ hst hre (by rw [hpe]; simp) (.lastHeld hs t ht)
  | hard t pending segs chunks hc ih =>
    intro p0 p1 pend' held E G hst hre hpe hpos
    cases hpos with
    | held hs _ ht G1 _ hq =>
      obtain ⟨pf, M, hw, hf, hbuf⟩ := ih p0 ⟨.headers, [], []⟩ (pend' ++ (held ++ delimiter boundary)) []
        (E ++ (dataEv held ++ [.partEnd, .partBegin])) G1 hst (hre.trans (reaches_delimiter boundary hb hs held ht))
        (by rw [hpe]; simp) hq
      refine ⟨pf, (dataEv held).map some ++ some .partEnd :: some .partBegin :: M, by rw [hw]; simp, ?_, hbuf⟩
      exact .dataAll held (.ev _ _ _ (.ev _ _ _ hf))
    | lastHeld hs _ ht =>
      exact ih p0 _ pend' (held ++ closing boundary) E _ hst hre (by rw [hpe]; simp) (.last hs held ht)

theorem pos_parts (boundary : Str) (parts : List Submitted) (hne : parts ≠ [])
    (hg : ∀ s ∈ parts, GoodPart boundary s) :
    Pos boundary ⟨.headers, [], []⟩ [] (partSegs boundary parts) (partsEvs parts) := by
  induction parts with
  | nil => exact absurd rfl hne
  | cons s rest ih =>
    have hs := hg s (by simp)
    cases rest with
    | nil =>
      have := Pos.on _ _ _ _ _ _ (online_headerText (dashes ++ boundary) hs) (.lastData (kept s) s.content hs.content)
      rw [partSegs, partsEvs, partEvs, List.append_assoc]
      exact this
    | cons t rest =>
      have := Pos.on _ _ _ _ _ _ (online_headerText (dashes ++ boundary) hs)
        (.data (kept s) s.content hs.content _ _ (ih (by simp) fun x hx => hg x (by simp [hx])))
      rw [partSegs, partsEvs, partEvs, List.append_assoc]
      exact this

/-- The callbacks for a body in chunks that do not cut the delimiters. -/
theorem writes_body (boundary : Str) (hb : '\r' ∉ boundary) (parts : List Submitted) (hne : parts ≠ [])
    (hg : ∀ s ∈ parts, GoodPart boundary s) (chunks : List Str) (hc : Chunking (bodySegs boundary parts) [] chunks) :
    ∃ pf M, writes (dashes ++ boundary) ⟨.preamble, [], []⟩ chunks = some (pf, M) ∧
      Flow (.partBegin :: partsEvs parts) M ∧ pf.buffer = [] := by
  have hon := online_first boundary hb
  exact writes_flow boundary hb _ _ chunks hc ⟨.preamble, [], []⟩ ⟨.preamble, [], []⟩ [] [] [] _ hon.stable.1
    (.refl _ _) rfl (.on _ _ _ _ _ _ hon (pos_parts boundary parts hne hg))

end Verif.Multipart
