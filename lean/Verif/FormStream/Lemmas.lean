import Verif.FormStream.Spec
import Verif.ExtValue.Lemmas
import Verif.Multipart.Lemmas
import Verif.Forms.Lemmas
import Verif.Hosts.Lemmas

/-!
# Lemmas for C94
-/

namespace Verif.FormStream

open Verif

/-! ## The maximum size -/

theorem cutChunks_none (k : Nat) (chunks : List Str) : cutChunks none k chunks = chunks := by
  induction chunks with
  | nil => rfl
  | cons c cs ih => rw [cutChunks, ih]

theorem cutChunks_flatten (m k : Nat) (hk : k ≤ m) (chunks : List Str) :
    (cutChunks (some m) k chunks).flatten = chunks.flatten.take (m - k) := by
  induction chunks generalizing k with
  | nil => simp [cutChunks]
  | cons c cs ih =>
    rw [cutChunks]
    simp only [List.flatten_cons]
    by_cases h : k + c.length > m
    · rw [if_pos h, show k + (m - k) = m by omega, ih m (Nat.le_refl m), Nat.sub_self, List.take_zero, List.append_nil,
        List.take_append_of_le_length (by omega)]
    · have e : c.take (m - k) = c := List.take_of_length_le (by omega)
      rw [if_neg h, ih (k + c.length) (by omega), List.take_length, List.take_append, e,
        show m - k - c.length = m - (k + c.length) by omega]

/-! ## Octet streams -/

theorem octet_fold (chunks : List Str) (f : Option Str) :
    chunks.foldl octetWrite f =
      if f = none ∧ chunks.flatten = [] then none else some (f.getD [] ++ chunks.flatten) := by
  induction chunks generalizing f with
  | nil => cases f <;> simp
  | cons c cs ih =>
    rw [List.foldl_cons, ih, octetWrite]
    by_cases hc : c = []
    · simp [hc]
    · rw [if_neg hc]
      simp [hc]

/-! ## URL-encoded forms -/

theorem urlRaws_eq (chunks : List Str) (buffer : Str) (h : '&' ∉ buffer) :
    (urlRaws buffer chunks).1 ++ [(urlRaws buffer chunks).2] = splitOn '&' (buffer ++ chunks.flatten) := by
  induction chunks generalizing buffer with
  | nil => simp [urlRaws, splitOn_of_not_mem _ _ h]
  | cons c cs ih =>
    rw [urlRaws]
    simp only [List.flatten_cons]
    have h1 := Forms.scan_eq [] (buffer ++ c) (by simp)
    have h2 := Forms.scan_rest [] (buffer ++ c) (by simp)
    rw [List.nil_append] at h1
    rw [List.append_assoc, ih _ h2]
    generalize Forms.scan [] (buffer ++ c) = r at h1 h2
    have e1 : buffer ++ (c ++ cs.flatten) = joinWith ['&'] (r.1 ++ [r.2]) ++ cs.flatten := by
      rw [h1, joinWith_splitOn, List.append_assoc]
    rw [e1]
    have hno : ∀ x ∈ r.1, '&' ∉ x := by
      intro x hx
      exact splitOn_no_sep '&' _ x (by rw [← h1]; simp [hx])
    revert hno
    generalize r.1 = l
    intro hno
    induction l with
    | nil => simp [joinWith]
    | cons a l ih2 =>
      have hj : joinWith ['&'] (a :: l ++ [r.2]) = a ++ '&' :: joinWith ['&'] (l ++ [r.2]) := by
        cases l <;> simp [joinWith]
      have e2 : a ++ '&' :: joinWith ['&'] (l ++ [r.2]) ++ cs.flatten
          = a ++ '&' :: (joinWith ['&'] (l ++ [r.2]) ++ cs.flatten) := by simp
      rw [hj, e2, splitOn_append_sep _ _ _ (hno a (by simp)), ← ih2 (fun x hx => hno x (by simp [hx]))]
      simp

theorem last_eq {l1 l2 : List Str} {x1 x2 : Str} (h : l1 ++ [x1] = l2 ++ [x2]) : l1 = l2 ∧ x1 = x2 :=
  List.append_inj' h rfl |>.imp id (fun e => (List.cons.inj e).1)

theorem urlencoded_eq (chunks : List Str) :
    urlencoded chunks = (Forms.Spec.rawFields chunks.flatten).map urlField ++ [.done] := by
  have h := urlRaws_eq chunks [] (by simp)
  rw [List.nil_append] at h
  unfold urlencoded Forms.Spec.rawFields
  simp only
  rw [← h, List.getLast?_append]
  generalize (urlRaws [] chunks).1 = l
  generalize (urlRaws [] chunks).2 = x
  by_cases hx : x = []
  · simp [hx]
  · simp [hx]

theorem unquote_plain {s e : Str} (h : Forms.Spec.Encodes s e) (hp : '+' ∉ e) : Url.unquote e = s := by
  induction h with
  | nil => rfl
  | plain c s e hc _ ih => rw [ExtValue.unquote_cons c e hc.1, ih (fun hm => hp (by simp [hm]))]
  | space s e _ ih => exact absurd (by simp) hp
  | escape x y a b s e ha hb _ ih => rw [ExtValue.unquote_escape a b x y e ha hb, ih (fun hm => hp (by simp [hm]))]

theorem decode_ascii (e : Str) (h : ∀ c ∈ e, c.toNat < 0x80) : ExtValue.utf8Decode e = e := by
  have := ExtValue.decode_utf8 e
  rwa [ExtValue.utf8_ascii e h] at this

theorem text_encodes {t e : Str} (h : Spec.Encodes t e) :
    ExtValue.utf8Decode (ExtValue.utf8 (ExtValue.unquoteText (ExtValue.utf8Decode e))) = t := by
  rw [ExtValue.decode_utf8, decode_ascii e h.ascii]
  unfold ExtValue.unquoteText
  rw [ExtValue.unquoteRun_ascii [] e h.ascii, List.nil_append, unquote_plain h.bytes h.plus, ExtValue.decode_utf8]

theorem urlField_encodes {n v en ev : Str} (hn : Spec.Encodes n en) (hv : Spec.Encodes v ev) :
    urlField (en ++ '=' :: ev) = .field n v := by
  unfold urlField
  rw [Url.partition_append _ _ _ (Forms.encodes_not_mem hn.bytes).2]
  simp only [Option.getD_some]
  rw [text_encodes hn, text_encodes hv]

theorem form_fields {ps : List (Str × Str)} {es : List Str} (h : Spec.EncodesForm ps es) :
    es.map urlField = ps.map (fun kv => .field kv.1 kv.2) ∧ (∀ x ∈ es, '&' ∉ x ∧ x ≠ []) := by
  induction h with
  | nil => simp
  | cons n v en ev ps es hn hv _ ih =>
    refine ⟨by simp [urlField_encodes hn hv, ih.1], ?_⟩
    intro x hx
    rcases List.mem_cons.1 hx with rfl | hx
    · refine ⟨?_, by simp⟩
      simp only [List.mem_append, List.mem_cons, not_or]
      exact ⟨(Forms.encodes_not_mem hn.bytes).1, by decide, (Forms.encodes_not_mem hv.bytes).1⟩
    · exact ih.2 x hx

theorem splitOn_join (es : List Str) (hne : es ≠ []) (h : ∀ x ∈ es, '&' ∉ x) :
    splitOn '&' (joinWith ['&'] es) = es := by
  induction es with
  | nil => exact absurd rfl hne
  | cons a es ih =>
    cases es with
    | nil => exact splitOn_of_not_mem _ _ (h a (by simp))
    | cons b es =>
      have hj : joinWith ['&'] (a :: b :: es) = a ++ '&' :: joinWith ['&'] (b :: es) := by simp [joinWith]
      rw [hj, splitOn_append_sep _ _ _ (h a (by simp)), ih (by simp) (fun x hx => h x (by simp [hx]))]

theorem rawFields_join (es : List Str) (h : ∀ x ∈ es, '&' ∉ x ∧ x ≠ []) :
    Forms.Spec.rawFields (joinWith ['&'] es) = es := by
  by_cases hne : es = []
  · subst hne
    rfl
  · unfold Forms.Spec.rawFields
    simp only
    rw [splitOn_join es hne (fun x hx => (h x hx).1), if_neg]
    intro hl
    exact (h [] (List.mem_of_getLast? hl)).2 rfl

/-! ## Multipart forms -/

/-- Callbacks, with the ends of chunks between them. -/
def onM (rfc : Str → Str) (s : St) : List (Option Multipart.Ev) → St
  | [] => s
  | none :: M => onM rfc s M
  | some e :: M => onM rfc (s.on rfc e) M

theorem onM_append (rfc : Str → Str) (s : St) (E : List Multipart.Ev) (M : List (Option Multipart.Ev)) :
    onM rfc s (E.map some ++ M) = onM rfc (E.foldl (St.on rfc) s) M := by
  induction E generalizing s with
  | nil => rfl
  | cons e E ih => exact ih (s.on rfc e)

theorem feed_eq (bnd : Str) (rfc : Str → Str) (p : Multipart.Parser) (s : St) (chunks : List Str) :
    feed bnd rfc p s chunks = (Multipart.writes bnd p chunks).map fun r => (r.1, onM rfc s r.2) := by
  induction chunks generalizing p s with
  | nil => rfl
  | cons c cs ih =>
    rw [feed, Multipart.writes]
    cases p.write bnd c with
    | none => rfl
    | some r =>
      rw [Option.bind_some, Option.bind_some, ih]
      cases Multipart.writes bnd r.1 cs with
      | none => rfl
      | some q =>
        show some (q.1, _) = some (q.1, onM rfc s (r.2.map some ++ none :: q.2))
        rw [onM_append]
        rfl

theorem data_append (s : St) (x d : Str) : s.onData (x ++ d) = (s.onData x).onData d := by
  obtain ⟨hs, fd, fl, rs⟩ := s
  unfold St.onData
  cases fl with
  | some f => simp
  | none =>
    cases fd with
    | some nv => obtain ⟨n, v⟩ := nv; simp
    | none => rfl

theorem data_nil (s : St) : s.onData [] = s := by
  obtain ⟨hs, fd, fl, rs⟩ := s
  unfold St.onData
  cases fl with
  | some f => simp
  | none =>
    cases fd with
    | some nv => obtain ⟨n, v⟩ := nv; simp
    | none => rfl

/-- How the data is divided does not matter. -/
theorem onM_flow (rfc : Str → Str) (s : St) (G : List Multipart.Ev) (M : List (Option Multipart.Ev))
    (h : Multipart.Flow G M) : onM rfc s M = G.foldl (St.on rfc) s := by
  induction h generalizing s with
  | nil => rfl
  | flush G M h ih => exact ih s
  | ev e G M h ih => exact ih (s.on rfc e)
  | data x d G M h ih =>
    rw [onM, ih]
    show G.foldl (St.on rfc) ((s.onData x).onData d) = G.foldl (St.on rfc) (s.onData (x ++ d))
    rw [data_append]
  | skip G M h ih =>
    rw [ih]
    show _ = G.foldl (St.on rfc) (s.onData [])
    rw [data_nil]

theorem headers_fold (rfc : Str → Str) (s : St) (hs : List (Str × Str)) :
    (hs.map fun kv => Multipart.Ev.header kv.1 kv.2).foldl (St.on rfc) s = { s with headers := s.headers ++ hs } := by
  induction hs generalizing s with
  | nil => simp
  | cons kv hs ih =>
    rw [List.map_cons, List.foldl_cons, ih]
    simp [St.on]

theorem aget_disposition (s : Multipart.Spec.Submitted) :
    (aget (Multipart.kept s) "content-disposition".toList).getD [] = Multipart.Spec.disposition s := by
  unfold Multipart.kept
  simp [aget]

theorem aget_find (hs : List (Str × Str)) (k : Str) :
    aget hs k = (hs.find? fun kv => kv.1 = k).map (·.2) := by
  induction hs with
  | nil => rfl
  | cons kv hs ih =>
    obtain ⟨a, v⟩ := kv
    rw [aget, List.find?_cons]
    by_cases h : a = k
    · simp [h]
    · rw [if_neg h, ih]
      simp [h]

theorem aget_kept (s : Multipart.Spec.Submitted) :
    aget (Multipart.kept s) "content-type".toList =
      (s.headers.find? fun kv => kv.1 = "content-type".toList).map (·.2) := by
  unfold Multipart.kept
  have h : ("content-disposition".toList : Str) ≠ "content-type".toList := by decide
  rw [aget, if_neg h, aget_find]

theorem endsWith_star (n : Str) (h : n.getLast? ≠ some '*') : endsWith n ['*'] = false := by
  cases hb : endsWith n ['*'] with
  | false => rfl
  | true =>
    obtain ⟨r, hr⟩ := (Hosts.endsWith_iff _ _).1 hb
    rw [hr] at h
    simp at h

theorem fieldName_of (rfc : Str → Str) (opts : List (Str × Str)) (n : Str) (h : n.getLast? ≠ some '*')
    (h1 : aget opts "name".toList = some n) (h2 : aget opts "name*".toList = none) :
    fieldName rfc opts = ExtValue.utf8Decode n := by
  unfold fieldName
  rw [h1, h2]
  dsimp only
  have e : (if n = [] then (none : Option Str).getD [] else n) = n := by
    by_cases hn : n = []
    · rw [if_pos hn, hn]; rfl
    · rw [if_neg hn]
  rw [e, endsWith_star n h]
  rfl

theorem fileName_some (rfc : Str → Str) (opts : List (Str × Str)) (f : Str) (h : f ≠ [])
    (h1 : aget opts "filename".toList = some f) : fileName rfc opts = some (ExtValue.utf8Decode f) := by
  unfold fileName
  rw [h1]
  dsimp only
  rw [if_neg h]

theorem fileName_none (rfc : Str → Str) (opts : List (Str × Str)) (h1 : aget opts "filename".toList = none)
    (h2 : aget opts "filename*".toList = none) : fileName rfc opts = none := by
  unfold fileName
  rw [h1, h2]
  rfl

theorem aget_one {a k : Str} (v : Str) (h : a ≠ k) : aget [(a, v)] k = none := by
  rw [aget, if_neg h, aget]

theorem aget_two {a b k : Str} (v w : Str) (h : a ≠ k) (h' : b ≠ k) : aget [(a, v), (b, w)] k = none := by
  rw [aget, if_neg h, aget_one w h']

theorem aget_two_snd {a b : Str} (v w : Str) (h : a ≠ b) : aget [(a, v), (b, w)] b = some w := by
  rw [aget, if_neg h, aget, if_pos rfl]

theorem aget_head (a v : Str) (r : List (Str × Str)) : aget ((a, v) :: r) a = some v := by
  rw [aget, if_pos rfl]

/-- The headers of a good part. -/
theorem headersFinished_good (rfc : Str → Str) {boundary : Str} {s : Multipart.Spec.Submitted}
    (hg : Multipart.Spec.GoodPart boundary s) (hn : Spec.GoodField s) (hf : Spec.GoodFile s) (R : List Report) :
    St.onHeadersFinished rfc ⟨Multipart.kept s, none, none, R⟩ =
      match s.filename with
      | none => ⟨Multipart.kept s, some (ExtValue.utf8Decode s.name, []), none, R⟩
      | some f => ⟨Multipart.kept s, none, some ⟨ExtValue.utf8Decode f, ExtValue.utf8Decode s.name,
          (s.headers.find? fun kv => kv.1 = "content-type".toList).map (·.2), Multipart.kept s, []⟩, R⟩ := by
  unfold St.onHeadersFinished
  dsimp only
  rw [aget_disposition, Multipart.options_disposition hg, aget_kept]
  unfold Spec.GoodField at hn
  unfold Spec.GoodFile at hf
  cases hfn : s.filename with
  | none =>
    dsimp only
    rw [fileName_none rfc _ (aget_one _ (by decide)) (aget_one _ (by decide)),
      fieldName_of rfc _ s.name hn (aget_head _ _ _) (aget_one _ (by decide))]
  | some f =>
    dsimp only
    rw [fileName_some rfc _ f (fun e => hf (by rw [hfn, e])) (aget_two_snd _ _ (by decide)),
      fieldName_of rfc _ s.name hn (aget_head _ _ _) (aget_two _ _ (by decide) (by decide))]

/-- The callbacks of a good part make its report. -/
theorem part_fold (rfc : Str → Str) {boundary : Str} {s : Multipart.Spec.Submitted}
    (hg : Multipart.Spec.GoodPart boundary s) (hn : Spec.GoodField s) (hf : Spec.GoodFile s) (R : List Report) :
    (Multipart.partEvs s).foldl (St.on rfc) ⟨[], none, none, R⟩ =
      ⟨Multipart.kept s, none, none, R ++ [Spec.expected s]⟩ := by
  unfold Multipart.partEvs Multipart.emitHeaders
  rw [List.foldl_append, List.foldl_append, headers_fold]
  dsimp only
  rw [List.nil_append]
  show ((St.onHeadersFinished rfc ⟨Multipart.kept s, none, none, R⟩).onData s.content).onEnd = _
  rw [headersFinished_good rfc hg hn hf]
  unfold Spec.expected
  cases s.filename with
  | none => rfl
  | some f => rfl

theorem parts_fold (rfc : Str → Str) {boundary : Str} (parts : List Multipart.Spec.Submitted) (hne : parts ≠ [])
    (hg : ∀ s ∈ parts, Multipart.Spec.GoodPart boundary s) (hn : ∀ s ∈ parts, Spec.GoodField s ∧ Spec.GoodFile s)
    (R : List Report) :
    ((Multipart.partsEvs parts).foldl (St.on rfc) ⟨[], none, none, R⟩).reports =
      R ++ parts.map Spec.expected ++ [.done] := by
  induction parts generalizing R with
  | nil => exact absurd rfl hne
  | cons s rest ih =>
    have hs := hn s (by simp)
    cases rest with
    | nil =>
      rw [Multipart.partsEvs, List.foldl_append, part_fold rfc (hg s (by simp)) hs.1 hs.2]
      rfl
    | cons t rest =>
      rw [Multipart.partsEvs, List.foldl_append, part_fold rfc (hg s (by simp)) hs.1 hs.2, List.foldl_cons]
      show ((Multipart.partsEvs (t :: rest)).foldl (St.on rfc) ⟨[], none, none, R ++ [Spec.expected s]⟩).reports = _
      rw [ih (by simp) (fun x hx => hg x (by simp [hx])) (fun x hx => hn x (by simp [hx]))]
      simp

theorem multipart_good (boundary : Str) (hb : '\r' ∉ boundary) (rfc : Str → Str)
    (parts : List Multipart.Spec.Submitted) (hne : parts ≠ [])
    (hg : ∀ s ∈ parts, Multipart.Spec.GoodPart boundary s) (hn : ∀ s ∈ parts, Spec.GoodField s ∧ Spec.GoodFile s)
    (chunks : List Str) (hc : Multipart.Spec.Chunking (Multipart.Spec.bodySegs boundary parts) [] chunks) :
    multipart boundary rfc chunks = .ok (parts.map Spec.expected ++ [.done]) := by
  obtain ⟨pf, M, hw, hflow, hbuf⟩ := Multipart.writes_body boundary hb parts hne hg chunks hc
  unfold multipart
  rw [feed_eq, hw]
  show Except.ok (pf.finalize.foldl (St.on rfc) (onM rfc _ M)).reports = _
  unfold Multipart.Parser.finalize Multipart.dataEv
  rw [hbuf, if_pos rfl, onM_flow rfc _ _ M hflow]
  show Except.ok ((Multipart.partsEvs parts).foldl (St.on rfc) ⟨[], none, none, []⟩).reports = _
  rw [parts_fold rfc parts hne hg hn]
  rfl

/-! ## The choice of the parser -/

theorem split_type (main rest : Str) (hm : ';' ∉ main) (hr : ';' ∉ rest) :
    splitOn ';' (main ++ ';' :: rest) = [main, rest] := by
  rw [splitOn_append_sep _ _ _ hm, splitOn_of_not_mem _ _ hr]

theorem options_one (main : Str) (c : Char) (k v : Str) (hm : ';' ∉ main) (hc : isByteSpace c = false)
    (hks : ';' ∉ c :: k) (hk : '=' ∉ c :: k) (hl : lower (strip isByteSpace (c :: k)) = c :: k) (hs : ';' ∉ v)
    (hne : v ≠ []) (hv : ∀ x ∈ v, isByteSpace x = false ∧ x ≠ '"') :
    Multipart.options (main ++ ';' :: ' ' :: (c :: k) ++ '=' :: v) = [(c :: k, v)] := by
  obtain ⟨i, b, rfl⟩ : ∃ i b, v = i ++ [b] := by
    rcases List.eq_nil_or_concat v with h | ⟨i, b, h⟩
    · exact absurd h hne
    · exact ⟨i, b, by rw [h, List.concat_eq_append]⟩
  have hb : isByteSpace b = false := (hv b (by simp)).1
  have h1 : strip isByteSpace (i ++ [b]) = i ++ [b] := by
    cases i with
    | nil => simp [strip, lstrip, rstrip, hb]
    | cons a i => exact Multipart.strip_ends isByteSpace a b i (hv a (by simp)).1 hb
  have h2 : strip isByteSpace ((c :: k) ++ '=' :: (i ++ [b])) = (c :: k) ++ '=' :: (i ++ [b]) := by
    have := Multipart.strip_ends isByteSpace c b (k ++ '=' :: i) hc hb
    simpa using this
  have hq : ¬ ∃ w, i ++ [b] = '"' :: w ++ ['"'] := by
    rintro ⟨w, e⟩
    exact (hv '"' (by rw [e]; simp)).2 rfl
  have e : main ++ ';' :: ' ' :: (c :: k) ++ '=' :: (i ++ [b]) =
      main ++ ';' :: (' ' :: ((c :: k) ++ '=' :: (i ++ [b]))) := by simp
  unfold Multipart.options
  rw [e, split_type _ _ hm (by
    simp only [List.mem_cons, List.mem_append, not_or] at hks hs ⊢
    exact ⟨by decide, hks, by decide, hs⟩)]
  show Multipart.addOption [] _ = _
  rw [Multipart.addOption_bare [] c k (i ++ [b]) hk hl h1 h2 hq]
  rfl

theorem boundary_char (c : Char) (h : c ∈ Disposition.Spec.alnum ++ "'+_-.".toList) :
    isByteSpace c = false ∧ c ≠ '"' ∧ c ≠ ';' ∧ c ≠ '\r' :=
  (show ∀ c ∈ Disposition.Spec.alnum ++ "'+_-.".toList,
    isByteSpace c = false ∧ c ≠ '"' ∧ c ≠ ';' ∧ c ≠ '\r' by decide +kernel) c h

theorem type_form (b : Str) : Spec.multipartType b =
    "multipart/form-data".toList ++ ';' :: ' ' :: ('b' :: "oundary".toList) ++ '=' :: b := by
  have h : "multipart/form-data; boundary=".toList =
    "multipart/form-data".toList ++ ';' :: ' ' :: ('b' :: "oundary".toList) ++ ['='] := by decide
  unfold Spec.multipartType
  rw [h]
  simp only [List.append_assoc, List.cons_append, List.nil_append]

theorem options_type (b : Str) (hb : Spec.GoodBoundary b) :
    Multipart.options (Spec.multipartType b) = [("boundary".toList, b)] := by
  have hc := fun c hm => boundary_char c (hb.2 c hm)
  rw [type_form]
  exact options_one _ 'b' "oundary".toList b (by decide) (by decide) (by decide) (by decide) (by decide)
    (fun hm => (hc _ hm).2.2.1 rfl) hb.1 (fun x hx => ⟨(hc x hx).1, (hc x hx).2.1⟩)

theorem main_type (b : Str) (hb : Spec.GoodBoundary b) :
    mainValue (Spec.multipartType b) = "multipart/form-data".toList := by
  have hc := fun c hm => boundary_char c (hb.2 c hm)
  have e : "multipart/form-data".toList ++ ';' :: ' ' :: ('b' :: "oundary".toList) ++ '=' :: b =
      "multipart/form-data".toList ++ ';' :: ((' ' :: ('b' :: "oundary".toList) ++ ['=']) ++ b) := by
    simp only [List.append_assoc, List.cons_append, List.nil_append]
  unfold mainValue
  rw [type_form, e, split_type _ _ (by decide) (by
    rw [List.mem_append, not_or]
    exact ⟨by decide, fun hm => (hc _ hm).2.2.1 rfl⟩)]
  show lower (strip isByteSpace "multipart/form-data".toList) = _
  decide

theorem run_multipart (codec : Str → Option (Str → Str)) (b : Str) (hb : Spec.GoodBoundary b) (name : Option Str)
    (max : Option Nat) (chunks : List Str) :
    run codec (Spec.multipartType b) name max chunks =
      multipart b (ExtValue.decodeParam codec) (cutChunks max 0 chunks) := by
  unfold run
  dsimp only
  rw [main_type b hb, if_pos rfl, options_type b hb, aget_head]
  dsimp only
  rw [if_neg hb.1]

theorem run_octet (codec : Str → Option (Str → Str)) (ct : Str) (h : mainValue ct = "application/octet-stream".toList)
    (name : Option Str) (max : Option Nat) (chunks : List Str) :
    run codec ct name max chunks = octet name (cutChunks max 0 chunks) := by
  have h1 : ("application/octet-stream".toList : Str) ≠ "multipart/form-data".toList := by decide
  unfold run
  dsimp only
  rw [h, if_neg h1, if_pos rfl]

theorem run_url (codec : Str → Option (Str → Str)) (ct : Str)
    (h : mainValue ct = "application/x-www-form-urlencoded".toList) (name : Option Str) (max : Option Nat)
    (chunks : List Str) : run codec ct name max chunks = .ok (urlencoded (cutChunks max 0 chunks)) := by
  have h1 : ("application/x-www-form-urlencoded".toList : Str) ≠ "multipart/form-data".toList := by decide
  have h2 : ("application/x-www-form-urlencoded".toList : Str) ≠ "application/octet-stream".toList := by decide
  unfold run
  dsimp only
  rw [h, if_neg h1, if_neg h2, if_pos (Or.inl rfl)]

end Verif.FormStream
