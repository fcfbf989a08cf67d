import Verif.Multipart.FormLemmas

/-!
# Lemmas for C30 and C31
-/

namespace Verif.Multipart

open Verif Verif.Url Spec

/-! ### All parts -/

theorem fileCount_cons (s : Submitted) (rest : List Submitted) (n : Nat) :
    n + fileCount (s :: rest) = nextFiles n s + fileCount rest := by
  unfold fileCount nextFiles
  rw [List.filter_cons]
  split <;> simp <;> omega

theorem fieldCount_cons (s : Submitted) (rest : List Submitted) (n : Nat) :
    n + fieldCount (s :: rest) = nextFields n s + fieldCount rest := by
  unfold fieldCount nextFields
  rw [List.filter_cons]
  cases s.filename <;> simp <;> omega

theorem atMost_le {n m : Nat} {l : Option Nat} (h : AtMost m l) (hn : n ≤ m) : AtMost n l := by
  cases l with
  | none => trivial
  | some k => exact Nat.le_trans hn h

theorem flow_nil (rfc : Str → Str) (I : Form → Prop) (hI : ∀ f, I f → I f.flush) {G : List Ev} {M : List (Option Ev)}
    (hG : G = []) (hf : Flow G M) (f : Form) (h : I f) : ∃ f0, I f0 ∧ f.onM rfc M = some f0 := by
  induction hf generalizing f with
  | nil => exact ⟨f, h, rfl⟩
  | flush H M h' ih => exact ih hG f.flush (hI f h)
  | ev e' H M h' ih => cases hG
  | data x d H M h' ih => cases hG
  | skip H M h' ih => cases hG

theorem read_parts (rfc : Str → Str) (boundary : Str) (mf mx : Option Nat) (parts : List Submitted) (hne : parts ≠ [])
    (hg : ∀ s ∈ parts, GoodPart boundary s) :
    ∀ (nf nx : Nat) (done : List Submitted) (f : Form) (M : List (Option Ev)), Flow (partsEvs parts) M →
      Between mf mx nf nx done f → f.part = .new → AtMost nf mf → AtMost nx mx →
      (AtMost (nf + fileCount parts) mf ∧ AtMost (nx + fieldCount parts) mx →
        ∃ f0, f.onM rfc M = some f0 ∧
          Between mf mx (nf + fileCount parts) (nx + fieldCount parts) (done ++ parts) f0) ∧
      (¬ (AtMost (nf + fileCount parts) mf ∧ AtMost (nx + fieldCount parts) mx) → f.onM rfc M = none) := by
  induction parts with
  | nil => exact absurd rfl hne
  | cons s rest ih =>
    intro nf nx done f M hf hb hp hmf hmx
    rw [fileCount_cons, fieldCount_cons]
    have hs := hg s (by simp)
    cases rest with
    | nil =>
      rw [partsEvs] at hf
      obtain ⟨hok, hbad⟩ := read_part rfc hs hf f hb hp hmf hmx
      have e1 : nextFiles nf s + fileCount [] = nextFiles nf s := rfl
      have e2 : nextFields nx s + fieldCount [] = nextFields nx s := rfl
      rw [e1, e2]
      refine ⟨fun hlim => ?_, hbad⟩
      obtain ⟨f0, M', h1, h2, h3⟩ := hok hlim
      obtain ⟨f1, M1, h4, h5, h6⟩ := flow_ev (by intro d; exact Ev.noConfusion) rfc _ (fun g hg => Between.flush hg) h3 f0 h1
      obtain ⟨f2, h7, h8⟩ := flow_nil rfc _ (fun g hg => Between.flush hg) rfl h6 f1 h4
      exact ⟨f2, (h2.trans h5).trans h8, h7⟩
    | cons t rest =>
      rw [partsEvs] at hf
      obtain ⟨hok, hbad⟩ := read_part rfc hs hf f hb hp hmf hmx
      by_cases hlim : AtMost (nextFiles nf s) mf ∧ AtMost (nextFields nx s) mx
      · obtain ⟨f0, M', h1, h2, h3⟩ := hok hlim
        obtain ⟨f1, M1, h4, h5, h6⟩ := flow_ev (by intro d; exact Ev.noConfusion) rfc _ (fun g hg => Between.flush hg)
          h3 f0 h1
        have := ih (by simp) (fun x hx => hg x (by simp [hx])) _ _ (done ++ [s]) { f1 with part := .new } M1 h6
          (h4.part _) rfl hlim.1 hlim.2
        have hrun : f.onM rfc M = ({ f1 with part := .new } : Form).onM rfc M1 := h2.trans h5
        rw [hrun]
        have e : done ++ [s] ++ (t :: rest) = done ++ s :: t :: rest := by simp
        rw [e] at this
        exact this
      · refine ⟨fun h => absurd ⟨atMost_le h.1 (Nat.le_add_right _ _), atMost_le h.2 (Nat.le_add_right _ _)⟩ hlim,
          fun _ => hbad hlim⟩

theorem feed_flushed (bnd : Str) (rfc : Str → Str) (p : Parser) (f : Form) (chunks : List Str) (hf : f.flush = f)
    (r : Parser × Form) (h : feed bnd rfc p f chunks = some r) : r.2.flush = r.2 := by
  induction chunks generalizing p f with
  | nil => injection h with h; rw [← h]; exact hf
  | cons c cs ih =>
    rw [feed] at h
    cases hw : p.write bnd c with
    | none => rw [hw] at h; cases h
    | some q =>
      rw [hw, Option.bind_some] at h
      cases ho : f.onAll rfc q.2 with
      | none => rw [ho] at h; cases h
      | some g =>
        rw [ho, Option.bind_some] at h
        exact ih q.1 g.flush (flush_flush g) h

theorem atMost_zero (l : Option Nat) : AtMost 0 l := by
  cases l <;> simp [AtMost]

/-- What is read from a body in chunks that do not cut the delimiters. -/
theorem parse_body (boundary : Str) (hb : '\r' ∉ boundary) (rfc : Str → Str) (mf mx : Option Nat)
    (parts : List Submitted) (hne : parts ≠ []) (hg : ∀ s ∈ parts, GoodPart boundary s) (chunks : List Str)
    (hc : Chunking (bodySegs boundary parts) [] chunks) :
    (AtMost (fileCount parts) mf ∧ AtMost (fieldCount parts) mx →
      parse boundary rfc mf mx chunks = some (parts.map expected)) ∧
    (¬ (AtMost (fileCount parts) mf ∧ AtMost (fieldCount parts) mx) → parse boundary rfc mf mx chunks = none) := by
  obtain ⟨pf, M, hw, hf, hbuf⟩ := writes_body boundary hb parts hne hg chunks hc
  have hfeed := feed_eq (dashes ++ boundary) rfc ⟨.preamble, [], []⟩ (.new mf mx) chunks
  rw [hw, Option.bind_some] at hfeed
  have hnew : Between mf mx 0 0 [] (Form.new mf mx) :=
    ⟨rfl, rfl, rfl, rfl, rfl, (fun it hit => by cases hit), (fun w hw => by cases hw), (fun w hw => by cases hw)⟩
  obtain ⟨f1, M1, h1, h2, h3⟩ := flow_ev (by intro d; exact Ev.noConfusion) rfc _ (fun g hg => Between.flush hg) hf
    (Form.new mf mx) hnew
  have := read_parts rfc boundary mf mx parts hne hg 0 0 [] { f1 with part := .new } M1 h3 (h1.part _) rfl
    (atMost_zero _) (atMost_zero _)
  rw [Nat.zero_add, Nat.zero_add] at this
  have hrun : (Form.new mf mx).onM rfc M = ({ f1 with part := .new } : Form).onM rfc M1 := h2
  obtain ⟨hok, hbad⟩ := this
  unfold parse
  refine ⟨fun hlim => ?_, fun hlim => ?_⟩
  · obtain ⟨f0, h4, h5⟩ := hok hlim
    rw [hrun, h4] at hfeed
    have hfl := feed_flushed _ _ _ _ _ rfl _ hfeed
    rw [hfeed, Option.map_some, Option.bind_some]
    dsimp only
    have e : pf.finalize = [] := by unfold Parser.finalize; rw [hbuf]; rfl
    rw [e]
    show some (f0.items.map (entry f0.files)) = _
    have hfl' : f0.flush = f0 := hfl
    have := h5.entries
    rw [hfl'] at this
    rw [this]
    rfl
  · rw [hrun, hbad hlim] at hfeed
    rw [hfeed]
    rfl

/-- The whole body in one chunk cuts nothing. -/
theorem chunking_single (segs : List Seg) (pend : Str) : Chunking segs pend [pend ++ segs.flatMap Seg.text] := by
  induction segs generalizing pend with
  | nil => rw [List.flatMap_nil, List.append_nil]; exact .done pend
  | cons s segs ih =>
    have := ih (pend ++ s.text)
    rw [List.append_assoc] at this
    cases s with
    | soft t => exact .soft t pend segs _ this
    | hard t => exact .hard t pend segs _ this

/-- Such chunks are chunks of the body. -/
theorem chunking_flatten (segs : List Seg) (pend : Str) (chunks : List Str) (h : Chunking segs pend chunks) :
    chunks.flatten = pend ++ segs.flatMap Seg.text := by
  induction h with
  | done pending => simp
  | cut t1 t2 pending segs chunks h ih => simp [ih, Seg.text]
  | soft t pending segs chunks h ih => rw [ih]; simp [Seg.text]
  | hard t pending segs chunks h ih => rw [ih]; simp [Seg.text]

/-! ### The limits for any body in one chunk -/

/-- The callbacks alternate; the flag tells whether the headers of the current part are finished. -/
def okEvs : Bool → List Ev → Bool
  | _, [] => true
  | o, .partBegin :: es => !o && okEvs false es
  | o, .header _ _ :: es => !o && okEvs o es
  | o, .headersFinished :: es => !o && okEvs true es
  | o, .partData _ :: es => okEvs o es
  | o, .partEnd :: es => o && okEvs false es
  | o, .stop :: es => okEvs o es

/-- The flag of a parser. -/
def Parser.open (p : Parser) : Bool := decide (p.mode = .body)

theorem okEvs_headers (hs : List (Str × Str)) (es : List Ev) (h : okEvs true es = true) :
    okEvs false (emitHeaders hs ++ es) = true := by
  unfold emitHeaders
  induction hs with
  | nil => simp [okEvs, h]
  | cons kv hs ih => simpa [okEvs] using ih

theorem okEvs_data (o : Bool) (d : Str) (es : List Ev) (h : okEvs o es = true) :
    okEvs o (dataEv d ++ es) = true := by
  unfold dataEv
  split
  · exact h
  · exact h

theorem loop_ok (bnd : Str) (n : Nat) (p p' : Parser) (evs : List Ev) (h : loop bnd n p = some (p', evs)) :
    okEvs p.open evs = true := by
  induction n generalizing p evs with
  | zero => injection h with h; injection h with _ h; rw [← h]; rfl
  | succ n ih =>
    have hgo : ∀ q E, step bnd p = .go q E → (∀ es, okEvs q.open es = true → okEvs p.open (E ++ es) = true) →
        okEvs p.open evs = true := by
      intro q E hs hE
      rw [loop, hs] at h
      dsimp only at h
      cases hl : loop bnd n q with
      | none => rw [hl] at h; cases h
      | some r =>
        rw [hl] at h
        injection h with h
        injection h with _ h
        rw [← h]
        rename_i hq
        exact hE _ (ih q r.2 (by rw [hl, ← hq]))
    have hwait : ∀ q E, step bnd p = .wait q E → okEvs p.open E = true → okEvs p.open evs = true := by
      intro q E hs hE
      rw [loop, hs] at h
      injection h with h
      injection h with _ h
      rw [← h]
      exact hE
    have hfail : step bnd p ≠ .fail := by
      intro hs
      rw [loop, hs] at h
      cases h
    unfold step at hgo hwait hfail
    unfold Parser.open at hgo hwait ⊢
    cases hm : p.mode with
    | preamble =>
      rw [hm] at hgo hwait
      dsimp only at hgo hwait
      unfold onPreamble at hgo hwait
      cases hbk : breakOn crlf p.buffer with
      | none => rw [hbk] at hwait; exact hwait _ _ rfl rfl
      | some r =>
        rw [hbk] at hgo hwait
        dsimp only at hgo hwait
        by_cases h1 : startsWith (r.1 ++ crlf) bnd = true
        · rw [if_pos h1] at hgo hwait
          by_cases h2 : startsWith (r.1 ++ crlf) (bnd ++ dashes) = true
          · rw [if_pos h2] at hgo hwait
            exact hwait _ _ rfl rfl
          · rw [if_neg h2] at hgo hwait
            exact hgo _ _ rfl (fun es hes => by simpa [okEvs] using hes)
        · rw [if_neg h1] at hgo hwait
          exact hgo _ _ rfl (fun es hes => by simpa [hm] using hes)
    | headers =>
      rw [hm] at hgo hwait hfail
      dsimp only at hgo hwait hfail
      unfold onHeaders at hgo hwait hfail
      cases hbk : breakOn crlf p.buffer with
      | none => rw [hbk] at hwait; exact hwait _ _ rfl rfl
      | some r =>
        rw [hbk] at hgo hwait hfail
        dsimp only at hgo hwait hfail
        by_cases h1 : r.1 = []
        · rw [if_pos h1] at hgo hwait
          exact hgo _ _ rfl (fun es hes => okEvs_headers _ _ (by simpa using hes))
        · rw [if_neg h1] at hgo hwait hfail
          cases hpt : (partition ':' r.1).2 with
          | none => rw [hpt] at hfail; exact absurd rfl hfail
          | some v =>
            rw [hpt] at hgo
            exact hgo _ _ rfl (fun es hes => by simpa [hm] using hes)
    | body =>
      rw [hm] at hgo hwait
      dsimp only at hgo hwait
      unfold onBody at hgo hwait
      cases hbk : breakOn (crlf ++ bnd) p.buffer with
      | none =>
        rw [hbk] at hwait
        exact hwait _ _ rfl (by
          have := okEvs_data true p.buffer [] rfl
          simpa using this)
      | some r =>
        rw [hbk] at hgo hwait
        dsimp only at hgo hwait
        cases hst : stripPrefix? dashes r.2 with
        | some q =>
          rw [hst] at hwait
          exact hwait _ _ rfl (okEvs_data true _ _ (by simp [okEvs]))
        | none =>
          rw [hst] at hgo
          exact hgo _ _ rfl (fun es hes => by
            rw [List.append_assoc]
            refine okEvs_data true _ _ ?_
            simpa [okEvs] using hes)

/-- Whether an item is a file. -/
def Item.isFile : Item → Bool
  | .upload .. => true
  | .text .. => false

/-- The counters are at least the numbers of items, counting the part that is open. -/
structure Counted (mf mx : Option Nat) (o : Bool) (f : Form) : Prop where
  maxFiles : f.maxFiles = mf
  maxFields : f.maxFields = mx
  files : AtMost f.nFiles mf
  fields : AtMost f.nFields mx
  uploads : (f.items.filter Item.isFile).length + (if o && f.part.file.isSome then 1 else 0) ≤ f.nFiles
  texts : (f.items.filter fun i => !i.isFile).length + (if o && f.part.file.isNone then 1 else 0) ≤ f.nFields
  ids : ∀ it ∈ f.items, ∀ n i, it = .upload n i → i < f.files.length
  file : ∀ i, f.part.file = some i → i < f.files.length

theorem counted_ok (rfc : Str → Str) (mf mx : Option Nat) (es : List Ev) (o : Bool) (f f' : Form)
    (hok : okEvs o es = true) (h : Counted mf mx o f) (he : f.onAll rfc es = some f') :
    ∃ o', Counted mf mx o' f' := by
  induction es generalizing o f with
  | nil => injection he with he; rw [← he]; exact ⟨o, h⟩
  | cons e es ih =>
    rw [Form.onAll] at he
    cases hon : f.on rfc e with
    | none => rw [hon] at he; cases he
    | some g =>
      rw [hon, Option.bind_some] at he
      cases e with
      | partBegin =>
        simp only [okEvs, Bool.and_eq_true, Bool.not_eq_true'] at hok
        obtain ⟨rfl, hok⟩ := hok
        injection hon with hon
        subst hon
        refine ih false _ hok ?_ he
        exact ⟨h.maxFiles, h.maxFields, h.files, h.fields, by simpa using h.uploads,
          by simpa using h.texts, h.ids, (fun i hi => by cases hi)⟩
      | header k v =>
        simp only [okEvs, Bool.and_eq_true, Bool.not_eq_true'] at hok
        obtain ⟨rfl, hok⟩ := hok
        injection hon with hon
        subst hon
        refine ih false _ hok ?_ he
        exact ⟨h.maxFiles, h.maxFields, h.files, h.fields, h.uploads, h.texts, h.ids, h.file⟩
      | headersFinished =>
        simp only [okEvs, Bool.and_eq_true, Bool.not_eq_true'] at hok
        obtain ⟨rfl, hok⟩ := hok
        have hu := h.uploads
        have ht := h.texts
        simp only [Bool.false_and, Bool.false_eq_true, if_false, Nat.add_zero] at hu ht
        have hon' : f.onHeadersFinished rfc = some g := hon
        unfold Form.onHeadersFinished at hon'
        cases hn : fieldName rfc f.part.options with
        | none => rw [hn] at hon'; cases hon'
        | some name =>
          rw [hn] at hon'
          dsimp only at hon'
          cases hfn : aget f.part.options "filename".toList with
          | some fn =>
            rw [hfn] at hon'
            dsimp only at hon'
            unfold Form.openFile at hon'
            split at hon'
            · rename_i hw
              injection hon' with hon'
              rw [h.maxFiles] at hw
              subst hon'
              refine ih true _ hok ?_ he
              refine ⟨h.maxFiles, h.maxFields, (within_iff _ _).1 hw, h.fields, ?_, ?_, ?_, ?_⟩
              · simpa using hu
              · simpa using ht
              · intro it hit n i hi
                have := h.ids it hit n i hi
                simp; omega
              · intro i hi
                injection hi with hi
                simp [← hi]
            · cases hon'
          | none =>
            rw [hfn] at hon'
            dsimp only at hon'
            unfold Form.openField at hon'
            split at hon'
            · rename_i hw
              injection hon' with hon'
              rw [h.maxFields] at hw
              subst hon'
              refine ih true _ hok ?_ he
              refine ⟨h.maxFiles, h.maxFields, h.files, (within_iff _ _).1 hw, ?_, ?_, h.ids, ?_⟩
              · simpa using hu
              · simpa using ht
              · intro i hi; cases hi
            · cases hon'
      | partData d =>
        injection hon with hon
        subst hon
        have hg : Counted mf mx o (f.onData d) := by
          unfold Form.onData
          cases hf : f.part.file with
          | none =>
            exact ⟨h.maxFiles, h.maxFields, h.files, h.fields, h.uploads, h.texts, h.ids, h.file⟩
          | some i =>
            exact ⟨h.maxFiles, h.maxFields, h.files, h.fields, h.uploads, h.texts, h.ids, h.file⟩
        exact ih o _ hok hg he
      | partEnd =>
        simp only [okEvs, Bool.and_eq_true] at hok
        obtain ⟨rfl, hok⟩ := hok
        injection hon with hon
        subst hon
        have hg : Counted mf mx false f.onEnd := by
          have hu := h.uploads
          have ht := h.texts
          unfold Form.onEnd
          cases hf : f.part.file with
          | none =>
            rw [hf] at hu ht
            refine ⟨h.maxFiles, h.maxFields, h.files, h.fields, ?_, ?_, ?_, h.file⟩
            · simpa [Item.isFile] using hu
            · simpa [Item.isFile] using ht
            · intro it hit n i hi
              rcases List.mem_append.1 hit with hit | hit
              · exact h.ids it hit n i hi
              · rw [List.mem_singleton] at hit; rw [hit] at hi; cases hi
          | some i =>
            rw [hf] at hu ht
            refine ⟨h.maxFiles, h.maxFields, h.files, h.fields, ?_, ?_, ?_, h.file⟩
            · simpa [Item.isFile, List.filter_cons] using hu
            · simpa [Item.isFile] using ht
            · intro it hit n j hj
              rcases List.mem_append.1 hit with hit | hit
              · exact h.ids it hit n j hj
              · rw [List.mem_singleton] at hit
                rw [hit] at hj
                injection hj with _ hj
                rw [← hj]
                exact h.file i hf
        exact ih false _ hok hg he
      | stop =>
        injection hon with hon
        subst hon
        exact ih o f hok h he

theorem entry_isUpload (files : List File) (it : Item) (h : ∀ n i, it = .upload n i → i < files.length) :
    IsUpload (entry files it) = it.isFile := by
  cases it with
  | text n v => rfl
  | upload n i =>
    unfold entry
    dsimp only
    rw [List.getElem?_eq_getElem (h n i rfl)]
    rfl

theorem count_entries (files : List File) (items : List Item)
    (h : ∀ it ∈ items, ∀ n i, it = .upload n i → i < files.length) (g : Bool → Bool) :
    ((items.map (entry files)).filter fun e => g (IsUpload e)).length = (items.filter fun i => g i.isFile).length := by
  induction items with
  | nil => rfl
  | cons it items ih =>
    rw [List.map_cons, List.filter_cons, List.filter_cons, entry_isUpload files it (h it (by simp))]
    have := ih (fun x hx => h x (by simp [hx]))
    split <;> simp [this]

theorem single_counted (boundary : Str) (rfc : Str → Str) (mf mx : Option Nat) (chunk : Str) (es : List Entry)
    (h : parse boundary rfc mf mx [chunk] = some es) :
    AtMost (es.filter IsUpload).length mf ∧ AtMost (es.filter fun e => !IsUpload e).length mx := by
  unfold parse at h
  rw [feed] at h
  have hnew : Counted mf mx false (Form.new mf mx) :=
    ⟨rfl, rfl, atMost_zero _, atMost_zero _, Nat.le_refl _, Nat.le_refl _, (fun it hit => by cases hit),
      (fun i hi => by cases hi)⟩
  cases hw : Parser.write (dashes ++ boundary) ⟨.preamble, [], []⟩ chunk with
  | none => rw [hw] at h; cases h
  | some r =>
    rw [hw, Option.bind_some] at h
    have hok : okEvs false r.2 = true := by
      unfold Parser.write at hw
      split at hw
      · injection hw with hw; rw [← hw]; rfl
      · exact loop_ok _ _ _ r.1 r.2 hw
    cases ho : (Form.new mf mx).onAll rfc r.2 with
    | none => rw [ho] at h; cases h
    | some f =>
      rw [ho, Option.bind_some, feed, Option.bind_some] at h
      obtain ⟨o, hc⟩ := counted_ok rfc mf mx r.2 false _ f hok hnew ho
      have hc' : Counted mf mx o f.flush := by
        refine ⟨hc.maxFiles, hc.maxFields, hc.files, hc.fields, hc.uploads, hc.texts, ?_, ?_⟩
        · rw [length_flush]; exact hc.ids
        · rw [length_flush]; exact hc.file
      cases hfin : f.flush.onAll rfc r.1.finalize with
      | none =>
        dsimp only at h
        rw [hfin] at h; cases h
      | some g =>
        dsimp only at h
        rw [hfin] at h
        injection h with h
        obtain ⟨o', hg⟩ := counted_ok rfc mf mx _ o _ g (by
          have := okEvs_data o r.1.buffer [] rfl
          rw [List.append_nil] at this
          exact this) hc' hfin
        rw [← h]
        have h1 := count_entries g.files g.items hg.ids id
        have h2 := count_entries g.files g.items hg.ids (fun b => !b)
        refine ⟨?_, ?_⟩
        · have e : (g.items.map (entry g.files)).filter IsUpload =
              (g.items.map (entry g.files)).filter fun e => id (IsUpload e) := rfl
          rw [e, h1]
          exact atMost_le hg.files (Nat.le_trans (Nat.le_add_right _ _) hg.uploads)
        · rw [h2]
          exact atMost_le hg.fields (Nat.le_trans (Nat.le_add_right _ _) hg.texts)

end Verif.Multipart
