import Verif.Multipart.FlowLemmas

/-!
# Lemmas about the callbacks of the form parser
-/

namespace Verif.Multipart

open Verif Verif.Url Spec

/-! ### Chunks as marked callbacks -/

/-- Callbacks, with a flush at each end of a chunk. -/
def Form.onM (rfc : Str → Str) (f : Form) : List (Option Ev) → Option Form
  | [] => some f
  | none :: M => Form.onM rfc f.flush M
  | some e :: M => (f.on rfc e).bind fun f' => Form.onM rfc f' M

theorem onM_evs (rfc : Str → Str) (f : Form) (E : List Ev) (M : List (Option Ev)) :
    f.onM rfc (E.map some ++ M) = (f.onAll rfc E).bind fun f' => f'.onM rfc M := by
  induction E generalizing f with
  | nil => rfl
  | cons e E ih =>
    show (f.on rfc e).bind _ = _
    rw [Form.onAll, Option.bind_assoc]
    congr 1
    funext f'
    exact ih f'

theorem feed_eq (bnd : Str) (rfc : Str → Str) (p : Parser) (f : Form) (chunks : List Str) :
    feed bnd rfc p f chunks =
      (writes bnd p chunks).bind fun r => (f.onM rfc r.2).map fun f' => (r.1, f') := by
  induction chunks generalizing p f with
  | nil => rfl
  | cons c cs ih =>
    rw [feed, writes]
    cases hw : p.write bnd c with
    | none => rfl
    | some r =>
      rw [Option.bind_some, Option.bind_some]
      have e1 : (fun f' : Form => feed bnd rfc r.1 f'.flush cs) = fun f' =>
          (writes bnd r.1 cs).bind fun r => (f'.flush.onM rfc r.2).map fun f' => (r.1, f') := by
        funext f'; exact ih r.1 f'.flush
      rw [e1]
      cases hq : writes bnd r.1 cs with
      | none => cases f.onAll rfc r.2 <;> rfl
      | some q =>
        rw [Option.map_some, Option.bind_some]
        dsimp only
        rw [onM_evs, Option.map_bind]
        rfl

/-! ### Files -/

theorem flush_flush (f : Form) : f.flush.flush = f.flush := rfl

theorem length_writes (ws : List (Nat × Str)) (files : List File) : (ws.foldl writeTo files).length = files.length := by
  induction ws generalizing files with
  | nil => rfl
  | cons w ws ih => rw [List.foldl_cons, ih]; simp [writeTo]

theorem length_rewinds (is : List Nat) (files : List File) : (is.foldl rewind files).length = files.length := by
  induction is generalizing files with
  | nil => rfl
  | cons w ws ih => rw [List.foldl_cons, ih]; simp [rewind]

theorem length_flush (f : Form) : f.flush.files.length = f.files.length := by
  show (f.toFinish.foldl rewind (f.toWrite.foldl writeTo f.files)).length = _
  rw [length_rewinds, length_writes]

theorem modify_append (l : List File) (x : File) (g : File → File) (i : Nat) (h : i < l.length) :
    (l ++ [x]).modify i g = l.modify i g ++ [x] := by
  induction l generalizing i with
  | nil => simp at h
  | cons y l ih =>
    cases i with
    | zero => rfl
    | succ i => simp only [List.cons_append, List.modify_succ_cons]; rw [ih i (by simpa using h)]

theorem modify_last (l : List File) (x : File) (g : File → File) :
    (l ++ [x]).modify l.length g = l ++ [g x] := by
  induction l with
  | nil => rfl
  | cons y l ih => simp only [List.cons_append, List.length_cons, List.modify_succ_cons]; rw [ih]

theorem writes_append (ws : List (Nat × Str)) (files : List File) (x : File) (h : ∀ w ∈ ws, w.1 < files.length) :
    ws.foldl writeTo (files ++ [x]) = ws.foldl writeTo files ++ [x] := by
  induction ws generalizing files with
  | nil => rfl
  | cons w ws ih =>
    have h1 : writeTo (files ++ [x]) w = writeTo files w ++ [x] := modify_append files x _ w.1 (h w (by simp))
    rw [List.foldl_cons, List.foldl_cons, h1, ih]
    intro w' hw'
    rw [writeTo, List.length_modify]
    exact h w' (by simp [hw'])

theorem rewinds_append (ws : List Nat) (files : List File) (x : File) (h : ∀ w ∈ ws, w < files.length) :
    ws.foldl rewind (files ++ [x]) = ws.foldl rewind files ++ [x] := by
  induction ws generalizing files with
  | nil => rfl
  | cons w ws ih =>
    have h1 : rewind (files ++ [x]) w = rewind files w ++ [x] := modify_append files x _ w (h w (by simp))
    rw [List.foldl_cons, List.foldl_cons, h1, ih]
    intro w' hw'
    rw [rewind, List.length_modify]
    exact h w' (by simp [hw'])

theorem rewinds_write (is : List Nat) (files : List File) (w : Nat × Str) (h : w.1 ∉ is) :
    is.foldl rewind (writeTo files w) = writeTo (is.foldl rewind files) w := by
  induction is generalizing files with
  | nil => rfl
  | cons i is ih =>
    simp only [List.mem_cons, not_or] at h
    have h1 : rewind (writeTo files w) i = writeTo (rewind files i) w := by
      unfold rewind writeTo
      exact List.modify_modify_ne _ _ _ h.1
    rw [List.foldl_cons, List.foldl_cons, h1, ih _ h.2]

theorem write_end (fn d x : Str) (hs : List (Str × Str)) :
    File.write ⟨fn, hs, d, d.length⟩ x = ⟨fn, hs, d ++ x, (d ++ x).length⟩ := by
  simp [File.write]

theorem entry_append (files : List File) (x : File) (it : Item) (h : ∀ n i, it = .upload n i → i < files.length) :
    entry (files ++ [x]) it = entry files it := by
  cases it with
  | text n v => rfl
  | upload n i =>
    unfold entry
    dsimp only
    rw [List.getElem?_append_left (h n i rfl)]

/-! ### The disposition -/

theorem addOption_quoted (params : List (Str × Str)) (c : Char) (k n : Str) (hc : isByteSpace c = false) (hk : '=' ∉ c :: k)
    (hl : lower (strip isByteSpace (c :: k)) = c :: k) :
    addOption params (' ' :: ((c :: k) ++ '=' :: '"' :: (n ++ ['"']))) = aset params (c :: k) n := by
  unfold addOption
  rw [strip_space _ _ (by decide)]
  have h1 : strip isByteSpace ((c :: k) ++ '=' :: '"' :: (n ++ ['"'])) = (c :: k) ++ '=' :: '"' :: (n ++ ['"']) := by
    have := strip_ends _ c '"' (k ++ '=' :: '"' :: n) hc (by decide)
    simpa using this
  dsimp only
  rw [h1, partition_append '=' _ _ hk]
  dsimp only
  have h2 := strip_ends isByteSpace '"' '"' n (by decide) (by decide)
  rw [h2, hl]
  congr 1
  unfold unquoteValue
  rw [if_pos]
  · simp
  · have h3 : startsWith ('"' :: (n ++ ['"'])) ['"'] = true := by
      rw [startsWith_iff]; simp
    have h4 : endsWith ('"' :: (n ++ ['"'])) ['"'] = true := by
      unfold endsWith
      rw [List.isSuffixOf_iff_suffix]
      exact ⟨'"' :: n, by simp⟩
    rw [h3, h4]
    simp

theorem unquoteValue_bare (v : Str) (h : ¬ ∃ w, v = '"' :: w ++ ['"']) : unquoteValue v = v := by
  unfold unquoteValue
  rw [if_neg]
  intro hc
  rw [Bool.and_eq_true, Bool.and_eq_true, startsWith_iff, decide_eq_true_eq] at hc
  obtain ⟨⟨⟨r, rfl⟩, h2⟩, h3⟩ := hc
  unfold endsWith at h2
  rw [List.isSuffixOf_iff_suffix] at h2
  obtain ⟨p, hp⟩ := h2
  cases p with
  | nil =>
    have h4 := congrArg List.length hp
    rw [← h4] at h3
    simp at h3
  | cons c p =>
    rw [List.cons_append, List.cons_append] at hp
    injection hp with h1 h2
    exact h ⟨p, by rw [List.cons_append, List.cons_append, h2]⟩

theorem addOption_bare (params : List (Str × Str)) (c : Char) (k v : Str)
    (hk : '=' ∉ c :: k) (hl : lower (strip isByteSpace (c :: k)) = c :: k) (hs : strip isByteSpace v = v)
    (he : strip isByteSpace ((c :: k) ++ '=' :: v) = (c :: k) ++ '=' :: v)
    (h : ¬ ∃ w, v = '"' :: w ++ ['"']) :
    addOption params (' ' :: ((c :: k) ++ '=' :: v)) = aset params (c :: k) v := by
  unfold addOption
  rw [strip_space _ _ (by decide)]
  dsimp only
  rw [he, partition_append '=' _ _ hk]
  dsimp only
  rw [hs, hl, unquoteValue_bare v h]

theorem options_disposition {boundary : Str} {s : Submitted} (h : GoodPart boundary s) :
    options (disposition s) = ("name".toList, s.name) ::
      (match s.filename with
       | none => []
       | some f => [("filename".toList, f)]) := by
  have hn : addOption [] (' ' :: (['n', 'a', 'm', 'e'] ++ '=' :: '"' :: (s.name ++ ['"']))) = [("name".toList, s.name)] :=
    addOption_quoted [] 'n' ['a', 'm', 'e'] s.name (by decide) (by decide) (by decide)
  unfold options disposition
  cases hf : s.filename with
  | none =>
    have e : "form-data; name=\"".toList ++ s.name ++ ['"'] ++ [] =
        "form-data".toList ++ ';' :: (' ' :: (['n', 'a', 'm', 'e'] ++ '=' :: '"' :: (s.name ++ ['"']))) := by simp
    dsimp only
    rw [e, splitOn_append_sep _ _ _ (by decide), splitOn_of_not_mem]
    · show addOption [] _ = _
      rw [hn]
    · have := h.name.2
      simp [this]
  | some f =>
    have e : "form-data; name=\"".toList ++ s.name ++ ['"'] ++ ("; filename=\"".toList ++ f ++ ['"']) =
        "form-data".toList ++ ';' :: ((' ' :: (['n', 'a', 'm', 'e'] ++ '=' :: '"' :: (s.name ++ ['"']))) ++
          ';' :: (' ' :: (['f', 'i', 'l', 'e', 'n', 'a', 'm', 'e'] ++ '=' :: '"' :: (f ++ ['"'])))) := by simp
    dsimp only
    rw [e, splitOn_append_sep _ _ _ (by decide), splitOn_append_sep, splitOn_of_not_mem]
    · show addOption (addOption [] _) _ = _
      rw [hn, addOption_quoted _ 'f' ['i', 'l', 'e', 'n', 'a', 'm', 'e'] f (by decide) (by decide) (by decide)]
      rfl
    · have := (h.filename f hf).2
      simp [this]
    · have := h.name.2
      simp [this]

/-! ### Reading the expected callbacks -/

theorem flow_ev {e : Ev} (he : ∀ d, e ≠ .partData d) (rfc : Str → Str) (I : Form → Prop) (hI : ∀ f, I f → I f.flush)
    {G : List Ev} {M : List (Option Ev)} (hf : Flow (e :: G) M) (f : Form) (h : I f) :
    ∃ f0 M', I f0 ∧ f.onM rfc M = (f0.on rfc e).bind (fun f' => f'.onM rfc M') ∧ Flow G M' := by
  generalize hG : e :: G = H at hf
  induction hf generalizing f with
  | nil => cases hG
  | flush H M h' ih => exact ih f.flush (hI f h) hG
  | ev e' H M h' ih =>
    injection hG with h1 h2
    subst h1 h2
    exact ⟨f, M, h, rfl, h'⟩
  | data x d H M h' ih => injection hG with h1 h2; exact absurd h1 (he _)
  | skip H M h' ih => injection hG with h1 h2; exact absurd h1 (he _)

theorem flow_data (rfc : Str → Str) (I : Str → Form → Prop) (hI : ∀ d f, I d f → I d f.flush)
    (hD : ∀ d x f, I d f → I (d ++ x) (f.onData x)) {t : Str} {G : List Ev} {M : List (Option Ev)}
    (hf : Flow (.partData t :: G) M) (d : Str) (f : Form) (h : I d f) :
    ∃ f0 M', I (d ++ t) f0 ∧ f.onM rfc M = f0.onM rfc M' ∧ Flow G M' := by
  generalize hG : Ev.partData t :: G = H at hf
  induction hf generalizing f d t with
  | nil => cases hG
  | flush H M h' ih => exact ih d f.flush (hI d f h) hG
  | ev e' H M h' ih =>
    injection hG with h1 h2
    subst h1 h2
    exact ⟨f.onData t, M, hD d t f h, rfl, h'⟩
  | data x d' H M h' ih =>
    injection hG with h1 h2
    injection h1 with h1
    subst h1 h2
    obtain ⟨f0, M', h3, h4, h5⟩ := ih (d ++ x) (f.onData x) (hD d x f h) rfl
    exact ⟨f0, M', by rwa [List.append_assoc] at h3, h4, h5⟩
  | skip H M h' ih =>
    injection hG with h1 h2
    injection h1 with h1
    subst h1 h2
    exact ⟨f, M, by rwa [List.append_nil], rfl, h'⟩

/-! ### Invariants -/

/-- What holds between parts, after the parts `done`. -/
structure Between (mf mx : Option Nat) (nf nx : Nat) (done : List Submitted) (f : Form) : Prop where
  maxFiles : f.maxFiles = mf
  maxFields : f.maxFields = mx
  nFiles : f.nFiles = nf
  nFields : f.nFields = nx
  entries : f.items.map (entry f.flush.files) = done.map expected
  ids : ∀ it ∈ f.items, ∀ n i, it = .upload n i → i < f.files.length
  writing : ∀ w ∈ f.toWrite, w.1 < f.files.length
  finishing : ∀ i ∈ f.toFinish, i < f.files.length

theorem Between.flush {mf mx : Option Nat} {nf nx : Nat} {done : List Submitted} {f : Form}
    (h : Between mf mx nf nx done f) : Between mf mx nf nx done f.flush where
  maxFiles := h.maxFiles
  maxFields := h.maxFields
  nFiles := h.nFiles
  nFields := h.nFields
  entries := h.entries
  ids := by rw [length_flush]; exact h.ids
  writing := by intro w hw; cases hw
  finishing := by intro w hw; cases hw

/-- While the data of a file is read. -/
structure InFile (mf mx : Option Nat) (nf nx : Nat) (done : List Submitted) (name fn : Str) (hs : List (Str × Str))
    (d : Str) (f : Form) : Prop where
  maxFiles : f.maxFiles = mf
  maxFields : f.maxFields = mx
  nFiles : f.nFiles = nf
  nFields : f.nFields = nx
  name : f.part.name = name
  state : ∃ base : List File, f.flush.files = base ++ [⟨fn, hs, d, d.length⟩] ∧ f.part.file = some base.length ∧
    f.files.length = base.length + 1 ∧ f.items.map (entry base) = done.map expected ∧
    (∀ it ∈ f.items, ∀ n i, it = .upload n i → i < base.length) ∧ (∀ w ∈ f.toWrite, w.1 < base.length + 1) ∧
    (∀ i ∈ f.toFinish, i < base.length)

theorem InFile.flush {mf mx : Option Nat} {nf nx : Nat} {done : List Submitted} {name fn : Str}
    {hs : List (Str × Str)} {d : Str} {f : Form} (h : InFile mf mx nf nx done name fn hs d f) :
    InFile mf mx nf nx done name fn hs d f.flush where
  maxFiles := h.maxFiles
  maxFields := h.maxFields
  nFiles := h.nFiles
  nFields := h.nFields
  name := h.name
  state := by
    obtain ⟨base, h1, h2, h3, h4, h5, -, -⟩ := h.state
    refine ⟨base, h1, h2, by rw [length_flush]; exact h3, h4, h5, ?_, ?_⟩
    · intro w hw; cases hw
    · intro w hw; cases hw

theorem InFile.data {mf mx : Option Nat} {nf nx : Nat} {done : List Submitted} {name fn : Str}
    {hs : List (Str × Str)} {d : Str} (x : Str) {f : Form} (h : InFile mf mx nf nx done name fn hs d f) :
    InFile mf mx nf nx done name fn hs (d ++ x) (f.onData x) := by
  obtain ⟨base, h1, h2, h3, h4, h5, h6, h7⟩ := h.state
  have e : f.onData x = { f with toWrite := f.toWrite ++ [(base.length, x)] } := by
    unfold Form.onData; rw [h2]
  rw [e]
  refine ⟨h.maxFiles, h.maxFields, h.nFiles, h.nFields, h.name, base, ?_, h2, h3, h4, h5, ?_, h7⟩
  · show f.toFinish.foldl rewind ((f.toWrite ++ [(base.length, x)]).foldl writeTo f.files) = _
    rw [List.foldl_append]
    show f.toFinish.foldl rewind (writeTo (f.toWrite.foldl writeTo f.files) (base.length, x)) = _
    rw [rewinds_write _ _ _ (fun hm => Nat.lt_irrefl _ (h7 _ hm))]
    have h1' : f.toFinish.foldl rewind (f.toWrite.foldl writeTo f.files) = _ := h1
    rw [h1', writeTo, modify_last, write_end]
  · intro w hw
    rcases List.mem_append.1 hw with hw | hw
    · exact h6 w hw
    · rw [List.mem_singleton] at hw; subst hw; exact Nat.lt_succ_self _

theorem InFile.end {mf mx : Option Nat} {nf nx : Nat} {done : List Submitted} {s : Submitted} {fn : Str}
    {f : Form} (hfn : s.filename = some fn)
    (h : InFile mf mx nf nx done s.name fn (kept s) s.content f) : Between mf mx nf nx (done ++ [s]) f.onEnd := by
  obtain ⟨base, h1, h2, h3, h4, h5, h6, h7⟩ := h.state
  have e : f.onEnd = { f with toFinish := f.toFinish ++ [base.length],
                              items := f.items ++ [.upload f.part.name base.length] } := by
    unfold Form.onEnd; rw [h2]
  rw [e]
  have hv : ({ f with toFinish := f.toFinish ++ [base.length],
                      items := f.items ++ [.upload f.part.name base.length] } : Form).flush.files =
      base ++ [⟨fn, kept s, s.content, 0⟩] := by
    show (f.toFinish ++ [base.length]).foldl rewind (f.toWrite.foldl writeTo f.files) = _
    rw [List.foldl_append]
    show rewind (f.toFinish.foldl rewind (f.toWrite.foldl writeTo f.files)) base.length = _
    have h1' : f.toFinish.foldl rewind (f.toWrite.foldl writeTo f.files) = _ := h1
    rw [h1', rewind, modify_last]
  refine ⟨h.maxFiles, h.maxFields, h.nFiles, h.nFields, ?_, ?_, ?_, ?_⟩
  · rw [hv, List.map_append, List.map_append]
    congr 1
    · rw [← h4]
      exact List.map_congr_left fun it hit => entry_append _ _ _ (h5 it hit)
    · show [entry _ (.upload f.part.name base.length)] = [expected s]
      rw [h.name]
      unfold entry expected
      dsimp only
      rw [hfn, List.getElem?_append_right (Nat.le_refl _), Nat.sub_self]
      rfl
  · intro it hit n i hi
    show i < f.files.length
    rw [h3]
    rcases List.mem_append.1 hit with hit | hit
    · have := h5 it hit n i hi; omega
    · rw [List.mem_singleton] at hit
      rw [hit] at hi
      injection hi with _ hi
      omega
  · intro w hw
    show w.1 < f.files.length
    rw [h3]; exact h6 w hw
  · intro i hi
    show i < f.files.length
    rw [h3]
    rcases List.mem_append.1 hi with hi | hi
    · have := h7 i hi; omega
    · rw [List.mem_singleton] at hi; omega

/-! ### One part -/

/-- The number of files after a part. -/
def nextFiles (n : Nat) (s : Submitted) : Nat := if s.filename.isSome then n + 1 else n
/-- The number of fields after a part. -/
def nextFields (n : Nat) (s : Submitted) : Nat := if s.filename.isSome then n else n + 1

theorem within_iff (n : Nat) (l : Option Nat) : within n l = true ↔ AtMost n l := by
  cases l with
  | none => simp [within, AtMost]
  | some m => simp [within, AtMost]

theorem Between.part {mf mx : Option Nat} {nf nx : Nat} {done : List Submitted} {f : Form}
    (h : Between mf mx nf nx done f) (p : Part) : Between mf mx nf nx done { f with part := p } :=
  ⟨h.maxFiles, h.maxFields, h.nFiles, h.nFields, h.entries, h.ids, h.writing, h.finishing⟩

theorem read_headers (rfc : Str → Str) {mf mx : Option Nat} {nf nx : Nat} {done : List Submitted} (disp : Option Str)
    (hs : List (Str × Str)) (hk : ∀ kv ∈ hs, lower kv.1 = kv.1 ∧ kv.1 ≠ "content-disposition".toList)
    (pre : List (Str × Str)) {G : List Ev} {M : List (Option Ev)}
    (hf : Flow (hs.map (fun kv => Ev.header kv.1 kv.2) ++ G) M) (f : Form) (h : Between mf mx nf nx done f)
    (hp : f.part = ⟨disp, [], [], none, pre⟩) :
    ∃ f0 M', Between mf mx nf nx done f0 ∧ f0.part = ⟨disp, [], [], none, pre ++ hs⟩ ∧
      f.onM rfc M = f0.onM rfc M' ∧ Flow G M' := by
  induction hs generalizing f pre M with
  | nil => exact ⟨f, M, h, by rw [hp, List.append_nil], rfl, hf⟩
  | cons kv hs ih =>
    obtain ⟨f0, M', ⟨h1, h2⟩, h3, h4⟩ := flow_ev (by intro d; exact Ev.noConfusion) rfc
      (fun f => Between mf mx nf nx done f ∧ f.part = ⟨disp, [], [], none, pre⟩) (fun g hg => ⟨hg.1.flush, hg.2⟩)
      hf f ⟨h, hp⟩
    obtain ⟨hl, hne⟩ := hk kv (by simp)
    have hpart : (f0.onHeader kv.1 kv.2).part = ⟨disp, [], [], none, pre ++ [kv]⟩ := by
      unfold Form.onHeader
      rw [hl, if_neg hne, h2]
    obtain ⟨f1, M1, h5, h6, h7, h8⟩ := ih (fun x hx => hk x (by simp [hx])) (pre ++ [kv]) h4 (f0.onHeader kv.1 kv.2)
      (h1.part _) hpart
    refine ⟨f1, M1, h5, by rw [h6]; simp, ?_, h8⟩
    rw [h3, ← h7]
    rfl

/-- A part is read. -/
theorem read_part (rfc : Str → Str) {boundary : Str} {mf mx : Option Nat} {nf nx : Nat} {done : List Submitted}
    {s : Submitted} (hs : GoodPart boundary s) {G : List Ev} {M : List (Option Ev)} (hf : Flow (partEvs s ++ G) M)
    (f : Form) (h : Between mf mx nf nx done f) (hp : f.part = .new) (hmf : AtMost nf mf) (hmx : AtMost nx mx) :
    (AtMost (nextFiles nf s) mf ∧ AtMost (nextFields nx s) mx →
      ∃ f0 M', Between mf mx (nextFiles nf s) (nextFields nx s) (done ++ [s]) f0 ∧
        f.onM rfc M = f0.onM rfc M' ∧ Flow G M') ∧
    (¬ (AtMost (nextFiles nf s) mf ∧ AtMost (nextFields nx s) mx) → f.onM rfc M = none) := by
  -- the disposition
  obtain ⟨f1, M1, ⟨hb1, hp1⟩, he1, hf1⟩ := flow_ev (by intro d; exact Ev.noConfusion) rfc
    (fun f => Between mf mx nf nx done f ∧ f.part = .new) (fun g hg => ⟨hg.1.flush, hg.2⟩) hf f ⟨h, hp⟩
  have hpart1 : (f1.onHeader "content-disposition".toList (disposition s)).part =
      ⟨some (disposition s), [], [], none, [("content-disposition".toList, disposition s)]⟩ := by
    unfold Form.onHeader
    rw [show lower "content-disposition".toList = "content-disposition".toList from by decide, if_pos rfl, hp1]
    rfl
  -- the other headers
  obtain ⟨f2, M2, hb2, hp2, he2, hf2⟩ := read_headers rfc (some (disposition s)) s.headers
    (fun kv hkv => ⟨(hs.keys kv hkv).1.lower, (hs.keys kv hkv).1.notDisposition⟩) _
    (by
      have : s.headers.map (fun kv => Ev.header kv.1 kv.2) ++ [.headersFinished] ++ [.partData s.content, .partEnd] ++ G =
        s.headers.map (fun kv => Ev.header kv.1 kv.2) ++ (.headersFinished :: .partData s.content :: .partEnd :: G) := by
          simp
      rw [← this]
      exact hf1)
    (f1.onHeader "content-disposition".toList (disposition s)) (hb1.part _) hpart1
  -- the end of the headers
  obtain ⟨f3, M3, ⟨hb3, hp3⟩, he3, hf3⟩ := flow_ev (by intro d; exact Ev.noConfusion) rfc
    (fun f => Between mf mx nf nx done f ∧ f.part = ⟨some (disposition s), [], [], none, kept s⟩)
    (fun g hg => ⟨hg.1.flush, hg.2⟩) hf2 f2 ⟨hb2, hp2⟩
  have hrun : f.onM rfc M = (f3.onHeadersFinished rfc).bind fun f' => f'.onM rfc M3 := by
    rw [he1]
    exact he2.trans he3
  have hname : f3.onHeadersFinished rfc =
      (match s.filename with
       | some fn => f3.openFile s.name fn
       | none => f3.openField s.name) := by
    unfold Form.onHeadersFinished Part.options
    rw [hp3]
    dsimp only
    rw [options_disposition hs]
    cases s.filename with
    | none => rfl
    | some fn => rfl
  rw [hname] at hrun
  cases hfn : s.filename with
  | none =>
    rw [hfn] at hrun
    dsimp only at hrun
    have hn1 : nextFiles nf s = nf := by simp [nextFiles, hfn]
    have hn2 : nextFields nx s = nx + 1 := by simp [nextFields, hfn]
    rw [hn1, hn2]
    unfold Form.openField at hrun
    constructor
    · intro hlim
      rw [if_pos (by rw [hb3.nFields, hb3.maxFields]; exact (within_iff _ _).2 hlim.2), Option.bind_some] at hrun
      -- the data
      obtain ⟨f4, M4, ⟨hb4, hp4⟩, he4, hf4⟩ := flow_data rfc
        (fun d f => Between mf mx nf (nx + 1) done f ∧ f.part = ⟨some (disposition s), s.name, d, none, kept s⟩)
        (fun d g hg => ⟨hg.1.flush, hg.2⟩)
        (by
          rintro d x g ⟨hg1, hg2⟩
          have : g.onData x = { g with part := { g.part with data := g.part.data ++ x } } := by
            unfold Form.onData
            rw [hg2]
          rw [this]
          exact ⟨hg1.part _, by rw [hg2]⟩)
        hf3 [] _ ⟨(⟨hb3.maxFiles, hb3.maxFields, hb3.nFiles, by rw [hb3.nFields], hb3.entries, hb3.ids, hb3.writing, hb3.finishing⟩ :
          Between mf mx nf (nx + 1) done { f3 with nFields := f3.nFields + 1, part := { f3.part with name := s.name, file := none } }),
          by rw [hp3]⟩
      rw [List.nil_append] at hp4
      obtain ⟨f5, M5, ⟨hb5, hp5⟩, he5, hf5⟩ := flow_ev (by intro d; exact Ev.noConfusion) rfc
        (fun f => Between mf mx nf (nx + 1) done f ∧ f.part = ⟨some (disposition s), s.name, s.content, none, kept s⟩)
        (fun g hg => ⟨hg.1.flush, hg.2⟩) hf4 f4 ⟨hb4, hp4⟩
      have hend : f5.onEnd = { f5 with items := f5.items ++ [.text s.name s.content] } := by
        unfold Form.onEnd
        rw [hp5]
      refine ⟨f5.onEnd, M5, ?_, ?_, hf5⟩
      · rw [hend]
        refine ⟨hb5.maxFiles, hb5.maxFields, hb5.nFiles, hb5.nFields, ?_, ?_, hb5.writing, hb5.finishing⟩
        · rw [List.map_append, List.map_append]
          congr 1
          · exact hb5.entries
          · simp [entry, expected, hfn]
        · intro it hit n i hi
          rcases List.mem_append.1 hit with hit | hit
          · exact hb5.ids it hit n i hi
          · rw [List.mem_singleton] at hit
            rw [hit] at hi
            cases hi
      · exact (hrun.trans he4).trans he5
    · intro hlim
      rw [if_neg (by
        rw [hb3.nFields, hb3.maxFields]
        exact fun hw => hlim ⟨hmf, (within_iff _ _).1 hw⟩)] at hrun
      exact hrun
  | some fn =>
    rw [hfn] at hrun
    dsimp only at hrun
    have hn1 : nextFiles nf s = nf + 1 := by simp [nextFiles, hfn]
    have hn2 : nextFields nx s = nx := by simp [nextFields, hfn]
    rw [hn1, hn2]
    unfold Form.openFile at hrun
    constructor
    · intro hlim
      rw [if_pos (by rw [hb3.nFiles, hb3.maxFiles]; exact (within_iff _ _).2 hlim.1), Option.bind_some] at hrun
      obtain ⟨f4, M4, hb4, he4, hf4⟩ := flow_data rfc
        (fun d f => InFile mf mx (nf + 1) nx done s.name fn (kept s) d f)
        (fun d g hg => hg.flush) (fun d x g hg => hg.data x)
        hf3 [] _ (⟨hb3.maxFiles, hb3.maxFields, by rw [hb3.nFiles], hb3.nFields, rfl, f3.flush.files, by
            show f3.toFinish.foldl rewind (f3.toWrite.foldl writeTo (f3.files ++ [⟨fn, f3.part.headers, [], 0⟩])) = _
            rw [writes_append _ _ _ hb3.writing, rewinds_append, hp3]
            · rfl
            · rw [length_writes]; exact hb3.finishing,
          by show some f3.files.length = _; rw [length_flush], by rw [length_flush]; simp, hb3.entries,
          by rw [length_flush]; exact hb3.ids,
          by
            rw [length_flush]
            intro w hw
            exact Nat.lt_succ_of_lt (hb3.writing w hw),
          by rw [length_flush]; exact hb3.finishing⟩ :
          InFile mf mx (nf + 1) nx done s.name fn (kept s) [] { f3 with
            nFiles := f3.nFiles + 1, files := f3.files ++ [⟨fn, f3.part.headers, [], 0⟩],
            part := { f3.part with name := s.name, file := some f3.files.length } })
      rw [List.nil_append] at hb4
      obtain ⟨f5, M5, hb5, he5, hf5⟩ := flow_ev (by intro d; exact Ev.noConfusion) rfc
        (fun f => InFile mf mx (nf + 1) nx done s.name fn (kept s) s.content f) (fun g hg => hg.flush) hf4 f4 hb4
      exact ⟨f5.onEnd, M5, hb5.end hfn, (hrun.trans he4).trans he5, hf5⟩
    · intro hlim
      rw [if_neg (by
        rw [hb3.nFiles, hb3.maxFiles]
        exact fun hw => hlim ⟨(within_iff _ _).1 hw, hmx⟩)] at hrun
      exact hrun

end Verif.Multipart
