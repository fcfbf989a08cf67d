import Verif.Mail.Spec

/-!
# Lemmas about building a message
-/

namespace Verif.Mail

open Spec

/-! ## Lines -/

theorem pyBreak_iff (c : Char) : Sse.pyBreak c = true ↔ c ∈ lineEnds := by
  unfold Sse.pyBreak lineEnds
  simp only [List.mem_cons, List.not_mem_nil, or_false, decide_eq_true_eq]
  have key : ∀ d : Char, c = d ↔ c.toNat = d.toNat := fun d =>
    ⟨fun h => by rw [h], fun h => Char.toNat_inj.mp h⟩
  simp only [key]
  have e : ('\n'.toNat = 10 ∧ '\r'.toNat = 13 ∧ '\x0b'.toNat = 11 ∧ '\x0c'.toNat = 12 ∧ '\x1c'.toNat = 28 ∧
      '\x1d'.toNat = 29 ∧ '\x1e'.toNat = 30 ∧ '\u0085'.toNat = 133 ∧ '\u2028'.toNat = 8232 ∧
      '\u2029'.toNat = 8233) := by decide
  obtain ⟨e1, e2, e3, e4, e5, e6, e7, e8, e9, e10⟩ := e
  rw [e1, e2, e3, e4, e5, e6, e7, e8, e9, e10]
  omega

theorem split_ne_nil (s cur : Str) (h : cur ≠ []) (b : Bool) : Sse.splitlinesFrom b cur s ≠ [] := by
  induction s generalizing cur b with
  | nil => simp [Sse.splitlinesFrom, h]
  | cons c s ih =>
    unfold Sse.splitlinesFrom
    split
    · exact ih cur h false
    · split
      · simp
      · exact ih _ (by simp) false

theorem split_nil {s : Str} {b : Bool} (h : Sse.splitlinesFrom b [] s = []) :
    s = [] ∨ (b = true ∧ s = ['\n']) := by
  cases s with
  | nil => exact Or.inl rfl
  | cons c s =>
    right
    unfold Sse.splitlinesFrom at h
    split at h
    · rename_i hc
      refine ⟨hc.1, ?_⟩
      cases s with
      | nil => rw [hc.2]
      | cons d s =>
        exfalso
        unfold Sse.splitlinesFrom at h
        simp only [Bool.false_eq_true, false_and, if_false] at h
        split at h
        · simp at h
        · exact split_ne_nil s _ (by simp) false h
    · split at h
      · simp at h
      · exact absurd h (split_ne_nil s _ (by simp) false)

theorem split_short (s cur : Str) (h : (Sse.splitlinesFrom false cur s).length ≤ 1) : OneLine s := by
  induction s generalizing cur with
  | nil => exact ⟨[], [], rfl, by simp, Or.inl rfl⟩
  | cons c s ih =>
    unfold Sse.splitlinesFrom at h
    simp only [Bool.false_eq_true, false_and, if_false] at h
    split at h
    · rename_i hc
      have hn : Sse.splitlinesFrom (decide (c = '\r')) [] s = [] := by
        simp only [List.length_cons] at h
        exact List.length_eq_zero_iff.mp (by omega)
      rcases split_nil hn with hs | ⟨hb, hs⟩
      · exact ⟨[], [c], by simp [hs], by simp, Or.inr (Or.inl ⟨c, (pyBreak_iff c).mp hc, rfl⟩)⟩
      · refine ⟨[], ['\r', '\n'], ?_, by simp, Or.inr (Or.inr rfl)⟩
        rw [hs, of_decide_eq_true hb]
        rfl
    · rename_i hc
      obtain ⟨w, e, hs, hw, he⟩ := ih _ h
      refine ⟨c :: w, e, by simp [hs], ?_, he⟩
      intro d hd
      rcases List.mem_cons.mp hd with rfl | hd
      · exact fun hm => hc ((pyBreak_iff _).mpr hm)
      · exact hw d hd

theorem short_split (w e cur : Str) (hw : ∀ c ∈ w, c ∉ lineEnds)
    (he : e = [] ∨ (∃ c ∈ lineEnds, e = [c]) ∨ e = ['\r', '\n']) :
    (Sse.splitlinesFrom false cur (w ++ e)).length ≤ 1 := by
  induction w generalizing cur with
  | nil =>
    rcases he with rfl | ⟨c, hc, rfl⟩ | rfl
    · simp only [List.append_nil, Sse.splitlinesFrom]
      split <;> simp
    · have hb : Sse.pyBreak c = true := (pyBreak_iff c).mpr hc
      simp [Sse.splitlinesFrom, hb]
    · have hb : Sse.pyBreak '\r' = true := by decide
      simp [Sse.splitlinesFrom, hb]
  | cons c w ih =>
    have hb : ¬ Sse.pyBreak c = true := fun h => hw c (by simp) ((pyBreak_iff c).mp h)
    show (Sse.splitlinesFrom false cur (c :: (w ++ e))).length ≤ 1
    unfold Sse.splitlinesFrom
    simp only [Bool.false_eq_true, false_and, if_false, hb]
    exact ih _ (fun d hd => hw d (by simp [hd]))

theorem broken_iff (v : Str) : broken v = false ↔ OneLine v := by
  unfold broken Sse.splitlines
  rw [decide_eq_false_iff_not]
  constructor
  · intro h
    exact split_short v [] (by omega)
  · rintro ⟨w, e, rfl, hw, he⟩
    have := short_split w e [] hw he
    omega

/-! ## Headers -/

theorem once_iff (n : Str) : onceNames.contains (lower n) = true ↔ Once n := by
  unfold Once SameName
  rw [List.contains_iff_mem]
  simp only [List.mem_cons, List.not_mem_nil, or_false, exists_eq_or_imp, exists_eq_left]
  unfold onceNames
  simp only [List.mem_cons, List.not_mem_nil, or_false]
  rfl

theorem addressed_iff (n : Str) : addressNames.contains (lower n) = true ↔ Addressed n := by
  unfold Addressed SameName
  rw [List.contains_iff_mem]
  simp only [List.mem_cons, List.not_mem_nil, or_false, exists_eq_or_imp, exists_eq_left]
  unfold addressNames
  simp only [List.mem_cons, List.not_mem_nil, or_false]
  rfl

theorem has_iff (hs : List (Str × Str)) (n : Str) : hasHeader hs n = true ↔ Has hs n := by
  unfold hasHeader Has SameName
  simp [List.any_eq_true]

/-- A header can follow others. -/
def Good (env : Env) (prev : List (Str × Str)) (h : Str × Str) : Prop :=
  ¬ (Once h.1 ∧ Has prev h.1) ∧ OneLine h.2 ∧ (Addressed h.1 → env.addresses h.2 = true)

theorem setHeader_iff (env : Env) (b b' : Built) (n v : Str) :
    setHeader env b n v = .ok b' ↔ b' = { b with headers := b.headers ++ [(n, v)] } ∧
      Good env b.headers (n, v) := by
  unfold setHeader Good
  by_cases h1 : (onceNames.contains (lower n) && hasHeader b.headers n) = true
  · rw [if_pos h1]
    rw [Bool.and_eq_true, once_iff, has_iff] at h1
    constructor
    · intro h; cases h
    · intro h; exact absurd h1 h.2.1
  · rw [if_neg h1]
    rw [Bool.and_eq_true, once_iff, has_iff] at h1
    by_cases h2 : broken v = true
    · rw [if_pos h2]
      constructor
      · intro h; cases h
      · intro h
        have := (broken_iff v).mpr h.2.2.1
        rw [h2] at this
        cases this
    · rw [if_neg h2]
      have h2' : OneLine v := (broken_iff v).mp (by simpa using h2)
      by_cases h3 : (addressNames.contains (lower n) && !env.addresses v) = true
      · rw [if_pos h3]
        rw [Bool.and_eq_true, addressed_iff] at h3
        constructor
        · intro h; cases h
        · intro h
          have := h.2.2.2 h3.1
          rw [show env.addresses v = true from this] at h3
          exact absurd h3.2 (by decide)
      · rw [if_neg h3]
        rw [Bool.and_eq_true, addressed_iff] at h3
        constructor
        · intro h
          refine ⟨(Except.ok.inj h).symm, h1, h2', ?_⟩
          intro ha
          cases hv : env.addresses v with
          | true => rfl
          | false => exact absurd ⟨ha, by rw [hv]; rfl⟩ h3
        · intro h; rw [h.1]

theorem setHeaders_iff (env : Env) (hs : List (Str × Str)) (b b' : Built) :
    setHeaders env b hs = .ok b' ↔ b' = { b with headers := b.headers ++ hs } ∧
      ∀ pre h post, hs = pre ++ h :: post → Good env (b.headers ++ pre) h := by
  induction hs generalizing b with
  | nil =>
    unfold setHeaders
    constructor
    · intro h
      refine ⟨?_, ?_⟩
      · rw [← Except.ok.inj h]; simp
      · intro pre h post e; cases pre <;> cases e
    · intro h; rw [h.1]; simp
  | cons x hs ih =>
    unfold setHeaders
    constructor
    · intro h
      cases hx : setHeader env b x.1 x.2 with
      | error e => rw [hx] at h; cases h
      | ok c =>
        rw [hx] at h
        obtain ⟨hc, hg⟩ := (setHeader_iff env b c x.1 x.2).mp hx
        obtain ⟨hb, hr⟩ := (ih c).mp h
        refine ⟨?_, ?_⟩
        · rw [hb, hc]; simp
        · intro pre y post e
          cases pre with
          | nil =>
            obtain ⟨rfl, rfl⟩ := List.cons.inj e
            simpa using hg
          | cons p pre =>
            obtain ⟨rfl, e'⟩ := List.cons.inj e
            have := hr pre y post e'
            rw [hc] at this
            simpa using this
    · rintro ⟨hb, hr⟩
      have hx : setHeader env b x.1 x.2 = .ok { b with headers := b.headers ++ [(x.1, x.2)] } :=
        (setHeader_iff env b _ x.1 x.2).mpr ⟨rfl, by simpa using hr [] x hs rfl⟩
      rw [hx]
      refine (ih _).mpr ⟨by rw [hb]; simp, ?_⟩
      intro pre y post e
      have := hr (x :: pre) y post (by rw [e]; rfl)
      simpa using this

theorem good_iff (env : Env) (hs : List (Str × Str)) :
    (∀ pre h post, hs = pre ++ h :: post → Good env ([] ++ pre) h) ↔ Headers env hs := by
  constructor
  · intro hg
    refine ⟨?_, ?_⟩
    · intro h hm
      obtain ⟨pre, post, e⟩ := List.append_of_mem hm
      exact (hg pre h post e).2
    · intro pre h post e ho h' hm hs'
      exact (hg pre h post e).1 ⟨ho, h', hm, hs'⟩
  · rintro ⟨h1, h2⟩ pre h post e
    refine ⟨?_, h1 h (by rw [e]; simp)⟩
    rintro ⟨ho, h', hm, hs'⟩
    exact h2 pre h post e ho h' (by simpa using hm) hs'

theorem given_present (t : Option Str) : (given t = none ∧ ¬ Present t) ∨ (given t = t ∧ Present t) := by
  cases t with
  | none => left; exact ⟨rfl, by rintro ⟨s, h, _⟩; cases h⟩
  | some s =>
    cases s with
    | nil => left; exact ⟨rfl, by rintro ⟨s, h, h'⟩; cases h; exact h' rfl⟩
    | cons c s => right; exact ⟨rfl, ⟨_, rfl, by simp⟩⟩

theorem given_some {t : Option Str} {s : Str} (h : given t = some s) : t = some s ∧ s ≠ [] := by
  cases t with
  | none => cases h
  | some u =>
    cases u with
    | nil => cases h
    | cons c u => cases h; exact ⟨rfl, by simp⟩

theorem given_none {t : Option Str} (h : given t = none) : ¬ Present t := by
  rcases given_present t with h' | h'
  · exact h'.2
  · obtain ⟨s, hs, _⟩ := h'.2
    rw [h'.1, hs] at h
    cases h

theorem headersOf_eq (m : Message) : headersOf m = asked m := by
  unfold headersOf asked Spec.addresses
  cases hg : given m.sender with
  | none => rw [if_neg (given_none hg)]
  | some s =>
    obtain ⟨e, hne⟩ := given_some hg
    have hp : Present m.sender := ⟨s, e, hne⟩
    rw [if_pos hp, e]
    rfl

/-! ## Content -/

theorem setContent_ok (env : Env) (b : Built) (t : Str) :
    setContent env b t = .ok
      { headers := b.headers ++ (if Has b.headers "MIME-Version".toList then []
          else [("MIME-Version".toList, "1.0".toList)])
        content := some (.leaf { type := "text/plain".toList, content := t }) } := by
  unfold setContent
  by_cases h : Has b.headers "MIME-Version".toList
  · simp only [(has_iff _ _).mpr h, if_true, if_pos h, List.append_nil]
  · have h' : hasHeader b.headers "MIME-Version".toList = false := by
      rw [← Bool.not_eq_true, has_iff]; exact h
    simp only [h', if_neg h]
    refine (setHeader_iff env _ _ _ _).mpr ⟨rfl, ?_, ?_, ?_⟩
    · exact fun hh => h hh.2
    · exact (broken_iff _).mp (by decide)
    · intro ha
      exact absurd ((addressed_iff _).mpr ha) (by decide)

/-- The first part of a message and the attachments after it. -/
def wrap (c : Part) (ls : List Leaf) : Part :=
  if ls = [] then c else .multi "mixed".toList (c :: ls.map Part.leaf)

/-- A part that is not a mixed multipart. -/
def NotMixed : Part → Prop
  | .leaf _ => True
  | .multi s _ => s ≠ "mixed".toList

theorem intoMulti_wrap (c : Part) (hc : NotMixed c) (ls : List Leaf) :
    intoMulti "mixed".toList (some (wrap c ls)) = .ok (c :: ls.map Part.leaf) := by
  unfold wrap
  by_cases h : ls = []
  · rw [if_pos h, h]
    cases c with
    | leaf l => rfl
    | multi s ps =>
      show (if s = "mixed".toList then _ else _) = _
      rw [if_neg hc, if_neg (fun h => absurd h.1 (by decide))]
      rfl
  · rw [if_neg h]
    simp only [intoMulti, if_true]

theorem addAttachment_wrap (hs : List (Str × Str)) (c : Part) (hc : NotMixed c) (ls : List Leaf)
    (mt st data : Str) (fn : Option Str) (b' : Built) :
    addAttachment { headers := hs, content := some (wrap c ls) } mt st data fn = .ok b' ↔
      (OneLine (mt ++ ['/'] ++ st) ∧ ∀ f, fn = some f → OneLine f) ∧
      b' = { headers := hs, content := some (wrap c (ls ++
        [{ type := mt ++ ['/'] ++ st, content := data, filename := fn, attached := true }])) } := by
  unfold addAttachment addPart
  simp only [intoMulti_wrap c hc ls]
  have hfn : (fn.map broken).getD false = false ↔ ∀ f, fn = some f → OneLine f := by
    cases fn with
    | none => simp
    | some f => simp [broken_iff]
  by_cases h : (broken (mt ++ ['/'] ++ st) || (fn.map broken).getD false) = true
  · rw [if_pos h]
    constructor
    · intro h'; cases h'
    · rintro ⟨⟨h1, h2⟩, _⟩
      rw [(broken_iff _).mpr h1, hfn.mpr h2] at h
      cases h
  · rw [if_neg h]
    have h' := Bool.or_eq_false_iff.mp (Bool.not_eq_true _ ▸ h)
    constructor
    · intro e
      refine ⟨⟨(broken_iff _).mp h'.1, hfn.mp h'.2⟩, ?_⟩
      rw [← Except.ok.inj e]
      unfold wrap
      rw [if_neg (by simp)]
      simp
    · rintro ⟨_, e⟩
      rw [e]
      unfold wrap
      rw [if_neg (by simp)]
      simp

/-! ### Alternatives -/

theorem take_drop_slash (t : Str) : t = t.takeWhile (· ≠ '/') ++ t.dropWhile (· ≠ '/') :=
  (List.takeWhile_append_dropWhile).symm

theorem dropWhile_slash (t : Str) : t.dropWhile (· ≠ '/') = [] ∨
    t.dropWhile (· ≠ '/') = '/' :: (t.dropWhile (· ≠ '/')).drop 1 := by
  induction t with
  | nil => exact Or.inl rfl
  | cons c t ih =>
    by_cases h : c = '/'
    · right
      subst h
      simp
    · have : (c :: t).dropWhile (· ≠ '/') = t.dropWhile (· ≠ '/') := by
        rw [List.dropWhile_cons_of_pos (by simpa using h)]
      rw [this]
      exact ih

theorem dropWhile_slash_nil (t : Str) : t.dropWhile (· ≠ '/') = [] ↔ '/' ∉ t := by
  induction t with
  | nil => simp
  | cons c t ih =>
    by_cases h : c = '/'
    · subst h; simp
    · rw [List.dropWhile_cons_of_pos (by simpa using h), ih]
      simp [Ne.symm h]

theorem partition_type (t : Str) :
    (partitionType t).1 ++ ['/'] ++ (partitionType t).2 = alternativeType t := by
  unfold partitionType alternativeType
  rcases dropWhile_slash t with h | h
  · rw [h]
    rfl
  · by_cases hs : (t.dropWhile (· ≠ '/')).drop 1 = []
    · have hl : ¬ 2 ≤ (t.dropWhile (· ≠ '/')).length := by
        rw [h, hs]; decide
      rw [if_neg hl]
      simp only [hs, if_true]
      rfl
    · have hl : 2 ≤ (t.dropWhile (· ≠ '/')).length := by
        rw [h]
        have := List.length_pos_iff.mpr hs
        simp only [List.length_cons]
        omega
      rw [if_pos hl]
      simp only [hs, if_false]
      conv => rhs; rw [take_drop_slash t, h]
      simp

theorem partition_text (t : Str) : (partitionType t).1 = "text".toList ↔ IsText t := by
  unfold partitionType
  constructor
  · intro h
    by_cases hs : (t.dropWhile (· ≠ '/')).drop 1 = []
    · simp only [hs, if_true] at h
      exact absurd h (by decide)
    · simp only [hs, if_false] at h
      refine ⟨_, hs, ?_⟩
      rcases dropWhile_slash t with hd | hd
      · rw [hd] at hs; exact absurd rfl hs
      · conv => lhs; rw [take_drop_slash t, hd, h]
        rfl
  · rintro ⟨s, hs, rfl⟩
    have h1 : ("text/".toList ++ s).dropWhile (· ≠ '/') = '/' :: s := rfl
    have h2 : ("text/".toList ++ s).takeWhile (· ≠ '/') = "text".toList := rfl
    simp only [h1, h2, List.drop_succ_cons, List.drop_zero, hs, if_false]

theorem addAlternativeBytes_err (b : Built) (s c : Str) (b' : Built) :
    addAlternativeBytes b s c ≠ .ok b' := by
  unfold addAlternativeBytes
  split <;> exact fun h => by cases h

/-- What the alternatives that are not text become. -/
def altLeaves (as : List (Str × Str)) : List Leaf :=
  as.map fun a => { type := alternativeType a.1, content := a.2, attached := true }

theorem addAlternatives_iff (hs : List (Str × Str)) (c : Part) (hc : NotMixed c)
    (as : List (Str × Str)) (ls : List Leaf) (b' : Built) :
    addAlternatives { headers := hs, content := some (wrap c ls) } as = .ok b' ↔
      (∀ a ∈ as, ¬ IsText a.1) ∧ (∀ a ∈ as, OneLine (alternativeType a.1)) ∧
      b' = { headers := hs, content := some (wrap c (ls ++ altLeaves as)) } := by
  induction as generalizing ls with
  | nil =>
    unfold addAlternatives altLeaves
    simp only [List.not_mem_nil, false_imp_iff, implies_true, List.map_nil, List.append_nil, true_and]
    exact ⟨fun h => (Except.ok.inj h).symm, fun h => by rw [h]⟩
  | cons a as ih =>
    obtain ⟨t, d⟩ := a
    unfold addAlternatives
    by_cases ht : IsText t
    · simp only [if_pos ((partition_text t).mpr ht)]
      constructor
      · intro h
        cases hb : addAlternativeBytes { headers := hs, content := some (wrap c ls) } (partitionType t).2 d with
        | ok b => exact absurd hb (addAlternativeBytes_err _ _ _ _)
        | error e => rw [hb] at h; cases h
      · intro h
        exact absurd ht (h.1 (t, d) (by simp))
    · simp only [if_neg (fun h => ht ((partition_text t).mp h))]
      constructor
      · intro h
        cases hb : addAttachment { headers := hs, content := some (wrap c ls) } (partitionType t).1
            (partitionType t).2 d none with
        | error e => rw [hb] at h; cases h
        | ok b =>
          rw [hb] at h
          obtain ⟨⟨h1, _⟩, rfl⟩ := (addAttachment_wrap hs c hc ls _ _ d none b).mp hb
          obtain ⟨h3, h4, h5⟩ := (ih _).mp h
          rw [partition_type] at h1
          refine ⟨?_, ?_, ?_⟩
          · intro a hm
            rcases List.mem_cons.mp hm with rfl | hm
            · exact ht
            · exact h3 a hm
          · intro a hm
            rcases List.mem_cons.mp hm with rfl | hm
            · exact h1
            · exact h4 a hm
          · rw [h5]
            simp [altLeaves, ← partition_type]
      · rintro ⟨h3, h4, h5⟩
        have hb := (addAttachment_wrap hs c hc ls (partitionType t).1 (partitionType t).2 d none _).mpr
          ⟨⟨by rw [partition_type]; exact h4 (t, d) (by simp), fun f hf => by cases hf⟩, rfl⟩
        rw [hb]
        refine (ih _).mpr ⟨fun a hm => h3 a (by simp [hm]), fun a hm => h4 a (by simp [hm]), ?_⟩
        rw [h5]
        simp [altLeaves, ← partition_type]

/-! ### Attachments -/

theorem split_type (t : Option Str) :
    (splitType t).1 ++ ['/'] ++ (splitType t).2 = attachmentType t := by
  unfold splitType attachmentType
  cases t with
  | none => rfl
  | some t =>
    by_cases h : '/' ∈ t
    · simp only [if_pos h]
      rcases dropWhile_slash t with hd | hd
      · exact absurd h ((dropWhile_slash_nil t).mp hd)
      · conv => rhs; rw [take_drop_slash t, hd]
        simp
    · simp only [if_neg h]
      rfl

/-- What the attachments become. -/
def attLeaves (as : List Attachment) : List Leaf :=
  as.map fun a => { type := attachmentType a.mimetype, content := a.content, filename := some a.filename,
                    attached := true }

theorem addAttachments_iff (hs : List (Str × Str)) (c : Part) (hc : NotMixed c)
    (as : List Attachment) (ls : List Leaf) (b' : Built) :
    addAttachments { headers := hs, content := some (wrap c ls) } as = .ok b' ↔
      (∀ a ∈ as, OneLine (attachmentType a.mimetype) ∧ OneLine a.filename) ∧
      b' = { headers := hs, content := some (wrap c (ls ++ attLeaves as)) } := by
  induction as generalizing ls with
  | nil =>
    unfold addAttachments attLeaves
    simp only [List.not_mem_nil, false_imp_iff, implies_true, List.map_nil, List.append_nil, true_and]
    exact ⟨fun h => (Except.ok.inj h).symm, fun h => by rw [h]⟩
  | cons a as ih =>
    unfold addAttachments
    constructor
    · intro h
      cases hb : addAttachment { headers := hs, content := some (wrap c ls) } (splitType a.mimetype).1
          (splitType a.mimetype).2 a.content (some a.filename) with
      | error e => rw [hb] at h; cases h
      | ok b =>
        rw [hb] at h
        obtain ⟨⟨h1, h2⟩, rfl⟩ := (addAttachment_wrap hs c hc ls _ _ _ _ b).mp hb
        obtain ⟨h3, h5⟩ := (ih _).mp h
        rw [split_type] at h1
        refine ⟨?_, ?_⟩
        · intro x hm
          rcases List.mem_cons.mp hm with rfl | hm
          · exact ⟨h1, h2 _ rfl⟩
          · exact h3 x hm
        · rw [h5]
          simp [attLeaves, ← split_type]
    · rintro ⟨h3, h5⟩
      have ha := h3 a (by simp)
      have hb := (addAttachment_wrap hs c hc ls (splitType a.mimetype).1 (splitType a.mimetype).2 a.content
        (some a.filename) _).mpr
        ⟨⟨by rw [split_type]; exact ha.1, fun f hf => by cases hf; exact ha.2⟩, rfl⟩
      rw [hb]
      refine (ih _).mpr ⟨fun x hm => h3 x (by simp [hm]), ?_⟩
      rw [h5]
      simp [attLeaves, ← split_type]

/-! ### Files -/

theorem baseName_of_not_mem (p : Str) (h : '/' ∉ p) : baseName p = p := by
  unfold baseName
  have := List.takeWhile_append_of_pos (p := fun x => decide (x ≠ '/')) (l₁ := p.reverse) (l₂ := []) (by
    intro c hc
    have : c ≠ '/' := fun e => h (by rw [← e]; exact List.mem_reverse.mp hc)
    simpa using this)
  rw [List.append_nil] at this
  rw [this]
  simp

theorem baseName_append (d b : Str) (h : '/' ∉ b) : baseName (d ++ '/' :: b) = b := by
  unfold baseName
  rw [List.reverse_append, List.reverse_cons, List.append_assoc,
    List.takeWhile_append_of_pos (by
      intro c hc
      have : c ≠ '/' := fun e => h (by rw [← e]; exact List.mem_reverse.mp hc)
      simpa using this)]
  simp

theorem split_last (p : Str) (h : '/' ∈ p) : ∃ d b, p = d ++ '/' :: b ∧ '/' ∉ b := by
  induction p with
  | nil => cases h
  | cons c p ih =>
    by_cases hp : '/' ∈ p
    · obtain ⟨d, b, e, hb⟩ := ih hp
      exact ⟨c :: d, b, by rw [e]; rfl, hb⟩
    · rcases List.mem_cons.mp h with rfl | h'
      · exact ⟨[], p, rfl, hp⟩
      · exact absurd h' hp

theorem getLastD_splitOn (p : Str) : (splitOn '/' p).getLastD [] = baseName p := by
  by_cases h : '/' ∈ p
  · obtain ⟨d, b, rfl, hb⟩ := split_last p h
    rw [baseName_append d b hb, splitOn_append, splitOn_of_not_mem '/' b hb]
    simp
  · rw [baseName_of_not_mem p h, splitOn_of_not_mem '/' p h]
    rfl

/-- What the files become. -/
def fileLeaves (env : Env) (ps : List Str) : List Leaf :=
  ps.map fun p => { type := unknownType, content := (env.files p).getD [], filename := some (baseName p),
                    attached := true }

theorem octet_type : "application".toList ++ ['/'] ++ "octet-stream".toList = unknownType := rfl

theorem octet_line : OneLine unknownType := (broken_iff _).mp (by decide)

theorem addFiles_iff (env : Env) (hs : List (Str × Str)) (c : Part) (hc : NotMixed c)
    (ps : List Str) (ls : List Leaf) (b' : Built) :
    addFiles env { headers := hs, content := some (wrap c ls) } ps = .ok b' ↔
      (∀ p ∈ ps, env.files p ≠ none ∧ OneLine (baseName p)) ∧
      b' = { headers := hs, content := some (wrap c (ls ++ fileLeaves env ps)) } := by
  induction ps generalizing ls with
  | nil =>
    unfold addFiles fileLeaves
    simp only [List.not_mem_nil, false_imp_iff, implies_true, List.map_nil, List.append_nil, true_and]
    exact ⟨fun h => (Except.ok.inj h).symm, fun h => by rw [h]⟩
  | cons p ps ih =>
    unfold addFiles
    cases hf : env.files p with
    | none =>
      simp only
      constructor
      · intro h; cases h
      · intro h; exact absurd hf (h.1 p (by simp)).1
    | some data =>
      simp only [getLastD_splitOn]
      constructor
      · intro h
        cases hb : addAttachment { headers := hs, content := some (wrap c ls) } "application".toList
            "octet-stream".toList data (some (baseName p)) with
        | error e => rw [hb] at h; cases h
        | ok b =>
          rw [hb] at h
          obtain ⟨⟨h1, h2⟩, rfl⟩ := (addAttachment_wrap hs c hc ls _ _ _ _ b).mp hb
          obtain ⟨h3, h5⟩ := (ih _).mp h
          refine ⟨?_, ?_⟩
          · intro x hm
            rcases List.mem_cons.mp hm with rfl | hm
            · exact ⟨by rw [hf]; simp, h2 _ rfl⟩
            · exact h3 x hm
          · rw [h5, octet_type]
            simp [fileLeaves, hf]
      · rintro ⟨h3, h5⟩
        have ha := h3 p (by simp)
        have hb := (addAttachment_wrap hs c hc ls "application".toList "octet-stream".toList data
          (some (baseName p)) _).mpr
          ⟨⟨by rw [octet_type]; exact octet_line, fun f hf => by cases hf; exact ha.2⟩, rfl⟩
        rw [hb]
        refine (ih _).mpr ⟨fun x hm => h3 x (by simp [hm]), ?_⟩
        rw [h5, octet_type]
        simp [fileLeaves, hf]

/-! ### The body -/

/-- The body of a message with at most one of text and HTML. -/
def bodyPart (m : Message) : Part :=
  match given m.html with
  | some h => .multi "alternative".toList [.leaf { type := "text/html".toList, content := h }]
  | none => .leaf { type := "text/plain".toList, content := (given m.text).getD [] }

theorem bodyPart_notMixed (m : Message) : NotMixed (bodyPart m) := by
  unfold bodyPart
  cases given m.html with
  | none => trivial
  | some h => show "alternative".toList ≠ "mixed".toList; decide

/-- The headers after the body. -/
def afterBody (m : Message) (hs : List (Str × Str)) : List (Str × Str) :=
  if Present m.html then hs
  else hs ++ (if Has hs "MIME-Version".toList then [] else [("MIME-Version".toList, "1.0".toList)])

theorem addBody_iff (env : Env) (m : Message) (hs : List (Str × Str)) (b' : Built) :
    addBody env m { headers := hs } = .ok b' ↔
      ¬ (Present m.text ∧ Present m.html) ∧
      b' = { headers := afterBody m hs, content := some (wrap (bodyPart m) []) } := by
  unfold addBody bodyPart wrap afterBody
  simp only [if_true]
  cases ht : given m.text with
  | some t =>
    obtain ⟨et, hnt⟩ := given_some ht
    have hpt : Present m.text := ⟨t, et, hnt⟩
    cases hh : given m.html with
    | some h =>
      obtain ⟨eh, hnh⟩ := given_some hh
      have hph : Present m.html := ⟨h, eh, hnh⟩
      simp only [setContent_ok]
      constructor
      · intro e; exact absurd e (addAlternativeBytes_err _ _ _ _)
      · intro e; exact absurd ⟨hpt, hph⟩ e.1
    | none =>
      have hph := given_none hh
      simp only [setContent_ok, if_neg hph]
      constructor
      · intro e; exact ⟨fun x => hph x.2, (Except.ok.inj e).symm⟩
      · intro e; rw [e.2]; rfl
  | none =>
    have hpt := given_none ht
    cases hh : given m.html with
    | some h =>
      obtain ⟨eh, hnh⟩ := given_some hh
      have hph : Present m.html := ⟨h, eh, hnh⟩
      simp only [if_pos hph]
      constructor
      · intro e; exact ⟨fun x => hpt x.1, (Except.ok.inj e).symm⟩
      · intro e; rw [e.2]; rfl
    | none =>
      have hph := given_none hh
      simp only [setContent_ok, if_neg hph]
      constructor
      · intro e; exact ⟨fun x => hph x.2, (Except.ok.inj e).symm⟩
      · intro e; rw [e.2]; rfl

/-! ### The message id -/

/-- The headers after the message id. -/
def afterId (env : Env) (hs : List (Str × Str)) : List (Str × Str) :=
  hs ++ (if Has hs "Message-Id".toList then [] else [("Message-Id".toList, env.msgid)])

theorem addId_ok (env : Env) (hid : OneLine env.msgid) (hs : List (Str × Str)) (c : Option Part) :
    addId env { headers := hs, content := c } = .ok { headers := afterId env hs, content := c } := by
  unfold addId afterId
  by_cases h : Has hs "Message-Id".toList
  · simp only [(has_iff _ _).mpr h, if_true, if_pos h, List.append_nil]
  · have h' : hasHeader hs "Message-Id".toList = false := by
      rw [← Bool.not_eq_true, has_iff]; exact h
    simp only [h', if_neg h]
    refine (setHeader_iff env _ _ _ _).mpr ⟨rfl, fun hh => h hh.2, hid, ?_⟩
    intro ha
    exact absurd ((addressed_iff "Message-Id".toList).mpr ha) (by decide)

/-! ### The whole message -/

theorem bind_ok {α β : Type} (x : Except Err α) (f : α → Except Err β) (r : β) :
    x.bind f = .ok r ↔ ∃ a, x = .ok a ∧ f a = .ok r := by
  cases x with
  | error e =>
    constructor
    · intro h; cases h
    · rintro ⟨a, h, _⟩; cases h
  | ok a =>
    constructor
    · intro h; exact ⟨a, rfl, h⟩
    · rintro ⟨a', h, h'⟩; cases h; exact h'

theorem extras_eq (env : Env) (m : Message) (h : ∀ a ∈ m.alternatives, ¬ IsText a.1) :
    extras env m = altLeaves m.alternatives ++ attLeaves m.attachments ++ fileLeaves env m.paths := by
  unfold extras altLeaves attLeaves fileLeaves
  rw [List.filter_eq_self.mpr]
  intro a ha
  exact decide_eq_true (h a ha)

theorem build_iff (env : Env) (hid : OneLine env.msgid) (m : Message) (b : Built) :
    build env m = .ok b ↔ Sound env m ∧ OneBody m ∧
      b = { headers := afterId env (afterBody m (asked m))
            content := some (wrap (bodyPart m) (extras env m)) } := by
  unfold build
  simp only [bind_ok]
  constructor
  · rintro ⟨b1, h1, b2, h2, b3, h3, b4, h4, b5, h5, h6⟩
    rw [headersOf_eq, setHeaders_iff] at h1
    obtain ⟨rfl, hg⟩ := h1
    have hh : Headers env (asked m) := (good_iff env _).mp hg
    rw [List.nil_append] at h2
    obtain ⟨ho, rfl⟩ := (addBody_iff env m _ _).mp h2
    obtain ⟨hna, hla, rfl⟩ := (addAlternatives_iff _ _ (bodyPart_notMixed m) _ _ _).mp h3
    obtain ⟨hat, rfl⟩ := (addAttachments_iff _ _ (bodyPart_notMixed m) _ _ _).mp h4
    obtain ⟨hfi, rfl⟩ := (addFiles_iff env _ _ (bodyPart_notMixed m) _ _ _).mp h5
    rw [addId_ok env hid] at h6
    have hx := extras_eq env m hna
    refine ⟨⟨hh, ?_, fun p hp => (hfi p hp).1⟩, ⟨ho, hna⟩, ?_⟩
    · intro l hl
      rw [hx] at hl
      rcases List.mem_append.mp hl with hl | hl
      · rcases List.mem_append.mp hl with hl | hl
        · obtain ⟨a, ha, rfl⟩ := List.mem_map.mp hl
          exact ⟨hla a ha, fun f hf => by cases hf⟩
        · obtain ⟨a, ha, rfl⟩ := List.mem_map.mp hl
          exact ⟨(hat a ha).1, fun f hf => by cases hf; exact (hat a ha).2⟩
      · obtain ⟨p, hp, rfl⟩ := List.mem_map.mp hl
        exact ⟨octet_line, fun f hf => by cases hf; exact (hfi p hp).2⟩
    · rw [← Except.ok.inj h6, hx]
      simp only [List.nil_append]
  · rintro ⟨⟨hh, hl, hf⟩, ⟨ho, hna⟩, rfl⟩
    have hx := extras_eq env m hna
    rw [hx] at hl ⊢
    refine ⟨{ headers := asked m }, ?_, _, (addBody_iff env m _ _).mpr ⟨ho, rfl⟩, _,
      (addAlternatives_iff _ _ (bodyPart_notMixed m) _ _ _).mpr ⟨hna, ?_, rfl⟩, _,
      (addAttachments_iff _ _ (bodyPart_notMixed m) _ _ _).mpr ⟨?_, rfl⟩, _,
      (addFiles_iff env _ _ (bodyPart_notMixed m) _ _ _).mpr ⟨?_, rfl⟩, ?_⟩
    · rw [headersOf_eq, setHeaders_iff]
      exact ⟨rfl, (good_iff env _).mpr hh⟩
    · intro a ha
      exact (hl _ (List.mem_append_left _ (List.mem_append_left _ (List.mem_map.mpr ⟨a, ha, rfl⟩)))).1
    · intro a ha
      have := hl _ (List.mem_append_left _ (List.mem_append_right _ (List.mem_map.mpr ⟨a, ha, rfl⟩)))
      exact ⟨this.1, this.2 _ rfl⟩
    · intro p hp
      have := hl _ (List.mem_append_right _ (List.mem_map.mpr ⟨p, hp, rfl⟩))
      exact ⟨hf p hp, this.2 _ rfl⟩
    · rw [addId_ok env hid]
      simp only [List.nil_append]

/-! ### What is shown -/

theorem thingsAll_leaves (ls : List Leaf) : thingsAll (ls.map Part.leaf) = ls.map fun l => [l] := by
  induction ls with
  | nil => rfl
  | cons l ls ih =>
    show things (.leaf l) ++ thingsAll (ls.map Part.leaf) = _
    rw [ih]
    rfl

theorem things_wrap (c : Part) (ls : List Leaf) :
    things (wrap c ls) = things c ++ ls.map fun l => [l] := by
  unfold wrap
  by_cases h : ls = []
  · rw [if_pos h, h]; simp
  · rw [if_neg h]
    show (if "mixed".toList = "alternative".toList then [leavesAll (c :: ls.map Part.leaf)]
      else thingsAll (c :: ls.map Part.leaf)) = _
    rw [if_neg (by decide)]
    show things c ++ thingsAll (ls.map Part.leaf) = _
    rw [thingsAll_leaves]

theorem things_body (m : Message) (h : OneBody m) : things (bodyPart m) = [bodies m] := by
  have hf : (m.alternatives.filter fun a => decide (IsText a.1)) = [] := by
    rw [List.filter_eq_nil_iff]
    intro a ha
    rw [decide_eq_true_eq]
    exact h.2 a ha
  unfold bodies bodyPart
  rw [hf]
  cases hh : given m.html with
  | some t =>
    obtain ⟨eh, hnh⟩ := given_some hh
    have hph : Present m.html := ⟨t, eh, hnh⟩
    have hpt : ¬ Present m.text := fun x => h.1 ⟨x, hph⟩
    rw [if_pos (Or.inr hph)]
    unfold body
    rw [if_neg hpt, if_pos hph, eh]
    rfl
  | none =>
    have hph := given_none hh
    cases ht : given m.text with
    | some t =>
      obtain ⟨et, hnt⟩ := given_some ht
      have hpt : Present m.text := ⟨t, et, hnt⟩
      rw [if_pos (Or.inl hpt)]
      unfold body
      rw [if_neg hph, if_pos hpt, et]
      rfl
    | none =>
      have hpt := given_none ht
      rw [if_neg (fun x => x.elim hpt hph)]
      rfl

end Verif.Mail
