import Verif.StaticFiles.Spec
import Verif.RelayCookies.Lemmas

/-! Helper lemmas about paths. -/

namespace Verif.StaticFiles

open Spec

/-- A component that is a proper name. -/
def Name (c : Str) : Prop := c ≠ [] ∧ c ≠ ['.'] ∧ c ≠ ['.', '.'] ∧ '/' ∉ c

theorem normStep_name (b : Bool) (acc : List Str) (c : Str) (h : Name c) :
    normStep b acc c = acc ++ [c] := by
  unfold normStep
  rw [if_neg (by rintro (e | e); exact h.1 e; exact h.2.1 e), if_pos (Or.inl h.2.2.1)]

/-- Components without `..` are appended, leaving out the empty ones and `.`. -/
theorem foldl_norm (b : Bool) (cs : List Str) :
    ∀ acc : List Str, ['.', '.'] ∉ cs →
      cs.foldl (normStep b) acc = acc ++ cs.filter (fun c => c ≠ [] ∧ c ≠ ['.']) := by
  induction cs with
  | nil => intro acc _; exact (List.append_nil _).symm
  | cons c t ih =>
    intro acc h
    have hc : c ≠ ['.', '.'] := fun e => h (e ▸ List.mem_cons_self)
    have ht : ['.', '.'] ∉ t := fun hm => h (List.mem_cons_of_mem _ hm)
    rw [List.foldl_cons, List.filter_cons]
    by_cases he : c = [] ∨ c = ['.']
    · have h1 : normStep b acc c = acc := by
        unfold normStep; rw [if_pos he]
      rw [h1, ih acc ht, if_neg]
      intro hd
      have := of_decide_eq_true hd
      rcases he with e | e
      · exact this.1 e
      · exact this.2 e
    · have hn : c ≠ [] ∧ c ≠ ['.'] := ⟨fun e => he (Or.inl e), fun e => he (Or.inr e)⟩
      have h1 : normStep b acc c = acc ++ [c] := by
        unfold normStep; rw [if_neg he, if_pos (Or.inl hc)]
      rw [h1, ih _ ht, if_pos (decide_eq_true hn), List.append_assoc]
      rfl

/-- The shape of what `normpath` keeps: `..` only at the beginning, and not after a slash. -/
def Shape (b : Bool) (acc : List Str) : Prop :=
  ∃ (k : Nat) (names : List Str), acc = List.replicate k ['.', '.'] ++ names ∧
    (∀ n ∈ names, Name n) ∧ (b = true → k = 0)

theorem shape_step (b : Bool) (acc : List Str) (c : Str) (hs : '/' ∉ c) (h : Shape b acc) :
    Shape b (normStep b acc c) := by
  obtain ⟨k, names, rfl, hn, hk⟩ := h
  unfold normStep
  by_cases he : c = [] ∨ c = ['.']
  · rw [if_pos he]; exact ⟨k, names, rfl, hn, hk⟩
  · rw [if_neg he]
    by_cases hd : c = ['.', '.']
    · subst hd
      rcases List.eq_nil_or_concat names with rfl | ⟨ns, x, rfl⟩
      · rw [List.append_nil]
        cases k with
        | zero =>
          by_cases hb : b = false
          · rw [if_pos (Or.inr (Or.inl ⟨hb, rfl⟩))]
            exact ⟨1, [], rfl, hn, fun e => by rw [hb] at e; cases e⟩
          · rw [if_neg]
            · exact ⟨0, [], rfl, hn, fun _ => rfl⟩
            · rintro (e | ⟨e, _⟩ | e)
              · exact e rfl
              · exact hb e
              · cases e
        | succ k =>
          have hb : b = false := by
            cases b with
            | false => rfl
            | true => exact absurd (hk rfl) (Nat.succ_ne_zero k)
          rw [if_pos]
          · refine ⟨k + 2, [], ?_, hn, fun e => by rw [hb] at e; cases e⟩
            rw [List.append_nil, List.replicate_succ' (n := k + 1)]
          · right; right
            rw [List.replicate_succ', List.getLast?_append]
            rfl
      · rw [List.concat_eq_append] at *
        have hx := hn x (List.mem_append.mpr (Or.inr List.mem_cons_self))
        rw [if_neg]
        · rw [← List.append_assoc, List.dropLast_concat]
          exact ⟨k, ns, rfl, fun n hm => hn n (List.mem_append.mpr (Or.inl hm)), hk⟩
        · rintro (e | ⟨_, e⟩ | e)
          · exact e rfl
          · have := congrArg List.length e
            simp at this
          · rw [← List.append_assoc, List.getLast?_append] at e
            have : x = ['.', '.'] := Option.some.inj e
            exact hx.2.2.1 this
    · rw [if_pos (Or.inl hd)]
      refine ⟨k, names ++ [c], (List.append_assoc _ _ _), ?_, hk⟩
      intro n hm
      rcases List.mem_append.mp hm with h1 | h1
      · exact hn n h1
      · rcases List.mem_cons.mp h1 with e | e
        · subst e
          exact ⟨fun e => he (Or.inl e), fun e => he (Or.inr e), hd, hs⟩
        · cases e

theorem shape_comps (b : Bool) (cs : List Str) (h : ∀ c ∈ cs, '/' ∉ c) :
    Shape b (normComps b cs) := by
  unfold normComps
  have key : ∀ (cs : List Str) (acc : List Str), (∀ c ∈ cs, '/' ∉ c) → Shape b acc →
      Shape b (cs.foldl (normStep b) acc) := by
    intro cs
    induction cs with
    | nil => intro acc _ h; exact h
    | cons c t ih =>
      intro acc hc ha
      rw [List.foldl_cons]
      exact ih _ (fun x hx => hc x (List.mem_cons_of_mem _ hx))
        (shape_step b acc c (hc c List.mem_cons_self) ha)
  exact key cs [] h ⟨0, [], rfl, (fun n hn => by cases hn), fun _ => rfl⟩

/-! ### Removing leading dots and slashes -/

theorem joinWith_cons (sep x : Str) (xs : List Str) (h : xs ≠ []) :
    joinWith sep (x :: xs) = x ++ sep ++ joinWith sep xs := by
  cases xs with
  | nil => exact absurd rfl h
  | cons y ys => rfl

theorem dropWhile_dots (x : Str) (hs : '/' ∉ x) (rest : Str) :
    (x.all (· = '.') = true → (x ++ rest).dropWhile isDotSlash = rest.dropWhile isDotSlash) ∧
    (x.all (· = '.') = false → ∃ c y, c ≠ '.' ∧ c ≠ '/' ∧ '/' ∉ c :: y ∧
      (∀ rest, (x ++ rest).dropWhile isDotSlash = c :: y ++ rest) ∧ (x = c :: y ∨ x.head? = some '.')) := by
  induction x with
  | nil => exact ⟨fun _ => rfl, fun h => by cases h⟩
  | cons a t ih =>
    have ha : a ≠ '/' := fun e => hs (e ▸ List.mem_cons_self)
    have ih' := ih (fun hm => hs (List.mem_cons_of_mem _ hm))
    by_cases hd : a = '.'
    · subst hd
      constructor
      · intro h
        rw [List.all_cons] at h
        have ht : t.all (· = '.') = true := by
          rw [Bool.and_eq_true] at h; exact h.2
        rw [List.cons_append, List.dropWhile_cons_of_pos (by decide)]
        exact ih'.1 ht
      · intro h
        have ht : t.all (· = '.') = false := by
          rw [List.all_cons] at h
          cases h2 : t.all (· = '.') with
          | false => rfl
          | true => rw [h2] at h; simp at h
        obtain ⟨c, y, h1, h2, h3, h4, _⟩ := ih'.2 ht
        refine ⟨c, y, h1, h2, h3, ?_, Or.inr rfl⟩
        intro rest
        rw [List.cons_append, List.dropWhile_cons_of_pos (by decide)]
        exact h4 rest
    · constructor
      · intro h
        rw [List.all_cons, Bool.and_eq_true] at h
        exact absurd (of_decide_eq_true h.1) hd
      · intro _
        refine ⟨a, t, hd, ha, hs, ?_, Or.inl rfl⟩
        intro rest
        rw [List.cons_append, List.dropWhile_cons_of_neg]
        unfold isDotSlash
        simp [hd, ha]

/-- Removing leading dots and slashes from joined components leaves proper names only. -/
theorem lstrip_names (names : List Str) (hn : ∀ n ∈ names, Name n) :
    ∃ l : List Str, (joinWith ['/'] names).dropWhile isDotSlash = joinWith ['/'] l ∧
      (∀ n ∈ l, Name n) ∧
      ((∀ n ∈ names.head?, n.head? ≠ some '.') → l = names) := by
  induction names with
  | nil => exact ⟨[], rfl, hn, fun _ => rfl⟩
  | cons x xs ih =>
    have hx := hn x List.mem_cons_self
    have hxs : ∀ n ∈ xs, Name n := fun n hm => hn n (List.mem_cons_of_mem _ hm)
    obtain ⟨l, hl1, hl2, _⟩ := ih hxs
    cases hall : x.all (· = '.') with
    | true =>
      have hnot : ¬ (∀ n ∈ (x :: xs).head?, n.head? ≠ some '.') := by
        intro h
        have h1 : x.head? ≠ some '.' := h x rfl
        cases x with
        | nil => exact hx.1 rfl
        | cons a t =>
          rw [List.all_cons, Bool.and_eq_true] at hall
          exact h1 (congrArg some (of_decide_eq_true hall.1))
      by_cases hnil : xs = []
      · subst hnil
        refine ⟨[], ?_, (fun n hm => by cases hm), fun h => absurd h hnot⟩
        show x.dropWhile isDotSlash = []
        have := (dropWhile_dots x hx.2.2.2 []).1 hall
        rw [List.append_nil] at this
        exact this
      · refine ⟨l, ?_, hl2, fun h => absurd h hnot⟩
        rw [joinWith_cons _ _ _ hnil, List.append_assoc, (dropWhile_dots x hx.2.2.2 _).1 hall]
        show ('/' :: joinWith ['/'] xs).dropWhile isDotSlash = _
        rw [List.dropWhile_cons_of_pos (by decide)]
        exact hl1
    | false =>
      obtain ⟨c, y, h1, h2, h3, h4, h5⟩ := (dropWhile_dots x hx.2.2.2 []).2 hall
      refine ⟨(c :: y) :: xs, ?_, ?_, ?_⟩
      · by_cases hnil : xs = []
        · subst hnil
          have := h4 []
          rw [List.append_nil, List.append_nil] at this
          exact this
        · rw [joinWith_cons _ _ _ hnil, joinWith_cons _ _ _ hnil, List.append_assoc, h4,
            List.append_assoc]
      · intro n hm
        rcases List.mem_cons.mp hm with e | e
        · subst e
          refine ⟨(fun hh => by cases hh), ?_, ?_, h3⟩
          · intro hh
            exact h1 (List.cons.inj hh).1
          · intro hh
            exact h1 (List.cons.inj hh).1
        · exact hxs n e
      · intro h
        rcases h5 with e | e
        · rw [e]
        · exact absurd e (h x rfl)

theorem lstrip_shape (b : Bool) (acc : List Str) (h : Shape b acc) (pre : Str)
    (hp : ∀ c ∈ pre, isDotSlash c = true) :
    ∃ l : List Str, (pre ++ joinWith ['/'] acc).dropWhile isDotSlash = joinWith ['/'] l ∧
      (∀ n ∈ l, Name n) ∧
      ((∀ n ∈ acc, Name n) → (∀ n ∈ acc.head?, n.head? ≠ some '.') → l = acc) := by
  rw [List.dropWhile_append_of_pos hp]
  obtain ⟨k, names, rfl, hn, hk⟩ := h
  clear hk
  induction k with
  | zero =>
    obtain ⟨l, h1, h2, h3⟩ := lstrip_names names hn
    refine ⟨l, ?_, h2, ?_⟩
    · exact h1
    · intro _ hh; exact h3 hh
  | succ k ih =>
    obtain ⟨l, h1, h2, _⟩ := ih
    have hnot : ¬ ∀ n ∈ List.replicate (k + 1) ['.', '.'] ++ names, Name n := by
      intro hh
      exact (hh ['.', '.'] (List.mem_append.mpr (Or.inl (by
        rw [List.replicate_succ]; exact List.mem_cons_self)))).2.2.1 rfl
    by_cases hnil : List.replicate k ['.', '.'] ++ names = []
    · refine ⟨[], ?_, (fun n hm => by cases hm), fun hh => absurd hh hnot⟩
      rw [List.replicate_succ, List.cons_append, hnil]
      rfl
    · refine ⟨l, ?_, h2, fun hh => absurd hh hnot⟩
      rw [List.replicate_succ, List.cons_append, joinWith_cons _ _ _ hnil]
      show ('.' :: '.' :: '/' :: joinWith ['/'] _).dropWhile isDotSlash = _
      rw [List.dropWhile_cons_of_pos (by decide), List.dropWhile_cons_of_pos (by decide),
        List.dropWhile_cons_of_pos (by decide)]
      exact h1

/-! ### Joining names -/

theorem name_head (n : Str) (h : Name n) : startsWith n ['/'] = false := by
  cases n with
  | nil => exact absurd rfl h.1
  | cons a t =>
    have ha : '/' ≠ a := fun e => h.2.2.2 (e ▸ List.mem_cons_self)
    show ('/' == a && _) = false
    rw [beq_eq_false_iff_ne.mpr ha]
    rfl

theorem endsWith_slash (s : Str) : endsWith s ['/'] = true ↔ ∃ t, s = t ++ ['/'] := by
  unfold endsWith
  rw [List.isSuffixOf_iff_suffix]
  constructor
  · rintro ⟨t, rfl⟩; exact ⟨t, rfl⟩
  · rintro ⟨t, rfl⟩; exact ⟨t, rfl⟩

theorem name_last (s n : Str) (h : Name n) : endsWith (s ++ n) ['/'] = false := by
  rw [← Bool.not_eq_true, endsWith_slash]
  rintro ⟨t, ht⟩
  rcases List.eq_nil_or_concat n with e | ⟨m, x, e⟩
  · exact h.1 e
  · rw [List.concat_eq_append] at e
    subst e
    rw [← List.append_assoc] at ht
    have hx : x = '/' := by
      have := congrArg List.getLast? ht
      rw [List.getLast?_concat, List.getLast?_concat] at this
      exact Option.some.inj this
    exact h.2.2.2 (List.mem_append.mpr (Or.inr (hx ▸ List.mem_cons_self)))

theorem join2_names (s n m : Str) (hn : Name n) (hm : Name m) :
    join2 (s ++ n) m = (s ++ n) ++ '/' :: m := by
  unfold join2
  rw [if_neg (by rw [name_head m hm]; simp), if_neg]
  rintro (e | e)
  · have := (List.append_eq_nil_iff.mp e).2
    exact hn.1 this
  · rw [name_last s n hn] at e; cases e

theorem joinAll_names (l : List Str) (h : ∀ n ∈ l, Name n) : joinAll l = joinWith ['/'] l := by
  have key : ∀ (rest : List Str) (s n : Str), Name n → (∀ m ∈ rest, Name m) →
      rest.foldl join2 (s ++ n) = s ++ joinWith ['/'] (n :: rest) := by
    intro rest
    induction rest with
    | nil => intro s n _ _; rfl
    | cons m t ih =>
      intro s n hn hr
      have hm := hr m List.mem_cons_self
      rw [List.foldl_cons, join2_names s n m hn hm]
      have e : s ++ n ++ '/' :: m = (s ++ n ++ ['/']) ++ m := by
        rw [List.append_assoc (s ++ n)]; rfl
      rw [e, ih _ m hm (fun x hx => hr x (List.mem_cons_of_mem _ hx))]
      rw [joinWith_cons ['/'] n (m :: t) (fun hh => by cases hh)]
      rw [List.append_assoc, List.append_assoc, List.append_assoc]
  cases l with
  | nil => rfl
  | cons n t =>
    have := key t [] n (h n List.mem_cons_self) (fun x hx => h x (List.mem_cons_of_mem _ hx))
    exact this

theorem joinWith_head (n : Str) (t : List Str) (hn : Name n) :
    startsWith (joinWith ['/'] (n :: t)) ['/'] = false ∧ joinWith ['/'] (n :: t) ≠ [] := by
  cases n with
  | nil => exact absurd rfl hn.1
  | cons a s =>
    have ha : '/' ≠ a := fun e => hn.2.2.2 (e ▸ List.mem_cons_self)
    have hex : ∃ u, joinWith ['/'] ((a :: s) :: t) = a :: u := by
      cases t with
      | nil => exact ⟨s, rfl⟩
      | cons b t => exact ⟨_, rfl⟩
    obtain ⟨u, hu⟩ := hex
    rw [hu]
    refine ⟨?_, (fun hh => by cases hh)⟩
    show ('/' == a && _) = false
    rw [beq_eq_false_iff_ne.mpr ha]
    rfl

theorem filter_names (l : List Str) (h : ∀ n ∈ l, Name n) :
    l.filter (fun c => c ≠ [] ∧ c ≠ ['.']) = l := by
  rw [List.filter_eq_self]
  intro n hn
  exact decide_eq_true ⟨(h n hn).1, (h n hn).2.1⟩

theorem notin_names (l : List Str) (h : ∀ n ∈ l, Name n) : ['.', '.'] ∉ l :=
  fun hm => (h _ hm).2.2.1 rfl

theorem split_names (l : List Str) (hne : l ≠ []) (h : ∀ n ∈ l, Name n) :
    splitOn '/' (joinWith ['/'] l) = l :=
  splitOn_joinWith '/' l hne (fun n hn => (h n hn).2.2.2)

/-- `normpath` of joined names. -/
theorem normpath_names (l : List Str) (hne : l ≠ []) (h : ∀ n ∈ l, Name n) :
    normpath (joinWith ['/'] l) = joinWith ['/'] l := by
  cases l with
  | nil => exact absurd rfl hne
  | cons n t =>
    obtain ⟨h1, h2⟩ := joinWith_head n t (h n List.mem_cons_self)
    unfold normpath slashes
    dsimp only
    rw [if_neg h2, h1, split_names _ hne h]
    unfold normComps
    rw [foldl_norm false _ [] (notin_names _ h), filter_names _ h]
    show (if joinWith ['/'] (n :: t) = [] then _ else joinWith ['/'] (n :: t)) = _
    rw [if_neg h2]

/-- The text of a list of names, as `get_path` gives it. -/
def text (l : List Str) : Str := if l = [] then ['.'] else joinWith ['/'] l

theorem text_end (l : List Str) (h : ∀ n ∈ l, Name n) :
    normpath (joinAll (splitOn '/' (joinWith ['/'] l))) = text l := by
  unfold text
  by_cases hne : l = []
  · subst hne; rfl
  · rw [if_neg hne, split_names l hne h, joinAll_names l h, normpath_names l hne h]

/-- What `normpath` leaves: leading slashes and the components, or a dot. -/
theorem normpath_text (p : Str) :
    ∃ pre acc, (∀ c ∈ pre, isDotSlash c = true) ∧
      acc = normComps (startsWith p ['/']) (splitOn '/' p) ∧
      normpath p = pre ++ joinWith ['/'] acc := by
  by_cases hp : p = []
  · subst hp
    exact ⟨['.'], [], by decide, rfl, rfl⟩
  · by_cases ho : List.replicate (slashes p) '/'
      ++ joinWith ['/'] (normComps (startsWith p ['/']) (splitOn '/' p)) = []
    · refine ⟨['.'], _, by decide, rfl, ?_⟩
      unfold normpath
      dsimp only
      rw [if_neg hp, if_pos ho, (List.append_eq_nil_iff.mp ho).2]
      rfl
    · refine ⟨List.replicate (slashes p) '/', _, ?_, rfl, ?_⟩
      · intro c hc
        rw [(List.mem_replicate.mp hc).2]
        rfl
      · unfold normpath
        dsimp only
        rw [if_neg hp, if_neg ho]

/-- The result of `get_path`: proper names, joined. -/
theorem getPath_shape (p : Str) :
    ∃ l : List Str, getPath p = text l ∧ (∀ n ∈ l, Name n) ∧
      ((∀ n ∈ normComps (startsWith p ['/']) (splitOn '/' p), Name n) →
        (∀ n ∈ (normComps (startsWith p ['/']) (splitOn '/' p)).head?, n.head? ≠ some '.') →
        l = normComps (startsWith p ['/']) (splitOn '/' p)) := by
  obtain ⟨pre, acc, h1, h2, h3⟩ := normpath_text p
  obtain ⟨l, hl1, hl2, hl3⟩ := lstrip_shape (startsWith p ['/']) acc
    (by rw [h2]; exact shape_comps _ _ (fun c hc => splitOn_no_sep '/' p c hc)) pre h1
  refine ⟨l, ?_, hl2, ?_⟩
  · unfold getPath lstrip
    rw [h3, hl1]
    exact text_end l hl2
  · rw [← h2]; exact hl3

theorem steps_text (l : List Str) (h : ∀ n ∈ l, Name n) : steps (text l) = l := by
  unfold text steps
  by_cases hne : l = []
  · subst hne; rfl
  · rw [if_neg hne, split_names l hne h, filter_names l h]

theorem split_text (l : List Str) (h : ∀ n ∈ l, Name n) :
    splitOn '/' (text l) = if l = [] then [['.']] else l := by
  unfold text
  by_cases hne : l = []
  · rw [if_pos hne, if_pos hne]; rfl
  · rw [if_neg hne, if_neg hne, split_names l hne h]

theorem text_relative (l : List Str) (h : ∀ n ∈ l, Name n) : startsWith (text l) ['/'] = false := by
  unfold text
  cases l with
  | nil => rfl
  | cons n t =>
    rw [if_neg (fun hh => by cases hh)]
    exact (joinWith_head n t (h n List.mem_cons_self)).1

/-! ### Absolute paths -/

theorem normComps_abs_names (cs : List Str) (h : ∀ c ∈ cs, '/' ∉ c) :
    ∀ n ∈ normComps true cs, Name n := by
  obtain ⟨k, names, e, hn, hk⟩ := shape_comps true cs h
  have := hk rfl
  subst this
  intro n hm
  rw [e] at hm
  exact hn n hm

theorem normpath_abs (s : Str) (hs : startsWith s ['/'] = true) :
    steps (normpath s) = normComps true (splitOn '/' s) ∧ startsWith (normpath s) ['/'] = true := by
  have hnames := normComps_abs_names (splitOn '/' s) (fun c hc => splitOn_no_sep '/' s c hc)
  have hne : s ≠ [] := by
    rintro rfl; cases hs
  have hsl : slashes s = 1 ∨ slashes s = 2 := by
    unfold slashes
    rw [hs]
    by_cases h : (startsWith s ['/', '/'] && !startsWith s ['/', '/', '/']) = true
    · right; rw [if_neg (by simp), if_pos h]
    · left; rw [if_neg (by simp), if_neg h]
  have hout : normpath s = List.replicate (slashes s) '/'
      ++ joinWith ['/'] (normComps true (splitOn '/' s)) := by
    unfold normpath
    dsimp only
    rw [if_neg hne, hs, if_neg]
    intro e
    have := (List.append_eq_nil_iff.mp e).1
    rcases hsl with h | h <;> rw [h] at this <;> cases this
  rw [hout]
  have hsteps : ∀ (t : Str), steps ('/' :: t) = steps t := by
    intro t
    unfold steps
    have : splitOn '/' ('/' :: t) = [] :: splitOn '/' t := rfl
    rw [this, List.filter_cons, if_neg (by simp)]
  have hj : steps (joinWith ['/'] (normComps true (splitOn '/' s)))
      = normComps true (splitOn '/' s) := by
    by_cases he : normComps true (splitOn '/' s) = []
    · rw [he]; rfl
    · unfold steps
      rw [split_names _ he hnames, filter_names _ hnames]
  rcases hsl with h | h
  · rw [h]
    refine ⟨?_, rfl⟩
    show steps ('/' :: joinWith ['/'] _) = _
    rw [hsteps, hj]
  · rw [h]
    refine ⟨?_, rfl⟩
    show steps ('/' :: '/' :: joinWith ['/'] _) = _
    rw [hsteps, hsteps, hj]

/-- Splitting a joined path. -/
theorem split_join2 (d p : Str) (hd : d ≠ []) (hp : startsWith p ['/'] = false) :
    ∃ ds, splitOn '/' (join2 d p) = ds ++ splitOn '/' p ∧
      (∀ (acc : List Str) , ds.foldl (normStep true) acc = (splitOn '/' d).foldl (normStep true) acc) ∧
      (∀ c ∈ ds, c ∈ splitOn '/' d) ∧
      ds.filter (fun c => c ≠ [] ∧ c ≠ ['.']) = (splitOn '/' d).filter (fun c => c ≠ [] ∧ c ≠ ['.']) := by
  unfold join2
  rw [if_neg (by rw [hp]; simp)]
  by_cases he : endsWith d ['/'] = true
  · rw [if_pos (Or.inr he)]
    obtain ⟨t, rfl⟩ := (endsWith_slash d).mp he
    refine ⟨splitOn '/' t, ?_, ?_, ?_, ?_⟩
    · rw [List.append_assoc]
      exact splitOn_append '/' t p
    · intro acc
      have : splitOn '/' (t ++ ['/']) = splitOn '/' t ++ [[]] := splitOn_append '/' t []
      rw [this, List.foldl_append]
      rfl
    · intro c hc
      have : splitOn '/' (t ++ ['/']) = splitOn '/' t ++ [[]] := splitOn_append '/' t []
      rw [this]
      exact List.mem_append.mpr (Or.inl hc)
    · have : splitOn '/' (t ++ ['/']) = splitOn '/' t ++ [[]] := splitOn_append '/' t []
      rw [this, List.filter_append]
      exact (List.append_nil _).symm
  · rw [if_neg (by rintro (e | e); exact hd e; exact he e)]
    exact ⟨splitOn '/' d, splitOn_append '/' d p, fun _ => rfl, fun _ h => h, rfl⟩

theorem join2_abs (d p : Str) (hd : startsWith d ['/'] = true) (hp : startsWith p ['/'] = false) :
    startsWith (join2 d p) ['/'] = true := by
  unfold join2
  rw [if_neg (by rw [hp]; simp)]
  cases d with
  | nil => cases hd
  | cons a t =>
    have ha : ('/' == a && true) = true := hd
    split
    · exact ha
    · exact ha

theorem join2_head (d p : Str) (hd : d ≠ []) (hp : startsWith p ['/'] = false) :
    startsWith (join2 d p) ['/'] = startsWith d ['/'] := by
  unfold join2
  rw [if_neg (by rw [hp]; simp)]
  cases d with
  | nil => exact absurd rfl hd
  | cons a t => split <;> rfl

/-- Joining a path without `..` to a directory appends its steps. -/
theorem steps_abspath (cwd d p : Str) (hcwd : startsWith cwd ['/'] = true) (hd : d ≠ [])
    (hp : startsWith p ['/'] = false) (hn : ['.', '.'] ∉ splitOn '/' p) :
    steps (abspath cwd (join2 d p)) = steps (abspath cwd d) ++ steps p ∧
    ['.', '.'] ∉ steps (abspath cwd (join2 d p)) := by
  have hfold : ∀ (ds : List Str) (acc : List Str),
      (ds ++ splitOn '/' p).foldl (normStep true) acc
        = ds.foldl (normStep true) acc ++ steps p := by
    intro ds acc
    rw [List.foldl_append, foldl_norm true _ _ hn]
    rfl
  obtain ⟨ds, h1, h2, _, _⟩ := split_join2 d p hd hp
  have hcne : cwd ≠ [] := by rintro rfl; cases hcwd
  unfold abspath
  rw [join2_head d p hd hp]
  by_cases ha : startsWith d ['/'] = true
  · rw [if_pos ha, if_pos ha]
    rw [(normpath_abs _ ((join2_head d p hd hp).trans ha)).1, (normpath_abs _ ha).1]
    refine ⟨?_, fun hm => ?_⟩
    · unfold normComps
      rw [h1, hfold, h2]
    · exact (normComps_abs_names _ (fun c hc => splitOn_no_sep '/' _ c hc) _ hm).2.2.1 rfl
  · rw [if_neg ha, if_neg ha]
    rw [Bool.not_eq_true] at ha
    have hj : startsWith (join2 d p) ['/'] = false := (join2_head d p hd hp).trans ha
    have habs1 : startsWith (join2 cwd (join2 d p)) ['/'] = true :=
      (join2_head cwd _ hcne hj).trans hcwd
    have habs2 : startsWith (join2 cwd d) ['/'] = true := (join2_head cwd _ hcne ha).trans hcwd
    rw [(normpath_abs _ habs1).1, (normpath_abs _ habs2).1]
    refine ⟨?_, fun hm => ?_⟩
    · obtain ⟨cs, k1, k2, _, _⟩ := split_join2 cwd (join2 d p) hcne hj
      obtain ⟨cs', k1', k2', _, _⟩ := split_join2 cwd d hcne ha
      unfold normComps
      rw [k1, k1', h1, ← List.append_assoc, hfold, List.foldl_append, List.foldl_append, k2, k2', h2]
    · exact (normComps_abs_names _ (fun c hc => splitOn_no_sep '/' _ c hc) _ hm).2.2.1 rfl

/-- Without links on the way nothing is resolved. -/
theorem resolve_nolinks (links : List Str → Option Str) (rest : List Str) :
    ∀ (n : Nat) (path : List Str), rest.length ≤ n → ['.', '.'] ∉ rest →
      (∀ q, q <+: path ++ rest.filter (fun c => c ≠ [] ∧ c ≠ ['.']) → links q = none) →
      resolve links n path rest = path ++ rest.filter (fun c => c ≠ [] ∧ c ≠ ['.']) := by
  induction rest with
  | nil =>
    intro n path _ _ _
    cases n with
    | zero => rfl
    | succ n => exact (List.append_nil _).symm
  | cons c t ih =>
    intro n path hn hd hl
    cases n with
    | zero => exact absurd hn (by simp)
    | succ n =>
      have hn' : t.length ≤ n := by simpa using hn
      have hc : c ≠ ['.', '.'] := fun e => hd (e ▸ List.mem_cons_self)
      have ht : ['.', '.'] ∉ t := fun hm => hd (List.mem_cons_of_mem _ hm)
      rw [resolve]
      by_cases he : c = [] ∨ c = ['.']
      · have hf : (c :: t).filter (fun c => c ≠ [] ∧ c ≠ ['.'])
            = t.filter (fun c => c ≠ [] ∧ c ≠ ['.']) := by
          rw [List.filter_cons, if_neg]
          intro hd
          have := of_decide_eq_true hd
          rcases he with e | e
          · exact this.1 e
          · exact this.2 e
        rw [if_pos he, hf]
        rw [hf] at hl
        exact ih n path hn' ht hl
      · have hf : (c :: t).filter (fun c => c ≠ [] ∧ c ≠ ['.'])
            = c :: t.filter (fun c => c ≠ [] ∧ c ≠ ['.']) := by
          rw [List.filter_cons, if_pos]
          exact decide_eq_true ⟨fun e => he (Or.inl e), fun e => he (Or.inr e)⟩
        rw [if_neg he, if_neg hc, hf]
        rw [hf] at hl
        have hassoc : path ++ c :: t.filter (fun c => c ≠ [] ∧ c ≠ ['.'])
            = path ++ [c] ++ t.filter (fun c => c ≠ [] ∧ c ≠ ['.']) := by
          rw [List.append_assoc]; rfl
        rw [hassoc] at hl ⊢
        rw [hl (path ++ [c]) (List.prefix_append _ _)]
        exact ih n (path ++ [c]) hn' ht hl

theorem steps_names (s : Str) (h : ['.', '.'] ∉ splitOn '/' s) : ∀ n ∈ steps s, Name n := by
  intro n hn
  unfold steps at hn
  obtain ⟨h1, h2⟩ := List.mem_filter.mp hn
  have := of_decide_eq_true h2
  exact ⟨this.1, this.2, (fun e => h (e ▸ h1)), splitOn_no_sep '/' s n h1⟩

theorem steps_realpath (links : List Str → Option Str) (fuel : Nat) (s : Str)
    (h : ['.', '.'] ∉ splitOn '/' s) (hf : (splitOn '/' s).length ≤ fuel)
    (hl : ∀ q, q <+: steps s → links q = none) :
    steps (realpath links fuel s) = steps s := by
  unfold realpath
  have hr : resolve links fuel [] (splitOn '/' s) = steps s :=
    resolve_nolinks links (splitOn '/' s) fuel [] hf h hl
  have hnames := steps_names s h
  rw [hr, (normpath_abs _ rfl).1]
  unfold normComps
  have hs : splitOn '/' ('/' :: joinWith ['/'] (steps s)) = [] :: splitOn '/' (joinWith ['/'] (steps s)) :=
    rfl
  rw [hs, List.foldl_cons]
  show (splitOn '/' (joinWith ['/'] (steps s))).foldl (normStep true) [] = _
  by_cases hne : steps s = []
  · rw [hne]; rfl
  · rw [split_names _ hne hnames, foldl_norm true _ _ (notin_names _ hnames), filter_names _ hnames]
    rfl

/-! ### Looking files up -/

theorem lookup_found (stat : Str → Kind) (cands : List Str) (f : Str) (k : Kind)
    (h : lookup stat cands = (f, k)) (hk : k ≠ .missing) :
    stat f = k ∧ ∃ before after, cands = before ++ f :: after ∧ ∀ x ∈ before, stat x = .missing := by
  induction cands with
  | nil =>
    unfold lookup at h
    exact absurd (Prod.mk.inj h).2.symm hk
  | cons a t ih =>
    unfold lookup at h
    by_cases ha : stat a = .missing
    · rw [if_pos ha] at h
      obtain ⟨h1, b, c, e, hb⟩ := ih h
      refine ⟨h1, a :: b, c, by rw [e]; rfl, ?_⟩
      intro x hx
      rcases List.mem_cons.mp hx with e1 | e1
      · rw [e1]; exact ha
      · exact hb x e1
    · rw [if_neg ha] at h
      obtain ⟨h1, h2⟩ := Prod.mk.inj h
      subst h1
      exact ⟨h2, [], t, rfl, (fun x hx => by cases hx)⟩

theorem lookup_of_found (stat : Str → Kind) (before after : List Str) (f : Str)
    (hb : ∀ x ∈ before, stat x = .missing) (hf : stat f ≠ .missing) :
    lookup stat (before ++ f :: after) = (f, stat f) := by
  induction before with
  | nil =>
    show lookup stat (f :: after) = _
    unfold lookup
    rw [if_neg hf]
  | cons a t ih =>
    show lookup stat (a :: (t ++ f :: after)) = _
    unfold lookup
    rw [if_pos (hb a List.mem_cons_self)]
    exact ih (fun x hx => hb x (List.mem_cons_of_mem _ hx))

/-! ### Entity tags -/

theorem mem_takeWhile {p : Char → Bool} {c : Char} {s : Str} (h : c ∈ s.takeWhile p) :
    p c = true := by
  induction s with
  | nil => cases h
  | cons a t ih =>
    by_cases ha : p a = true
    · rw [List.takeWhile_cons_of_pos ha] at h
      rcases List.mem_cons.mp h with e | e
      · rw [e]; exact ha
      · exact ih e
    · rw [List.takeWhile_cons_of_neg ha] at h
      cases h

theorem strip_decompose (p : Char → Bool) (s : Str) :
    ∃ a b, s = a ++ strip p s ++ b ∧ (∀ c ∈ a, p c = true) ∧ (∀ c ∈ b, p c = true) := by
  unfold strip rstrip lstrip
  refine ⟨s.takeWhile p, ((s.dropWhile p).reverse.takeWhile p).reverse, ?_, ?_, ?_⟩
  · have h1 := List.takeWhile_append_dropWhile (p := p) (l := s)
    have h2 := List.takeWhile_append_dropWhile (p := p) (l := (s.dropWhile p).reverse)
    have h3 := congrArg List.reverse h2
    rw [List.reverse_append, List.reverse_reverse] at h3
    rw [List.append_assoc, h3, h1]
  · exact fun c hc => mem_takeWhile hc
  · exact fun c hc => mem_takeWhile (List.mem_reverse.mp hc)

theorem dropWhile_all (p : Char → Bool) (s : Str) (h : ∀ c ∈ s, p c = true) : s.dropWhile p = [] := by
  induction s with
  | nil => rfl
  | cons a t ih =>
    rw [List.dropWhile_cons_of_pos (h a List.mem_cons_self)]
    exact ih (fun c hc => h c (List.mem_cons_of_mem _ hc))

theorem strip_around (p : Char → Bool) (a s b : Str) (ha : ∀ c ∈ a, p c = true)
    (hb : ∀ c ∈ b, p c = true) : strip p (a ++ s ++ b) = strip p s := by
  unfold strip rstrip lstrip
  rw [List.append_assoc, List.dropWhile_append_of_pos ha, List.dropWhile_append]
  by_cases he : (s.dropWhile p).isEmpty = true
  · rw [if_pos he, dropWhile_all p b hb]
    have : s.dropWhile p = [] := List.isEmpty_iff.mp he
    rw [this]
  · rw [if_neg he, List.reverse_append,
      List.dropWhile_append_of_pos (fun c hc => hb c (List.mem_reverse.mp hc))]

/-- Python's stripping finds the core of an item. -/
theorem strip_core (item : Str) (ht : '\t' ∉ item) :
    strip isWeakMark item = strip isWeakMark (core item) := by
  obtain ⟨a, b, he, ha, hb⟩ := strip_decompose isBlank item
  have hblank : ∀ c ∈ item, isBlank c = true → isWeakMark c = true := by
    intro c hc h
    have : c ≠ '\t' := fun e => ht (e ▸ hc)
    unfold isBlank at h
    unfold isWeakMark
    simp [this] at h
    simp [h]
  have ha' : ∀ c ∈ a, isWeakMark c = true := fun c hc =>
    hblank c (by rw [he]; exact List.mem_append.mpr (Or.inl (List.mem_append.mpr (Or.inl hc)))) (ha c hc)
  have hb' : ∀ c ∈ b, isWeakMark c = true := fun c hc =>
    hblank c (by rw [he]; exact List.mem_append.mpr (Or.inr hc)) (hb c hc)
  have h1 : strip isWeakMark item = strip isWeakMark (strip isBlank item) := by
    conv => lhs; rw [he]
    exact strip_around isWeakMark a _ b ha' hb'
  rw [h1]
  unfold core
  split
  · rename_i rest hr
    rw [hr]
    have := strip_around isWeakMark ['W', '/'] rest [] (by decide) (fun c hc => by cases hc)
    rw [List.append_nil] at this
    exact this
  · rfl

theorem tuple_order (a b : Date) (ha : a.Valid) (hb : b.Valid) :
    tupleGe a.tuple b.tuple = true ↔ b.position ≤ a.position := by
  obtain ⟨ha1, ha2, ha3, ha4, ha5⟩ := ha
  obtain ⟨hb1, hb2, hb3, hb4, hb5⟩ := hb
  unfold Date.tuple Date.position
  unfold tupleGe tupleGe tupleGe tupleGe tupleGe tupleGe tupleGe
  repeat' split
  all_goals first | (rw [decide_eq_true_iff]; omega) | (simp only [true_iff]; omega) | skip

theorem first_iff (stat : Str → Kind) (cands : List Str) (f : Str) (k : Kind) (hk : k ≠ .missing) :
    lookup stat cands = (f, k) ↔ First stat cands f ∧ stat f = k := by
  constructor
  · intro h
    obtain ⟨h1, b, a, e, hb⟩ := lookup_found stat cands f k h hk
    exact ⟨⟨b, a, e, hb, h1 ▸ hk⟩, h1⟩
  · rintro ⟨⟨b, a, e, hb, hf⟩, h1⟩
    rw [e, lookup_of_found stat b a f hb hf, h1]

theorem lookup_missing (stat : Str → Kind) (cands : List Str) (h : ∀ f ∈ cands, stat f = .missing) :
    lookup stat cands = ([], .missing) := by
  induction cands with
  | nil => rfl
  | cons f t ih =>
    unfold lookup
    rw [if_pos (h f List.mem_cons_self)]
    exact ih fun g hg => h g (List.mem_cons_of_mem _ hg)

theorem notFound_not_file (c : Conf) (stat : Str → Kind) (f : Str) : notFound c stat ≠ .file f := by
  unfold notFound
  dsimp only
  repeat' split
  all_goals exact (fun hh => by cases hh)

theorem lists_iff (list tag : Str) (h : PlainList list) :
    ((splitOn ',' list).map (strip isWeakMark)).contains tag = true ↔ Lists list tag := by
  rw [List.contains_iff_mem, List.mem_map]
  have ht : ∀ item ∈ splitOn ',' list, '\t' ∉ item := by
    intro item hi hm
    apply h.1
    rw [← joinWith_splitOn ',' list]
    have key : ∀ (l : List Str) (x : Str), x ∈ l → '\t' ∈ x → '\t' ∈ joinWith [','] l := by
      intro l
      induction l with
      | nil => intro x hx; cases hx
      | cons a t ih =>
        intro x hx hxt
        cases t with
        | nil =>
          rcases List.mem_cons.mp hx with e | e
          · rw [e] at hxt; exact hxt
          · cases e
        | cons b t =>
          rw [joinWith_cons _ _ _ (fun hh => by cases hh)]
          rcases List.mem_cons.mp hx with e | e
          · rw [e] at hxt
            exact List.mem_append.mpr (Or.inl (List.mem_append.mpr (Or.inl hxt)))
          · exact List.mem_append.mpr (Or.inr (ih x e hxt))
    exact key _ item hi hm
  constructor
  · rintro ⟨item, hi, he⟩
    refine ⟨item, hi, ?_⟩
    rw [← h.2 item hi, ← strip_core item (ht item hi)]
    exact he
  · rintro ⟨item, hi, he⟩
    refine ⟨item, hi, ?_⟩
    rw [strip_core item (ht item hi), h.2 item hi]
    exact he

theorem getPath_ne (p : Str) : getPath p ≠ [] := by
  obtain ⟨l, h1, h2, _⟩ := getPath_shape p
  rw [h1]
  unfold text
  cases l with
  | nil => exact (fun hh => by cases hh)
  | cons n t =>
    rw [if_neg (fun hh => by cases hh)]
    exact (joinWith_head n t (h2 n List.mem_cons_self)).2

theorem index_path (path : Str) (hne : path ≠ []) (h1 : NoParent path) (h2 : Relative path) :
    NoParent (join2 path "index.html".toList) ∧ Relative (join2 path "index.html".toList) := by
  obtain ⟨ds, k1, _, k3, _⟩ := split_join2 path "index.html".toList hne (by decide)
  constructor
  · unfold NoParent
    rw [k1]
    intro hm
    rcases List.mem_append.mp hm with h | h
    · exact h1 (k3 _ h)
    · exact absurd h (by decide +kernel)
  · unfold Relative at h2 ⊢
    cases path with
    | nil => exact absurd rfl hne
    | cons a t =>
      unfold join2
      rw [if_neg (by decide)]
      split
      · exact h2
      · exact h2

theorem notFoundPage_first (c : Conf) (stat : Str → Kind) (method : Str) (sl : Bool) (path f : Str)
    (h : getResponse c stat method sl path = .notFoundPage f) :
    First stat (c.full "404.html".toList) f := by
  have key : notFound c stat = .notFoundPage f → First stat (c.full "404.html".toList) f := by
    unfold notFound
    dsimp only
    intro h
    split at h
    · cases h
    · split at h
      · split at h
        · rename_i hk
          cases h
          exact ((first_iff stat _ _ .regular (fun hh => by cases hh)).mp
            (by rw [← hk])).1
        · split at h <;> cases h
      · cases h
  unfold getResponse index at h
  dsimp only at h
  repeat' split at h
  all_goals first | exact key h | cases h

end Verif.StaticFiles
