import Verif.RelayCookies.Model
import Verif.RelayCookies.Spec
import Verif.Cors.Lemmas
import Verif.Ranges.Lemmas

namespace Verif.RelayCookies

open Spec

theorem dropWhile_idem (p : Char → Bool) (s : Str) :
    (s.dropWhile p).dropWhile p = s.dropWhile p := by
  induction s with
  | nil => rfl
  | cons c cs ih =>
    by_cases h : p c = true
    · rw [List.dropWhile_cons_of_pos h]; exact ih
    · rw [List.dropWhile_cons_of_neg h, List.dropWhile_cons_of_neg h]

theorem head_dropWhile (p : Char → Bool) (s : Str) (c : Char) (cs : Str)
    (h : s.dropWhile p = c :: cs) : p c = false := by
  induction s with
  | nil => cases h
  | cons x xs ih =>
    by_cases hx : p x = true
    · rw [List.dropWhile_cons_of_pos hx] at h; exact ih h
    · rw [List.dropWhile_cons_of_neg hx] at h
      cases h
      exact Bool.not_eq_true _ ▸ hx

theorem rstrip_prefix (p : Char → Bool) (s : Str) : rstrip p s <+: s := by
  unfold rstrip
  have : s.reverse.dropWhile p <:+ s.reverse := List.dropWhile_suffix p
  have := List.reverse_prefix.mpr this
  rwa [List.reverse_reverse] at this

theorem strip_idem (p : Char → Bool) (s : Str) : strip p (strip p s) = strip p s := by
  have hl : lstrip p (strip p s) = strip p s := by
    unfold strip
    cases ht : lstrip p s with
    | nil => rfl
    | cons c cs =>
      have hc : p c = false := head_dropWhile p s c cs ht
      have hp := rstrip_prefix p (c :: cs)
      cases hr : rstrip p (c :: cs) with
      | nil => rfl
      | cons x xs =>
        rw [hr] at hp
        obtain ⟨t, ht'⟩ := hp
        cases ht'
        show (c :: xs).dropWhile p = c :: xs
        rw [List.dropWhile_cons_of_neg (by rw [hc]; simp)]
  have hr : ∀ t, rstrip p (rstrip p t) = rstrip p t := by
    intro t
    unfold rstrip
    rw [List.reverse_reverse, dropWhile_idem]
  show rstrip p (lstrip p (strip p s)) = _
  rw [hl]
  exact hr _

theorem strip_mem (p : Char → Bool) (s : Str) (c : Char) (h : c ∈ strip p s) : c ∈ s :=
  (List.dropWhile_suffix p).subset ((rstrip_prefix p _).subset h)

theorem strip_space (s : Str) : strip isSpace (' ' :: s) = strip isSpace s := by
  unfold strip lstrip
  rw [List.dropWhile_cons_of_pos (by decide)]

/-- What the parts of a cookie look like. -/
def Clean (p : Str) : Prop := ';' ∉ p ∧ strip isSpace p = p

theorem pieces_clean (c : Str) : ∀ p ∈ pieces c, Clean p := by
  intro p hp
  obtain ⟨q, hq, rfl⟩ := List.mem_map.mp hp
  exact ⟨fun h => splitOn_no_sep ';' c q hq (strip_mem _ _ _ h), strip_idem _ _⟩

theorem splitOn_joined (ps : List Str) (h : ∀ p ∈ ps, ';' ∉ p) :
    ∀ (p : Str), ';' ∉ p →
      splitOn ';' (joinWith "; ".toList (p :: ps)) = p :: ps.map (fun q => ' ' :: q) := by
  induction ps with
  | nil => intro p hp; exact splitOn_of_not_mem ';' p hp
  | cons q qs ih =>
    intro p hp
    have h1 : joinWith "; ".toList (p :: q :: qs)
        = p ++ ';' :: (' ' :: joinWith "; ".toList (q :: qs)) := by
      rw [joinWith]
      show p ++ [';', ' '] ++ _ = _
      rw [List.append_assoc]; rfl
    have hq : ';' ∉ (' ' :: q) := by
      intro hm
      rcases List.mem_cons.mp hm with e | e
      · exact absurd e (by decide)
      · exact h q List.mem_cons_self e
    have h2 : ' ' :: joinWith "; ".toList (q :: qs) = joinWith "; ".toList ((' ' :: q) :: qs) := by
      cases qs with
      | nil => rfl
      | cons r rs => rfl
    rw [h1, splitOn_append_sep ';' p _ hp, h2,
      ih (fun r hr => h r (List.mem_cons_of_mem _ hr)) (' ' :: q) hq]
    rfl

theorem pieces_joined (p : Str) (ps : List Str) (h : ∀ q ∈ p :: ps, Clean q) :
    pieces (joinWith "; ".toList (p :: ps)) = p :: ps := by
  unfold pieces
  rw [splitOn_joined ps (fun q hq => (h q (List.mem_cons_of_mem _ hq)).1) p
    (h p List.mem_cons_self).1, List.map_cons, (h p List.mem_cons_self).2, List.map_map]
  congr 1
  have : ∀ q ∈ ps, (strip isSpace ∘ fun q => ' ' :: q) q = q := by
    intro q hq
    show strip isSpace (' ' :: q) = q
    rw [strip_space]
    exact (h q (List.mem_cons_of_mem _ hq)).2
  rw [List.map_congr_left this, List.map_id']

theorem isDomainPart_iff (p : Str) : isDomainPart p = true ↔ Usual p := by
  unfold isDomainPart startsWith Usual
  rw [List.isPrefixOf_iff_prefix]
  have htake : ∀ s : Str, lower (s.take 7) = (lower s).take 7 := by
    intro s; unfold lower; rw [List.map_take]
  rw [htake, List.prefix_iff_eq_take]
  exact eq_comm

theorem lower_eq_char (c : Char) (h : c.toLower = '=') : c = '=' := by
  by_cases hlt : c.toNat < 128
  · have key : ∀ n < 128, (Char.ofNat n).toLower = '=' → Char.ofNat n = '=' := by decide +kernel
    have := key c.toNat hlt
    rw [Char.ofNat_toNat] at this
    exact this h
  · have : c.toLower = c := by
      unfold Char.toLower
      rw [dif_neg]
      rintro ⟨_, h2⟩
      have : c.toNat ≤ 'Z'.toNat := h2
      have hZ : 'Z'.toNat = 90 := rfl
      omega
    rw [← this]; exact h

theorem usual_shape (a : Str) (h : Usual a) :
    ∃ w rest, a = w ++ '=' :: rest ∧ lower w = "domain".toList := by
  unfold Usual at h
  refine ⟨a.take 6, a.drop 7, ?_, ?_⟩
  · have h7 : (a.take 7).map Char.toLower = "domain=".toList := h
    have hlen : 7 ≤ a.length := by
      have := congrArg List.length h7
      rw [List.length_map, List.length_take] at this
      have h77 : ("domain=".toList).length = 7 := by decide
      omega
    have hget : a.take 7 = a.take 6 ++ [a[6]'(by omega)] :=
      List.take_succ_eq_append_getElem (by omega)
    rw [hget, List.map_append] at h7
    have h6 : ((a.take 6).map Char.toLower).length = 6 := by
      rw [List.length_map, List.length_take]; omega
    have : [(a[6]'(by omega)).toLower] = ['='] := by
      have hd := congrArg (List.drop 6) h7
      rw [List.drop_append_of_le_length (by omega), List.drop_of_length_le (by omega)] at hd
      exact hd
    have hc := lower_eq_char _ (List.cons.inj this).1
    have hsplit : a = a.take 7 ++ a.drop 7 := (List.take_append_drop 7 a).symm
    rw [hget, hc, List.append_assoc] at hsplit
    exact hsplit
  · have : lower (a.take 6) = (lower (a.take 7)).take 6 := by
      unfold lower
      rw [← List.map_take, List.take_take]
      rfl
    rw [this, h]
    decide

theorem domain_word (w : Str) (h : lower w = "domain".toList) :
    '=' ∉ w ∧ ∀ c ∈ w, isSpace c = false := by
  constructor
  · intro hm
    have : '='.toLower ∈ lower w := List.mem_map_of_mem hm
    rw [h] at this
    exact absurd this (by decide)
  · intro c hc
    rw [← Verif.Cors.isSpace_toLower]
    have : c.toLower ∈ lower w := List.mem_map_of_mem hc
    rw [h] at this
    have key : ∀ x ∈ "domain".toList, isSpace x = false := by decide
    exact key _ this

theorem takeWhile_eq (w rest : Str) (h : '=' ∉ w) :
    (w ++ '=' :: rest).takeWhile (fun c => c ≠ '=') = w := by
  induction w with
  | nil => rfl
  | cons x xs ih =>
    have hx : x ≠ '=' := fun e => h (e ▸ List.mem_cons_self)
    rw [List.cons_append, List.takeWhile_cons, if_pos (decide_eq_true hx),
      ih (fun hm => h (List.mem_cons_of_mem _ hm))]

theorem dropWhile_eq (w rest : Str) (h : '=' ∉ w) :
    (w ++ '=' :: rest).dropWhile (fun c => c ≠ '=') = '=' :: rest := by
  induction w with
  | nil => rfl
  | cons x xs ih =>
    have hx : x ≠ '=' := fun e => h (e ▸ List.mem_cons_self)
    rw [List.cons_append, List.dropWhile_cons, if_pos (decide_eq_true hx),
      ih (fun hm => h (List.mem_cons_of_mem _ hm))]

theorem usual_isDomain (a : Str) (h : Usual a) : IsDomain a := by
  obtain ⟨w, rest, rfl, hw⟩ := usual_shape a h
  obtain ⟨h1, h2⟩ := domain_word w hw
  unfold IsDomain attrName
  rw [takeWhile_eq w rest h1, Verif.Ranges.strip_id isSpace w h2, hw]

theorem domainPart_facts (d : Str) : Usual (domainPart d) ∧ attrValue (domainPart d) = strip isSpace d := by
  constructor
  · unfold Usual domainPart
    rfl
  · unfold attrValue
    have : domainPart d = "Domain".toList ++ '=' :: d := rfl
    rw [this, dropWhile_eq _ d (by decide)]
    rfl

theorem strip_nonspace_cons (x : Char) (s : Str) (hx : isSpace x = false)
    (hs : strip isSpace s = s) : strip isSpace (x :: s) = x :: s := by
  have hl : lstrip isSpace (x :: s) = x :: s := by
    unfold lstrip
    rw [List.dropWhile_cons_of_neg (by rw [hx]; simp)]
  have hr : rstrip isSpace s = s := by
    have h1 : (rstrip isSpace (lstrip isSpace s)).length = s.length := congrArg List.length hs
    have h2 : lstrip isSpace s = s := by
      have h3 : lstrip isSpace s <:+ s := List.dropWhile_suffix _
      refine h3.eq_of_length ?_
      have := (rstrip_prefix isSpace (lstrip isSpace s)).length_le
      have := h3.length_le
      omega
    have h4 : rstrip isSpace (lstrip isSpace s) = s := hs
    rwa [h2] at h4
  unfold strip
  rw [hl]
  unfold rstrip at hr ⊢
  rw [List.reverse_cons]
  cases hrev : s.reverse.dropWhile isSpace with
  | nil =>
    rw [hrev] at hr
    have : s = [] := hr.symm
    subst this
    show ([x].dropWhile isSpace).reverse = [x]
    rw [List.dropWhile_cons_of_neg (by rw [hx]; simp)]
    rfl
  | cons y ys =>
    rw [List.dropWhile_append, hrev]
    rw [if_neg (by simp)]
    rw [hrev] at hr
    rw [List.reverse_append, hr]
    rfl

theorem domainPart_clean (d : Str) (hd : PlainDomain d) : Clean (domainPart d) := by
  constructor
  · intro h
    unfold domainPart at h
    rcases List.mem_append.mp h with h | h
    · exact absurd h (by decide)
    · exact hd.2.1 h
  · have key : ∀ (w : Str), (∀ c ∈ w, isSpace c = false) → strip isSpace (w ++ d) = w ++ d := by
      intro w
      induction w with
      | nil => intro _; exact hd.2.2
      | cons x xs ih =>
        intro h
        exact strip_nonspace_cons x _ (h x List.mem_cons_self)
          (ih (fun c hc => h c (List.mem_cons_of_mem _ hc)))
    exact key _ (by decide)

/-- The parts of a cookie with a name. -/
theorem parts_eq (c : Str) (h : pair c ≠ []) : parts c = pair c :: attributes c := by
  unfold parts pair attributes at *
  have : (splitOn ';' c).map (strip isSpace) = pieces c := rfl
  rw [this]
  cases hp : pieces c with
  | nil => rw [hp] at h; exact absurd rfl h
  | cons x xs =>
    rw [hp] at h
    have hx : x ≠ [] := h
    rw [List.filter_cons, if_pos (decide_eq_true hx)]
    rfl

theorem attributes_clean (c : Str) : ∀ a ∈ attributes c, Clean a ∧ a ≠ [] := by
  intro a ha
  unfold attributes at ha
  rw [List.mem_filter] at ha
  exact ⟨pieces_clean c a (List.mem_of_mem_tail ha.1), of_decide_eq_true ha.2⟩

theorem pair_clean (c : Str) : Clean (pair c) := by
  unfold pair
  cases hp : pieces c with
  | nil => exact ⟨List.not_mem_nil, rfl⟩
  | cons x xs => exact pieces_clean c x (by rw [hp]; exact List.mem_cons_self)

/-- Reading a cookie back from its parts. -/
theorem read_back (p : Str) (as : List Str) (hp : Clean p) (has : ∀ a ∈ as, Clean a ∧ a ≠ []) :
    pair (joinWith "; ".toList (p :: as)) = p ∧
    attributes (joinWith "; ".toList (p :: as)) = as := by
  have h := pieces_joined p as (by
    intro q hq
    rcases List.mem_cons.mp hq with e | e
    · exact e ▸ hp
    · exact (has q e).1)
  unfold pair attributes
  rw [h]
  refine ⟨rfl, ?_⟩
  rw [List.tail_cons, List.filter_eq_self]
  intro a ha
  exact decide_eq_true (has a ha).2

/-- In a plain cookie the code recognises exactly the `Domain` attributes. -/
theorem recognises (c : Str) (hc : PlainCookie c) :
    isDomainPart (pair c) = false ∧ ∀ a ∈ attributes c, (isDomainPart a = true ↔ IsDomain a) := by
  constructor
  · rw [← Bool.not_eq_true, isDomainPart_iff]
    intro h
    exact hc.2.1 (usual_isDomain _ h)
  · intro a ha
    rw [isDomainPart_iff]
    exact ⟨usual_isDomain a, hc.2.2 a ha⟩

/-- The attributes written. -/
def newAttributes (d : Str) (as : List Str) : List Str :=
  as.filterMap (rewritePart d) ++ (if !(as.any isDomainPart) ∧ d ≠ [] then [domainPart d] else [])

theorem rewriteCookie_eq (c d : Str) (hc : PlainCookie c) :
    rewriteCookie (some d) c = joinWith "; ".toList (pair c :: newAttributes d (attributes c)) := by
  unfold rewriteCookie
  dsimp only
  rw [parts_eq c hc.1]
  have hp := (recognises c hc).1
  unfold rewriteParts newAttributes
  rw [List.filterMap_cons, List.any_cons, hp, Bool.false_or]
  have : rewritePart d (pair c) = some (pair c) := by
    unfold rewritePart
    rw [hp]
    rfl
  rw [this]
  rfl

theorem mem_newAttributes (d : Str) (as : List Str) (a : Str) (h : a ∈ newAttributes d as) :
    (a = domainPart d ∧ d ≠ []) ∨ (a ∈ as ∧ isDomainPart a = false) := by
  unfold newAttributes at h
  rcases List.mem_append.mp h with h | h
  · rw [List.mem_filterMap] at h
    obtain ⟨b, hb, he⟩ := h
    unfold rewritePart at he
    by_cases h1 : isDomainPart b = true
    · rw [if_pos h1] at he
      by_cases h2 : d ≠ []
      · rw [if_pos h2] at he
        cases he
        exact Or.inl ⟨rfl, h2⟩
      · rw [if_neg h2] at he
        cases he
    · rw [if_neg h1] at he
      cases he
      exact Or.inr ⟨hb, Bool.not_eq_true _ ▸ h1⟩
  · split at h
    · rename_i hh
      rcases List.mem_cons.mp h with e | e
      · exact Or.inl ⟨e, hh.2⟩
      · cases e
    · cases h

theorem filter_newAttributes (d : Str) (as : List Str)
    (h : ∀ a ∈ as, (isDomainPart a = true ↔ IsDomain a)) :
    (newAttributes d as).filter (fun a => ¬ IsDomain a) = as.filter (fun a => ¬ IsDomain a) := by
  have hdp : IsDomain (domainPart d) := usual_isDomain _ (domainPart_facts d).1
  unfold newAttributes
  rw [List.filter_append]
  have htail : (if !(as.any isDomainPart) ∧ d ≠ [] then [domainPart d] else []).filter
      (fun a => ¬ IsDomain a) = [] := by
    split
    · rw [List.filter_cons, if_neg (by simp [hdp])]; rfl
    · rfl
  rw [htail, List.append_nil]
  clear htail
  induction as with
  | nil => rfl
  | cons a as ih =>
    have ih' := ih (fun b hb => h b (List.mem_cons_of_mem _ hb))
    have ha := h a List.mem_cons_self
    rw [List.filterMap_cons]
    by_cases h1 : isDomainPart a = true
    · have hdom := ha.mp h1
      have hr : ((a :: as).filter (fun a => ¬ IsDomain a)) = as.filter (fun a => ¬ IsDomain a) := by
        rw [List.filter_cons, if_neg (by simp [hdom])]
      rw [hr]
      by_cases h2 : d ≠ []
      · have e : rewritePart d a = some (domainPart d) := by
          unfold rewritePart
          rw [if_pos h1, if_pos h2]
        rw [e]
        dsimp only
        rw [List.filter_cons, if_neg (by simp [hdp])]
        exact ih'
      · have e : rewritePart d a = none := by
          unfold rewritePart
          rw [if_pos h1, if_neg h2]
        rw [e]
        exact ih'
    · have hnd : ¬ IsDomain a := fun hh => h1 (ha.mpr hh)
      have e : rewritePart d a = some a := by
        unfold rewritePart
        rw [if_neg h1]
      rw [e]
      dsimp only
      have hr : ∀ l : List Str, ((a :: l).filter (fun a => ¬ IsDomain a))
          = a :: l.filter (fun a => ¬ IsDomain a) := by
        intro l
        rw [List.filter_cons, if_pos (by simp [hnd])]
      rw [hr, hr, ih']

end Verif.RelayCookies
