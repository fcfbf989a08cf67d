import Verif.SetCookie.Spec
import Verif.Cookies.Lemmas
import Verif.Responses.Lemmas
import Verif.Url.Lemmas

/-!
# Lemmas on `set_cookie`
-/

namespace Verif.SetCookie

open Verif Verif.Responses Spec
open Verif.Cookies.Spec (Trimmed Legal)

theorem strip_none (p : Char → Bool) (s : Str) (h1 : ∀ c, s.head? = some c → p c = false)
    (h2 : ∀ c, s.getLast? = some c → p c = false) : strip p s = s := by
  have e1 : lstrip p s = s := by
    unfold lstrip
    cases s with
    | nil => rfl
    | cons c t => rw [List.dropWhile_cons, if_neg (by rw [h1 c rfl]; exact Bool.false_ne_true)]
  unfold strip
  rw [e1]
  unfold rstrip
  have : s.reverse.dropWhile p = s.reverse := by
    rw [List.getLast?_eq_head?_reverse] at h2
    cases h : s.reverse with
    | nil => rfl
    | cons c t =>
      rw [List.dropWhile_cons, if_neg]
      rw [h2 c (by rw [h]; rfl)]
      exact Bool.false_ne_true
  rw [this, List.reverse_reverse]

theorem strip_space (p : Char → Bool) (s : Str) (hp : p ' ' = true)
    (h1 : ∀ c, s.head? = some c → p c = false) (h2 : ∀ c, s.getLast? = some c → p c = false) :
    strip p (' ' :: s) = s := by
  have : strip p (' ' :: s) = strip p s := by
    unfold strip lstrip
    rw [List.dropWhile_cons, if_pos hp]
  rw [this, strip_none p s h1 h2]

theorem wsp_of_space (c : Char) (h : isSpace c = false) : (decide (c = ' ') || decide (c = '\t')) = false := by
  by_cases h1 : c = ' '
  · subst h1; exact absurd h (by decide)
  · by_cases h2 : c = '\t'
    · subst h2; exact absurd h (by decide)
    · simp [h1, h2]

theorem trim_trimmed (s : Str) (h : Trimmed s) : trim s = s :=
  strip_none _ s (fun c hc => wsp_of_space c (h.1 c hc)) (fun c hc => wsp_of_space c (h.2 c hc))

theorem trim_space (s : Str) (h : Trimmed s) : trim (' ' :: s) = s :=
  strip_space _ s (by decide) (fun c hc => wsp_of_space c (h.1 c hc)) (fun c hc => wsp_of_space c (h.2 c hc))

/-- A name, an equals sign and a value. -/
theorem pair_eq (n v : Str) (hn : '=' ∉ n) : pair (n ++ '=' :: v) = (trim n, trim v) := by
  unfold pair
  have h : ∀ x ∈ n, decide (x ≠ '=') = true := by
    intro x hx
    simp only [decide_eq_true_eq]
    intro e; exact hn (e ▸ hx)
  rw [Url.takeWhile_stop _ _ _ _ h (by decide), Url.dropWhile_stop _ _ _ _ h (by decide)]
  rfl

theorem trim_nil : trim [] = [] := rfl

theorem pair_flag (n : Str) (hn : '=' ∉ n) : pair n = (trim n, []) := by
  unfold pair
  have h : ∀ x ∈ n, decide (x ≠ '=') = true := by
    intro x hx
    simp only [decide_eq_true_eq]
    intro e; exact hn (e ▸ hx)
  rw [Url.takeWhile_all _ _ h, Url.dropWhile_all _ _ h]
  rfl

theorem joinWith_semi (p : Str) (ps : List Str) :
    joinWith "; ".toList (p :: ps) = joinWith [';'] (p :: ps.map (' ' :: ·)) := by
  induction ps generalizing p with
  | nil => rfl
  | cons q ps ih =>
    rw [joinWith, ih q]
    show _ = p ++ [';'] ++ joinWith [';'] ((' ' :: q) :: ps.map (' ' :: ·))
    have : joinWith [';'] ((' ' :: q) :: ps.map (' ' :: ·)) = ' ' :: joinWith [';'] (q :: ps.map (' ' :: ·)) := by
      cases ps with
      | nil => rfl
      | cons r ps => rfl
    rw [this, List.append_assoc, List.append_assoc]
    rfl

/-- A part of the field: not empty, trimmed, without a semicolon. -/
def Part (p : Str) : Prop := p ≠ [] ∧ Trimmed p ∧ ';' ∉ p

theorem joinWith_trimmed (p : Str) (ps : List Str) (h : ∀ q ∈ p :: ps, Part q) :
    joinWith "; ".toList (p :: ps) ≠ [] ∧ Trimmed (joinWith "; ".toList (p :: ps)) := by
  induction ps generalizing p with
  | nil => exact ⟨(h p (by simp)).1, (h p (by simp)).2.1⟩
  | cons q ps ih =>
    obtain ⟨h1, h2⟩ := ih q fun r hr => h r (List.mem_cons_of_mem _ hr)
    have hp := h p (by simp)
    rw [joinWith]
    refine ⟨by simp [hp.1], ?_, ?_⟩
    · intro c hc
      rw [List.append_assoc, List.head?_append] at hc
      cases hpp : p.head? with
      | none => exact absurd (List.head?_eq_none_iff.mp hpp) hp.1
      | some d =>
        rw [hpp] at hc
        exact hp.2.1.1 c (by rw [hpp]; simpa using hc)
    · intro c hc
      rw [List.getLast?_append] at hc
      cases hl : (joinWith "; ".toList (q :: ps)).getLast? with
      | none => exact absurd (List.getLast?_eq_none_iff.mp hl) h1
      | some d =>
        rw [hl] at hc
        exact h2.2 c (by rw [hl]; simpa using hc)

/-- The parts of the field come apart again. -/
theorem splitOn_field (p : Str) (ps : List Str) (h : ∀ q ∈ p :: ps, Part q) :
    splitOn ';' (strip isSpace (' ' :: joinWith "; ".toList (p :: ps))) = p :: ps.map (' ' :: ·) := by
  obtain ⟨h1, h2⟩ := joinWith_trimmed p ps h
  rw [strip_space isSpace _ (by decide) h2.1 h2.2, joinWith_semi]
  apply splitOn_joinWith
  · simp
  · intro q hq
    rcases List.mem_cons.mp hq with e | hq
    · rw [e]; exact (h p (by simp)).2.2
    · obtain ⟨r, hr, rfl⟩ := List.mem_map.mp hq
      intro hm
      rcases List.mem_cons.mp hm with e | hm
      · exact absurd e (by decide)
      · exact (h r (List.mem_cons_of_mem _ hr)).2.2 hm

theorem trimmed_append (a b : Str) (ha : Trimmed a) (hna : a ≠ []) (hb : Trimmed b) (hnb : b ≠ []) (c : Char) :
    Trimmed (a ++ c :: b) := by
  constructor
  · intro d hd
    rw [List.head?_append] at hd
    cases h : a.head? with
    | none => exact absurd (List.head?_eq_none_iff.mp h) hna
    | some e =>
      rw [h] at hd
      exact ha.1 d (by rw [h]; simpa using hd)
  · intro d hd
    rw [List.getLast?_append, List.getLast?_cons] at hd
    cases h : b.getLast? with
    | none => exact absurd (List.getLast?_eq_none_iff.mp h) hnb
    | some e =>
      rw [h] at hd
      exact hb.2 d (by rw [h]; simpa using hd)

theorem part_attr (n v : Str) (hn : Part n) (hv : Clean v) (hne : v ≠ []) : Part (n ++ '=' :: v) := by
  refine ⟨by simp, trimmed_append n v hn.2.1 hn.1 hv.2 hne '=', ?_⟩
  intro hm
  rcases List.mem_append.mp hm with hm | hm
  · exact hn.2.2 hm
  · rcases List.mem_cons.mp hm with e | hm
    · exact absurd e (by decide)
    · exact hv.1 hm

theorem parts_attr (n : Str) (v : Option Str) (hn : Part n) (hv : ∀ s, v = some s → Clean s) :
    ∀ q ∈ attr n v, Part q := by
  intro q hq
  unfold attr at hq
  match v, hv, hq with
  | none, _, hq => exact absurd hq (by simp)
  | some [], _, hq => exact absurd hq (by simp)
  | some (c :: t), hv, hq =>
    simp only [List.mem_singleton] at hq
    rw [hq]
    exact part_attr n _ hn (hv _ rfl) (by simp)

theorem parts_flag (n : Str) (b : Bool) (hn : Part n) : ∀ q ∈ flag n b, Part q := by
  intro q hq
  unfold flag at hq
  cases b with
  | true => rw [List.mem_singleton.mp hq]; exact hn
  | false => exact absurd hq (by simp)

/-- What the client makes of a list of attributes. -/
def readAttrs (ps : List Str) : List (Str × Str) :=
  (ps.map (' ' :: ·)).map fun av => (lower (pair av).1, (pair av).2)

theorem readAttrs_append (a b : List Str) : readAttrs (a ++ b) = readAttrs a ++ readAttrs b := by
  simp [readAttrs]

/-- The attribute of a name, in the form of a list. -/
def optAttr (k : Str) (v : Option Str) : List (Str × Str) :=
  match given v with
  | some s => [(k, s)]
  | none => []

theorem readAttrs_attr (n k : Str) (v : Option Str) (hl : lower n = k) (ht : Trimmed n) (he : '=' ∉ n)
    (hv : ∀ s, v = some s → Clean s) : readAttrs (attr n v) = optAttr k v := by
  match v, hv with
  | none, _ => rfl
  | some [], _ => rfl
  | some (c :: t), hv =>
    show [(lower (pair ((' ' :: n) ++ '=' :: (c :: t))).1, (pair ((' ' :: n) ++ '=' :: (c :: t))).2)] = _
    rw [pair_eq _ _ (by
      intro hm
      rcases List.mem_cons.mp hm with e | hm
      · exact absurd e (by decide)
      · exact he hm), trim_space n ht, trim_trimmed _ (hv _ rfl).2, hl]
    rfl

/-- The flag of a name, in the form of a list. -/
def optFlag (k : Str) (b : Bool) : List (Str × Str) := if b then [(k, [])] else []

theorem readAttrs_flag (n k : Str) (b : Bool) (hl : lower n = k) (ht : Trimmed n) (he : '=' ∉ n) :
    readAttrs (flag n b) = optFlag k b := by
  cases b with
  | false => rfl
  | true =>
    show [(lower (pair (' ' :: n)).1, (pair (' ' :: n)).2)] = [(k, [])]
    rw [pair_flag _ (by
      intro hm
      rcases List.mem_cons.mp hm with e | hm
      · exact absurd e (by decide)
      · exact he hm), trim_space n ht, hl]

theorem part_lit (n : Str) (h1 : n ≠ []) (h2 : ∀ c ∈ n, isSpace c = false) (h3 : ';' ∉ n) : Part n :=
  ⟨h1, ⟨fun c hc => h2 c (List.mem_of_mem_head? hc), fun c hc => h2 c (List.mem_of_getLast? hc)⟩, h3⟩

theorem digit_not_space : ∀ c ∈ "0123456789".toList, isSpace c = false ∧ c ≠ ';' := by decide

theorem clean_intText (n : Int) : Clean (intText n) ∧ intText n ≠ [] := by
  have key : ∀ m : Nat, ∀ c ∈ Path.natToDec m, isSpace c = false ∧ c ≠ ';' := by
    intro m c hc
    have := (Path.natToDec_spec m).1.2 c hc
    unfold Path.Spec.Digit at this
    exact digit_not_space c this
  have hall : ∀ c ∈ intText n, isSpace c = false ∧ c ≠ ';' := by
    unfold intText
    split
    · intro c hc
      rcases List.mem_cons.mp hc with e | hc
      · rw [e]; decide
      · exact key _ c hc
    · exact key _
  refine ⟨⟨fun hm => (hall _ hm).2 rfl, fun c hc => (hall c (List.mem_of_mem_head? hc)).1,
    fun c hc => (hall c (List.mem_of_getLast? hc)).1⟩, ?_⟩
  unfold intText
  split
  · simp
  · exact (Path.natToDec_spec _).1.1

theorem samesite_clean (s : Option Str) (h : SameSite s) : ∀ v, s = some v → Clean v := by
  intro v hv
  have hsp : ∀ c : Char, c.toLower ∈ "strictlaxnone".toList → isSpace c = false ∧ c ≠ ';' := by
    intro c hc
    constructor
    · cases hs : isSpace c with
      | false => rfl
      | true =>
        exfalso
        have hne : ¬ ('A' ≤ c ∧ c ≤ 'Z') := by
          rintro ⟨h1, h2⟩
          have h1 : 65 ≤ c.toNat := h1
          have h2 : c.toNat ≤ 90 := h2
          unfold isSpace at hs
          simp only [Bool.or_eq_true, Bool.and_eq_true, decide_eq_true_eq] at hs
          omega
        have : c.toLower = c := by
          unfold Char.toLower
          rw [dif_neg]
          rintro ⟨h1, h2⟩
          exact hne ⟨h1, h2⟩
        rw [this] at hc
        have key : ∀ d ∈ "strictlaxnone".toList, isSpace d = false := by decide
        rw [key c hc] at hs
        cases hs
    · rintro rfl
      exact absurd hc (by decide)
  have hall : ∀ c ∈ v, isSpace c = false ∧ c ≠ ';' := by
    intro c hc
    apply hsp
    have hm : c.toLower ∈ lower v := List.mem_map.mpr ⟨c, hc, rfl⟩
    rcases h v hv with e | e | e <;> rw [e] at hm
    · exact (by decide : ∀ d ∈ "strict".toList, d ∈ "strictlaxnone".toList) _ hm
    · exact (by decide : ∀ d ∈ "lax".toList, d ∈ "strictlaxnone".toList) _ hm
    · exact (by decide : ∀ d ∈ "none".toList, d ∈ "strictlaxnone".toList) _ hm
  exact ⟨fun hm => (hall _ hm).2 rfl, fun c hc => (hall c (List.mem_of_mem_head? hc)).1,
    fun c hc => (hall c (List.mem_of_getLast? hc)).1⟩

theorem map_clean {α : Type} (v : Option α) (f : α → Str) (h : ∀ a, v = some a → Clean (f a)) :
    ∀ s, v.map f = some s → Clean s := by
  intro s hs
  cases v with
  | none => cases hs
  | some a => rw [← Option.some.inj hs]; exact h a rfl

theorem part_domain : Part "Domain".toList := part_lit _ (by decide) (by decide) (by decide)
theorem part_expires : Part "expires".toList := part_lit _ (by decide) (by decide) (by decide)
theorem part_httponly : Part "HttpOnly".toList := part_lit _ (by decide) (by decide) (by decide)
theorem part_maxage : Part "Max-Age".toList := part_lit _ (by decide) (by decide) (by decide)
theorem part_path : Part "Path".toList := part_lit _ (by decide) (by decide) (by decide)
theorem part_samesite : Part "SameSite".toList := part_lit _ (by decide) (by decide) (by decide)
theorem part_secure : Part "Secure".toList := part_lit _ (by decide) (by decide) (by decide)

theorem parts_attrs (date : Int → Str) (o : Opts) (h : CleanOpts date o) (hs : SameSite o.samesite) :
    ∀ q ∈ attrs date o, Part q := by
  intro q hq
  unfold attrs at hq
  simp only [List.mem_append] at hq
  rcases hq with (((((hq | hq) | hq) | hq) | hq) | hq) | hq
  · exact parts_attr _ _ part_domain h.2.1 q hq
  · exact parts_attr _ _ part_expires (map_clean _ _ h.2.2) q hq
  · exact parts_flag _ _ part_httponly q hq
  · exact parts_attr _ _ part_maxage (map_clean _ _ fun n _ => (clean_intText n).1) q hq
  · exact parts_attr _ _ part_path h.1 q hq
  · exact parts_attr _ _ part_samesite (samesite_clean _ hs) q hq
  · exact parts_flag _ _ part_secure q hq

theorem readAttrs_attrs (date : Int → Str) (o : Opts) (h : CleanOpts date o) (hs : SameSite o.samesite) :
    readAttrs (attrs date o) =
      optAttr "domain".toList o.domain ++ optAttr "expires".toList (o.expires.map (expiresText date)) ++
      optFlag "httponly".toList o.httponly ++ optAttr "max-age".toList (o.maxAge.map intText) ++
      optAttr "path".toList o.path ++ optAttr "samesite".toList o.samesite ++
      optFlag "secure".toList o.secure := by
  unfold attrs
  rw [readAttrs_append, readAttrs_append, readAttrs_append, readAttrs_append, readAttrs_append,
    readAttrs_append,
    readAttrs_attr _ "domain".toList _ (by decide) part_domain.2.1 (by decide) h.2.1,
    readAttrs_attr _ "expires".toList _ (by decide) part_expires.2.1 (by decide) (map_clean _ _ h.2.2),
    readAttrs_flag _ "httponly".toList _ (by decide) part_httponly.2.1 (by decide),
    readAttrs_attr _ "max-age".toList _ (by decide) part_maxage.2.1 (by decide)
      (map_clean _ _ fun n _ => (clean_intText n).1),
    readAttrs_attr _ "path".toList _ (by decide) part_path.2.1 (by decide) h.1,
    readAttrs_attr _ "samesite".toList _ (by decide) part_samesite.2.1 (by decide) (samesite_clean _ hs),
    readAttrs_flag _ "secure".toList _ (by decide) part_secure.2.1 (by decide)]

/-- Look up in a list of attributes. -/
def find (l : List (Str × Str)) (k : Str) : Option Str := ((l.filter fun kv => kv.1 = k).getLast?).map (·.2)

theorem find_append_absent (a b : List (Str × Str)) (k : Str) (h : ∀ kv ∈ b, kv.1 ≠ k) :
    find (a ++ b) k = find a k := by
  unfold find
  have hb : b.filter (fun kv => decide (kv.1 = k)) = [] := List.filter_eq_nil_iff.mpr (by simpa using h)
  rw [List.filter_append, hb, List.append_nil]

theorem find_absent_append (a b : List (Str × Str)) (k : Str) (h : ∀ kv ∈ a, kv.1 ≠ k) :
    find (a ++ b) k = find b k := by
  unfold find
  have hb : a.filter (fun kv => decide (kv.1 = k)) = [] := List.filter_eq_nil_iff.mpr (by simpa using h)
  rw [List.filter_append, hb, List.nil_append]

theorem find_optAttr (k : Str) (v : Option Str) : find (optAttr k v) k = given v := by
  unfold optAttr
  cases given v with
  | none => rfl
  | some s => simp [find]

theorem find_optFlag (k : Str) (b : Bool) : find (optFlag k b) k = if b then some [] else none := by
  cases b with
  | false => rfl
  | true => simp [find, optFlag]

theorem optAttr_name (k : Str) (v : Option Str) : ∀ kv ∈ optAttr k v, kv.1 = k := by
  unfold optAttr
  cases given v <;> simp

theorem optFlag_name (k : Str) (b : Bool) : ∀ kv ∈ optFlag k b, kv.1 = k := by
  cases b <;> simp [optFlag]

theorem optAttr_ne (k k' : Str) (v : Option Str) (h : k ≠ k') : ∀ kv ∈ optAttr k v, kv.1 ≠ k' :=
  fun kv hkv e => h ((optAttr_name k v kv hkv).symm.trans e)

theorem optFlag_ne (k k' : Str) (b : Bool) (h : k ≠ k') : ∀ kv ∈ optFlag k b, kv.1 ≠ k' :=
  fun kv hkv e => h ((optFlag_name k b kv hkv).symm.trans e)

theorem legal_part (key v : Str) (h : Legal key) : Part (key ++ '=' :: Cookies.quote v) := by
  have hl := Cookies.legal_all _ h.2
  have hk : Part key := by
    refine ⟨h.1, Cookies.legal_trimmed _ hl, ?_⟩
    intro hm
    have := List.all_eq_true.mp hl _ hm
    exact absurd this (by decide)
  apply part_attr key _ hk
  · exact ⟨Cookies.quote_no_semi v, Cookies.quote_trimmed v⟩
  · unfold Cookies.quote
    split
    · rename_i hq; exact hq.1
    · simp

theorem samesiteOk_of (s : Option Str) (h : SameSite s) : samesiteOk s = true := by
  unfold samesiteOk
  cases s with
  | none => rfl
  | some v =>
    have := h v rfl
    simp only [List.mem_cons, List.not_mem_nil, or_false, decide_eq_true_eq]
    exact this

theorem cookieValue_eq (date : Int → Str) (key value : Str) (o : Opts) (hn : Name key)
    (hs : SameSite o.samesite) : cookieValue date key value o =
      some (strip isSpace (' ' :: joinWith "; ".toList ((key ++ '=' :: Cookies.quote value) :: attrs date o))) := by
  have hr : lower key ∉ reserved := hn.2
  unfold cookieValue
  rw [if_neg hr, if_neg, if_neg]
  · rw [samesiteOk_of _ hs]; exact fun h => h rfl
  · rintro (h | h)
    · exact hn.1.1 h
    · exact h (Cookies.legal_all _ hn.1.2)

theorem seen_eq (date : Int → Str) (key value : Str) (o : Opts) (hn : Name key) (h : CleanOpts date o)
    (hs : SameSite o.samesite) :
    seen (strip isSpace (' ' :: joinWith "; ".toList ((key ++ '=' :: Cookies.quote value) :: attrs date o))) =
      some ⟨key, Cookies.quote value, readAttrs (attrs date o)⟩ := by
  have hl := Cookies.legal_all _ hn.1.2
  have hne : '=' ∉ key := by
    intro hm
    have := List.all_eq_true.mp hl _ hm
    exact absurd this (by decide)
  have hp : pair (key ++ '=' :: Cookies.quote value) = (key, Cookies.quote value) := by
    rw [pair_eq _ _ hne, trim_trimmed _ (Cookies.legal_trimmed _ hl), trim_trimmed _ (Cookies.quote_trimmed value)]
  unfold seen
  rw [splitOn_field _ _ (by
    intro q hq
    rcases List.mem_cons.mp hq with e | hq
    · rw [e]; exact legal_part key value hn.1
    · exact parts_attrs date o h hs q hq)]
  simp only
  rw [hp, if_pos ⟨by simp, hn.1.1⟩]
  rfl

theorem seconds_intText (n : Int) : seconds (intText n) = some n := by
  have hd : ∀ m : Nat, (∀ d ∈ Path.natToDec m, '0' ≤ d ∧ d ≤ '9') ∧ Path.natToDec m ≠ [] ∧
      (Path.natToDec m).foldl (fun n d => 10 * n + (d.toNat - 48)) 0 = m := by
    intro m
    have h := number_natToDec m
    unfold Responses.Spec.number at h
    split at h
    · rename_i h1
      exact ⟨h1.2, h1.1, Option.some.inj h⟩
    · cases h
  unfold intText
  split
  · rename_i hn
    obtain ⟨h1, -, h3⟩ := hd n.natAbs
    unfold seconds
    simp only
    rw [if_pos trivial, if_pos h1, h3]
    congr 1
    omega
  · rename_i hn
    obtain ⟨h1, h2, h3⟩ := hd n.natAbs
    cases hc : Path.natToDec n.natAbs with
    | nil => exact absurd hc h2
    | cons c t =>
      rw [hc] at h1 h3
      unfold seconds
      simp only
      rw [if_neg, if_pos h1, h3]
      · congr 1
        omega
      · rintro rfl
        exact absurd (h1 '-' (by simp)).1 (by decide)

/-- The attributes seen by the client. -/
theorem get_attrs (date : Int → Str) (o : Opts) (h : CleanOpts date o) (hs : SameSite o.samesite) :
    find (readAttrs (attrs date o)) "domain".toList = given o.domain ∧
    find (readAttrs (attrs date o)) "expires".toList = given (o.expires.map (expiresText date)) ∧
    find (readAttrs (attrs date o)) "httponly".toList = (if o.httponly then some [] else none) ∧
    find (readAttrs (attrs date o)) "max-age".toList = o.maxAge.map intText ∧
    find (readAttrs (attrs date o)) "path".toList = given o.path ∧
    find (readAttrs (attrs date o)) "samesite".toList = given o.samesite ∧
    find (readAttrs (attrs date o)) "secure".toList = (if o.secure then some [] else none) := by
  rw [readAttrs_attrs date o h hs]
  have hm : given (o.maxAge.map intText) = o.maxAge.map intText := by
    cases hm : o.maxAge with
    | none => rfl
    | some n =>
      unfold given
      rw [Option.map_some, Option.filter_some, if_pos (by simpa using (clean_intText n).2)]
  refine ⟨?_, ?_, ?_, ?_, ?_, ?_, ?_⟩
  · rw [find_append_absent _ _ _ (optFlag_ne _ _ _ (by decide)),
      find_append_absent _ _ _ (optAttr_ne _ _ _ (by decide)),
      find_append_absent _ _ _ (optAttr_ne _ _ _ (by decide)),
      find_append_absent _ _ _ (optAttr_ne _ _ _ (by decide)),
      find_append_absent _ _ _ (optFlag_ne _ _ _ (by decide)),
      find_append_absent _ _ _ (optAttr_ne _ _ _ (by decide)), find_optAttr]
  · rw [find_append_absent _ _ _ (optFlag_ne _ _ _ (by decide)),
      find_append_absent _ _ _ (optAttr_ne _ _ _ (by decide)),
      find_append_absent _ _ _ (optAttr_ne _ _ _ (by decide)),
      find_append_absent _ _ _ (optAttr_ne _ _ _ (by decide)),
      find_append_absent _ _ _ (optFlag_ne _ _ _ (by decide)),
      find_absent_append _ _ _ (optAttr_ne _ _ _ (by decide)), find_optAttr]
  · rw [find_append_absent _ _ _ (optFlag_ne _ _ _ (by decide)),
      find_append_absent _ _ _ (optAttr_ne _ _ _ (by decide)),
      find_append_absent _ _ _ (optAttr_ne _ _ _ (by decide)),
      find_append_absent _ _ _ (optAttr_ne _ _ _ (by decide)), List.append_assoc,
      find_absent_append _ _ _ (optAttr_ne _ _ _ (by decide)),
      find_absent_append _ _ _ (optAttr_ne _ _ _ (by decide)), find_optFlag]
  · rw [find_append_absent _ _ _ (optFlag_ne _ _ _ (by decide)),
      find_append_absent _ _ _ (optAttr_ne _ _ _ (by decide)),
      find_append_absent _ _ _ (optAttr_ne _ _ _ (by decide)), List.append_assoc, List.append_assoc,
      find_absent_append _ _ _ (optAttr_ne _ _ _ (by decide)),
      find_absent_append _ _ _ (optAttr_ne _ _ _ (by decide)),
      find_absent_append _ _ _ (optFlag_ne _ _ _ (by decide)), find_optAttr, hm]
  · rw [find_append_absent _ _ _ (optFlag_ne _ _ _ (by decide)),
      find_append_absent _ _ _ (optAttr_ne _ _ _ (by decide)), List.append_assoc, List.append_assoc,
      List.append_assoc,
      find_absent_append _ _ _ (optAttr_ne _ _ _ (by decide)),
      find_absent_append _ _ _ (optAttr_ne _ _ _ (by decide)),
      find_absent_append _ _ _ (optFlag_ne _ _ _ (by decide)),
      find_absent_append _ _ _ (optAttr_ne _ _ _ (by decide)), find_optAttr]
  · rw [find_append_absent _ _ _ (optFlag_ne _ _ _ (by decide)), List.append_assoc, List.append_assoc,
      List.append_assoc, List.append_assoc,
      find_absent_append _ _ _ (optAttr_ne _ _ _ (by decide)),
      find_absent_append _ _ _ (optAttr_ne _ _ _ (by decide)),
      find_absent_append _ _ _ (optFlag_ne _ _ _ (by decide)),
      find_absent_append _ _ _ (optAttr_ne _ _ _ (by decide)),
      find_absent_append _ _ _ (optAttr_ne _ _ _ (by decide)), find_optAttr]
  · rw [List.append_assoc, List.append_assoc, List.append_assoc, List.append_assoc, List.append_assoc,
      find_absent_append _ _ _ (optAttr_ne _ _ _ (by decide)),
      find_absent_append _ _ _ (optAttr_ne _ _ _ (by decide)),
      find_absent_append _ _ _ (optFlag_ne _ _ _ (by decide)),
      find_absent_append _ _ _ (optAttr_ne _ _ _ (by decide)),
      find_absent_append _ _ _ (optAttr_ne _ _ _ (by decide)),
      find_absent_append _ _ _ (optAttr_ne _ _ _ (by decide)), find_optFlag]

/-- No other attributes. -/
theorem names_attrs (date : Int → Str) (o : Opts) (h : CleanOpts date o) (hs : SameSite o.samesite) :
    ∀ kv ∈ readAttrs (attrs date o), kv.1 ∈ ["domain".toList, "expires".toList, "httponly".toList,
      "max-age".toList, "path".toList, "samesite".toList, "secure".toList] := by
  rw [readAttrs_attrs date o h hs]
  intro kv hkv
  simp only [List.mem_append] at hkv
  rcases hkv with (((((hq | hq) | hq) | hq) | hq) | hq) | hq
  · rw [optAttr_name _ _ kv hq]; decide
  · rw [optAttr_name _ _ kv hq]; decide
  · rw [optFlag_name _ _ kv hq]; decide
  · rw [optAttr_name _ _ kv hq]; decide
  · rw [optAttr_name _ _ kv hq]; decide
  · rw [optAttr_name _ _ kv hq]; decide
  · rw [optFlag_name _ _ kv hq]; decide

theorem given_ne (v : Option Str) : given v ≠ some [] := by
  unfold given
  intro h
  have := Option.filter_eq_some_iff.mp h
  exact absurd this.2 (by decide)

end Verif.SetCookie
