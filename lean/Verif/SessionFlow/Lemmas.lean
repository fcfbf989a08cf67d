import Verif.SessionFlow.Spec
import Verif.Session.Lemmas
import Verif.SetCookie.Lemmas

/-!
# Lemmas on the cookie of a session
-/

namespace Verif.SessionFlow

open Verif Verif.Session Verif.SessionFlow.Spec
open Verif.SetCookie (Part readAttrs readAttrs_append find find_append_absent find_absent_append optFlag optFlag_ne
  find_optFlag part_lit)
open Verif.SetCookie.Spec (Clean seen pair seconds)
open Verif.Cookies.Spec (Trimmed Legal)

/-! ## The text -/

theorem joinWith_flat (sep p : Str) (ps : List Str) : joinWith sep (p :: ps) = p ++ ps.flatMap (sep ++ ·) := by
  induction ps generalizing p with
  | nil => simp [joinWith]
  | cons q ps ih => rw [joinWith, ih q, List.flatMap_cons]; simp [List.append_assoc]

/-- The value between quotes. -/
def quoted (v : Str) : Str := '"' :: v ++ ['"']

/-- The attribute for the age. -/
def ageParts : Option Int → List Str
  | some n => if n = 0 then [] else ["Max-Age".toList ++ '=' :: SetCookie.intText n]
  | none => []

/-- The attribute for the domain. -/
def domainParts : Option Str → List Str
  | some d => ["domain".toList ++ '=' :: d]
  | none => []

/-- The flags as attributes. -/
def flagParts (s : Site) : List Str :=
  ["httponly".toList] ++ ["samesite".toList ++ '=' :: s.sameSite] ++ SetCookie.flag "secure".toList s.httpsOnly ++
    domainParts s.domain

theorem flags_eq (s : Site) :
    "; ".toList ++ s.flags = (flagParts s).flatMap ("; ".toList ++ ·) := by
  have e1 : "httponly; samesite=".toList = "httponly".toList ++ ("; ".toList ++ ("samesite".toList ++ ['='])) := by
    decide
  have e2 : ∀ b, secureText b = (SetCookie.flag "secure".toList b).flatMap ("; ".toList ++ ·) := by decide
  have e3 : ∀ d, domainText d = (domainParts d).flatMap ("; ".toList ++ ·) := by
    intro d
    cases d with
    | none => rfl
    | some d =>
      have : "; domain=".toList = "; ".toList ++ ("domain".toList ++ ['=']) := by decide
      unfold domainText domainParts
      simp only [this, List.flatMap_cons, List.flatMap_nil, List.append_nil, List.append_assoc, List.cons_append,
        List.nil_append]
  unfold Site.flags flagParts
  rw [e1, e2, e3]
  simp only [List.flatMap_append, List.flatMap_cons, List.append_assoc, List.cons_append, List.nil_append]

theorem age_eq (m : Option Int) (r : Str) :
    "; ".toList ++ (ageText m ++ r) = (ageParts m).flatMap ("; ".toList ++ ·) ++ ("; ".toList ++ r) := by
  have e : "Max-Age=".toList = "Max-Age".toList ++ ['='] := by decide
  cases m with
  | none => rfl
  | some n =>
    simp only [ageText, ageParts]
    by_cases h : n = 0
    · rw [if_pos h, if_pos h]; rfl
    · rw [if_neg h, if_neg h, e]
      simp only [List.flatMap_cons, List.flatMap_nil, List.append_nil, List.append_assoc, List.cons_append,
        List.nil_append]

theorem field_eq (s : Site) (now : Nat) (x : Sess) :
    s.field now x = joinWith "; ".toList ((s.name ++ '=' :: quoted (s.signer.sign now x)) ::
      (["path".toList ++ '=' :: s.path] ++ ageParts s.maxAge ++ flagParts s)) := by
  have e1 : "=\"".toList = ['=', '"'] := by decide
  have e2 : "\"; path=".toList = '"' :: ("; ".toList ++ ("path".toList ++ ['='])) := by decide
  rw [joinWith_flat]
  simp only [List.flatMap_append, ← flags_eq, List.append_assoc, ← age_eq]
  unfold Site.field quoted
  rw [e1, e2]
  simp only [List.flatMap_cons, List.flatMap_nil, List.append_nil, List.append_assoc, List.cons_append,
    List.nil_append]

theorem ending_eq (s : Site) :
    s.ending = joinWith "; ".toList ((s.name ++ '=' :: "null".toList) ::
      (["path".toList ++ '=' :: s.path] ++ ["expires".toList ++ '=' :: "Thu, 01 Jan 1970 00:00:00 GMT".toList] ++
        flagParts s)) := by
  have e1 : "=null; path=".toList = '=' :: ("null".toList ++ ("; ".toList ++ ("path".toList ++ ['=']))) := by decide
  have e2 : "; expires=Thu, 01 Jan 1970 00:00:00 GMT; ".toList =
      "; ".toList ++ ("expires".toList ++ ('=' :: ("Thu, 01 Jan 1970 00:00:00 GMT".toList ++ "; ".toList))) := by decide
  rw [joinWith_flat]
  simp only [List.flatMap_append, ← flags_eq, List.append_assoc]
  unfold Site.ending
  rw [e1, e2]
  simp only [List.flatMap_cons, List.flatMap_nil, List.append_nil, List.append_assoc, List.cons_append,
    List.nil_append]

/-! ## How it is read -/

theorem part_eq (n v : Str) (hn : Part n) (hv : Clean v) : Part (n ++ '=' :: v) := by
  by_cases h : v = []
  · subst h
    refine ⟨by simp, ⟨?_, ?_⟩, ?_⟩
    · intro c hc
      rw [List.head?_append] at hc
      cases hh : n.head? with
      | none => exact absurd (List.head?_eq_none_iff.mp hh) hn.1
      | some d => rw [hh] at hc; exact hn.2.1.1 c (by rw [hh]; simpa using hc)
    · intro c hc
      rw [List.getLast?_append] at hc
      injection hc with hc
      subst hc; decide
    · intro hm
      rcases List.mem_append.mp hm with hm | hm
      · exact hn.2.2 hm
      · exact absurd hm (by decide)
  · exact SetCookie.part_attr n v hn hv h

theorem readAttr (n k v : Str) (hl : lower n = k) (ht : Trimmed n) (he : '=' ∉ n) (hv : Clean v) :
    readAttrs [n ++ '=' :: v] = [(k, v)] := by
  show [(lower (pair ((' ' :: n) ++ '=' :: v)).1, (pair ((' ' :: n) ++ '=' :: v)).2)] = _
  rw [SetCookie.pair_eq _ _ (by
    intro hm
    rcases List.mem_cons.mp hm with e | hm
    · exact absurd e (by decide)
    · exact he hm), SetCookie.trim_space n ht, SetCookie.trim_trimmed _ hv.2, hl]

/-- A field made of parts. -/
theorem seen_parts (name v : Str) (ps : List Str) (hn : Legal name) (hv : Clean v) (hp : ∀ q ∈ ps, Part q) :
    seen (joinWith "; ".toList ((name ++ '=' :: v) :: ps)) = some ⟨name, v, readAttrs ps⟩ := by
  have hl := Cookies.legal_all _ hn.2
  have hchar : ∀ ch, Cookies.legal ch = false → ch ∉ name := by
    intro ch hch hm
    rw [List.all_eq_true.mp hl _ hm] at hch
    cases hch
  have hpn : Part name := ⟨hn.1, Cookies.legal_trimmed _ hl, hchar _ (by decide)⟩
  have hall : ∀ q ∈ (name ++ '=' :: v) :: ps, Part q := by
    intro q hq
    rcases List.mem_cons.mp hq with e | hq
    · rw [e]; exact part_eq _ _ hpn hv
    · exact hp q hq
  obtain ⟨_, ht⟩ := SetCookie.joinWith_trimmed _ _ hall
  have hs := SetCookie.splitOn_field _ _ hall
  rw [SetCookie.strip_space isSpace _ (by decide) ht.1 ht.2] at hs
  have hp : pair (name ++ '=' :: v) = (name, v) := by
    rw [SetCookie.pair_eq _ _ (hchar _ (by decide)), SetCookie.trim_trimmed _ hpn.2.1, SetCookie.trim_trimmed _ hv.2]
  unfold seen
  rw [hs]
  simp only
  rw [hp, if_pos ⟨by simp, hn.1⟩]
  rfl

/-- The attribute for the age, as it is read. -/
def ageAttrs : Option Int → List (Str × Str)
  | some n => if n = 0 then [] else [("max-age".toList, SetCookie.intText n)]
  | none => []

/-- The attribute for the domain, as it is read. -/
def domainAttrs : Option Str → List (Str × Str)
  | some d => [("domain".toList, d)]
  | none => []

/-- The flags, as they are read. -/
def flagAttrs (s : Site) : List (Str × Str) :=
  [("httponly".toList, [])] ++ [("samesite".toList, s.sameSite)] ++ optFlag "secure".toList s.httpsOnly ++
    domainAttrs s.domain

theorem part_of (n : Str) (h : n ≠ [] ∧ (∀ c ∈ n, isSpace c = false) ∧ ';' ∉ n) : Part n := part_lit n h.1 h.2.1 h.2.2

theorem part_httponly : Part "httponly".toList := part_of _ (by decide)
theorem part_samesite : Part "samesite".toList := part_of _ (by decide)
theorem part_secure : Part "secure".toList := part_of _ (by decide)
theorem part_domain : Part "domain".toList := part_of _ (by decide)
theorem part_path : Part "path".toList := part_of _ (by decide)
theorem part_age : Part "Max-Age".toList := part_of _ (by decide)
theorem part_expires : Part "expires".toList := part_of _ (by decide)
theorem clean_date : Clean "Thu, 01 Jan 1970 00:00:00 GMT".toList :=
  ⟨by decide, ⟨fun c hc => by injection hc with hc; subst hc; decide,
    fun c hc => by injection hc with hc; subst hc; decide⟩⟩
theorem clean_null : Clean "null".toList :=
  ⟨by decide, ⟨fun c hc => by injection hc with hc; subst hc; decide,
    fun c hc => by injection hc with hc; subst hc; decide⟩⟩

theorem read_flags (s : Site) (hs : Sane s) :
    readAttrs (flagParts s) = flagAttrs s ∧ ∀ q ∈ flagParts s, Part q := by
  obtain ⟨-, -, h3, h4, -⟩ := hs
  unfold flagParts flagAttrs
  have hd : readAttrs (domainParts s.domain) = domainAttrs s.domain ∧ ∀ q ∈ domainParts s.domain, Part q := by
    cases hd : s.domain with
    | none => exact ⟨rfl, fun q hq => nomatch hq⟩
    | some d =>
      refine ⟨readAttr _ _ _ (by decide) part_domain.2.1 (by decide) (h4 d hd), ?_⟩
      intro q hq
      rw [List.mem_singleton.mp hq]
      exact part_eq _ _ part_domain (h4 d hd)
  constructor
  · have e1 : readAttrs ["httponly".toList] = [("httponly".toList, [])] := by decide
    rw [readAttrs_append, readAttrs_append, readAttrs_append, hd.1,
      readAttr _ "samesite".toList _ (by decide) part_samesite.2.1 (by decide) h3, e1,
      SetCookie.readAttrs_flag _ "secure".toList _ (by decide) part_secure.2.1 (by decide)]
  · intro q hq
    rcases List.mem_append.mp hq with hq | hq
    · rcases List.mem_append.mp hq with hq | hq
      · rcases List.mem_append.mp hq with hq | hq
        · rw [List.mem_singleton.mp hq]; exact part_httponly
        · rw [List.mem_singleton.mp hq]; exact part_eq _ _ part_samesite h3
      · exact SetCookie.parts_flag _ _ part_secure q hq
    · exact hd.2 q hq

theorem clean_quoted (s : Site) (ht : Timed s) (t : Nat) (x : Sess) : Clean (quoted (s.signer.sign t x)) := by
  have := quoted_ok _ (ht.clean t x)
  exact ⟨(this _ rfl).2, (this _ rfl).1⟩

/-- The field for a session, as it is read. -/
theorem seen_field (s : Site) (hs : Sane s) (ht : Timed s) (now : Nat) (x : Sess) :
    seen (s.field now x) = some ⟨s.name, quoted (s.signer.sign now x),
      [("path".toList, s.path)] ++ ageAttrs s.maxAge ++ flagAttrs s⟩ := by
  obtain ⟨hf1, hf2⟩ := read_flags s hs
  have ha : readAttrs (ageParts s.maxAge) = ageAttrs s.maxAge ∧ ∀ q ∈ ageParts s.maxAge, Part q := by
    cases s.maxAge with
    | none => exact ⟨rfl, fun q hq => nomatch hq⟩
    | some n =>
      simp only [ageParts, ageAttrs]
      by_cases hn : n = 0
      · rw [if_pos hn, if_pos hn]; exact ⟨rfl, fun q hq => nomatch hq⟩
      · rw [if_neg hn, if_neg hn]
        refine ⟨readAttr _ _ _ (by decide) part_age.2.1 (by decide) (SetCookie.clean_intText n).1, ?_⟩
        intro q hq
        rw [List.mem_singleton.mp hq]
        exact part_eq _ _ part_age (SetCookie.clean_intText n).1
  rw [field_eq, seen_parts _ _ _ hs.1 (clean_quoted s ht now x), readAttrs_append, readAttrs_append, hf1, ha.1,
    readAttr _ "path".toList _ (by decide) part_path.2.1 (by decide) hs.2.1]
  intro q hq
  rcases List.mem_append.mp hq with hq | hq
  · rcases List.mem_append.mp hq with hq | hq
    · rw [List.mem_singleton.mp hq]; exact part_eq _ _ part_path hs.2.1
    · exact ha.2 q hq
  · exact hf2 q hq

/-- The field that ends a session, as it is read. -/
theorem seen_ending (s : Site) (hs : Sane s) :
    seen s.ending = some ⟨s.name, "null".toList, [("path".toList, s.path)] ++
      [("expires".toList, "Thu, 01 Jan 1970 00:00:00 GMT".toList)] ++ flagAttrs s⟩ := by
  obtain ⟨hf1, hf2⟩ := read_flags s hs
  rw [ending_eq, seen_parts _ _ _ hs.1 clean_null, readAttrs_append, readAttrs_append, hf1,
    readAttr _ "path".toList _ (by decide) part_path.2.1 (by decide) hs.2.1,
    readAttr _ "expires".toList _ (by decide) part_expires.2.1 (by decide) clean_date]
  intro q hq
  rcases List.mem_append.mp hq with hq | hq
  · rcases List.mem_append.mp hq with hq | hq
    · rw [List.mem_singleton.mp hq]; exact part_eq _ _ part_path hs.2.1
    · rw [List.mem_singleton.mp hq]; exact part_eq _ _ part_expires clean_date
  · exact hf2 q hq

/-! ## The attributes -/

theorem one_ne (k k' v : Str) (h : k ≠ k') : ∀ kv ∈ [(k, v)], kv.1 ≠ k' := by
  intro kv hkv
  rw [List.mem_singleton.mp hkv]; exact h

theorem find_one (k v : Str) : find [(k, v)] k = some v := by simp [find]

theorem find_none (k k' v : Str) (h : k ≠ k') : find [(k, v)] k' = none :=
  find_append_absent [] _ _ (one_ne k k' v h)

theorem age_ne (m : Option Int) (k' : Str) (h : "max-age".toList ≠ k') : ∀ kv ∈ ageAttrs m, kv.1 ≠ k' := by
  cases m with
  | none => exact fun kv hkv => nomatch hkv
  | some n =>
    simp only [ageAttrs]
    split
    · exact fun kv hkv => nomatch hkv
    · exact one_ne _ _ _ h

theorem domain_ne (d : Option Str) (k' : Str) (h : "domain".toList ≠ k') : ∀ kv ∈ domainAttrs d, kv.1 ≠ k' := by
  cases d with
  | none => exact fun kv hkv => nomatch hkv
  | some d => exact one_ne _ _ _ h

theorem flag_ne (s : Site) (k' : Str) (h1 : "httponly".toList ≠ k') (h2 : "samesite".toList ≠ k')
    (h3 : "secure".toList ≠ k') (h4 : "domain".toList ≠ k') : ∀ kv ∈ flagAttrs s, kv.1 ≠ k' := by
  intro kv hkv
  unfold flagAttrs at hkv
  rcases List.mem_append.mp hkv with hkv | hkv
  · rcases List.mem_append.mp hkv with hkv | hkv
    · rcases List.mem_append.mp hkv with hkv | hkv
      · exact one_ne _ _ _ h1 kv hkv
      · exact one_ne _ _ _ h2 kv hkv
    · exact optFlag_ne _ _ _ h3 kv hkv
  · exact domain_ne _ _ h4 kv hkv

theorem flag_gets (s : Site) :
    find (flagAttrs s) "httponly".toList = some [] ∧ find (flagAttrs s) "samesite".toList = some s.sameSite ∧
    find (flagAttrs s) "secure".toList = (if s.httpsOnly then some [] else none) ∧
    find (flagAttrs s) "domain".toList = s.domain := by
  unfold flagAttrs
  refine ⟨?_, ?_, ?_, ?_⟩
  · rw [find_append_absent _ _ _ (domain_ne _ _ (by decide)), find_append_absent _ _ _ (optFlag_ne _ _ _ (by decide)),
      find_append_absent _ _ _ (one_ne _ _ _ (by decide)), find_one]
  · rw [find_append_absent _ _ _ (domain_ne _ _ (by decide)), find_append_absent _ _ _ (optFlag_ne _ _ _ (by decide)),
      find_absent_append _ _ _ (one_ne _ _ _ (by decide)), find_one]
  · rw [find_append_absent _ _ _ (domain_ne _ _ (by decide)), List.append_assoc,
      find_absent_append _ _ _ (one_ne _ _ _ (by decide)), find_absent_append _ _ _ (one_ne _ _ _ (by decide)),
      find_optFlag]
  · rw [List.append_assoc, List.append_assoc, find_absent_append _ _ _ (one_ne _ _ _ (by decide)),
      find_absent_append _ _ _ (one_ne _ _ _ (by decide)), find_absent_append _ _ _ (optFlag_ne _ _ _ (by decide))]
    cases s.domain with
    | none => rfl
    | some d => exact find_one _ _

/-- The age of the cookie: none if it is zero. -/
def ageOf (m : Option Int) : Option Int := m.filter (· ≠ 0)

theorem age_get (m : Option Int) : (find (ageAttrs m) "max-age".toList).bind seconds = ageOf m := by
  cases m with
  | none => rfl
  | some n =>
    simp only [ageAttrs]
    by_cases h : n = 0
    · subst h; rfl
    · rw [if_neg h, find_one, Option.bind_some, SetCookie.seconds_intText]
      simp [ageOf, Option.filter, h]

/-! ## What the browser does with it -/

theorem home_name (c : SetCookie.Spec.Client) (s : Site) (k : SetCookie.Spec.Key) (h : home c s = some k) :
    k.1 = s.name := by
  unfold home at h
  split at h
  · injection h with h; rw [← h]
  · split at h
    · injection h with h; rw [← h]
    · cases h

theorem place_home (c : SetCookie.Spec.Client) (now : Int) (s : Site) (seen : SetCookie.Spec.Seen)
    (hn : seen.name = s.name) (hp : seen.get "path".toList = some s.path) (hd : seen.get "domain".toList = s.domain) :
    SetCookie.Spec.place { c with now := now } seen = home c s := by
  unfold SetCookie.Spec.place home
  rw [hn, hp, hd]
  cases s.domain with
  | none => rfl
  | some d =>
    cases d with
    | nil => rfl
    | cons ch t => rfl

theorem take_field (c : SetCookie.Spec.Client) (s : Site) (hs : Sane s) (ht : Timed s) (k : SetCookie.Spec.Key)
    (hk : home c s = some k) (now t : Nat) (b : List Kept) (x : Sess) :
    take c now b (s.field t x) = (b.filter fun y => y.key ≠ k) ++
      [⟨k, quoted (s.signer.sign t x), (ageOf s.maxAge).map fun n => (now : Int) + n, s.httpsOnly⟩] := by
  unfold take
  rw [seen_field s hs ht]
  simp only
  obtain ⟨-, -, g3, g4⟩ := flag_gets s
  have e1 : SetCookie.Spec.Seen.get ⟨s.name, quoted (s.signer.sign t x),
      [("path".toList, s.path)] ++ ageAttrs s.maxAge ++ flagAttrs s⟩ "path".toList = some s.path := by
    show find ([("path".toList, s.path)] ++ ageAttrs s.maxAge ++ flagAttrs s) _ = _
    rw [find_append_absent _ _ _ (flag_ne s _ (by decide) (by decide) (by decide) (by decide)),
      find_append_absent _ _ _ (age_ne _ _ (by decide)), find_one]
  have e2 : SetCookie.Spec.Seen.get ⟨s.name, quoted (s.signer.sign t x),
      [("path".toList, s.path)] ++ ageAttrs s.maxAge ++ flagAttrs s⟩ "domain".toList = s.domain := by
    show find ([("path".toList, s.path)] ++ ageAttrs s.maxAge ++ flagAttrs s) _ = _
    rw [List.append_assoc, find_absent_append _ _ _ (one_ne _ _ _ (by decide)),
      find_absent_append _ _ _ (age_ne _ _ (by decide)), g4]
  have e3 : SetCookie.Spec.Seen.get ⟨s.name, quoted (s.signer.sign t x),
      [("path".toList, s.path)] ++ ageAttrs s.maxAge ++ flagAttrs s⟩ "secure".toList =
        if s.httpsOnly then some [] else none := by
    show find ([("path".toList, s.path)] ++ ageAttrs s.maxAge ++ flagAttrs s) _ = _
    rw [List.append_assoc, find_absent_append _ _ _ (one_ne _ _ _ (by decide)),
      find_absent_append _ _ _ (age_ne _ _ (by decide)), g3]
  have e4 : (SetCookie.Spec.Seen.get ⟨s.name, quoted (s.signer.sign t x),
      [("path".toList, s.path)] ++ ageAttrs s.maxAge ++ flagAttrs s⟩ "max-age".toList).bind seconds =
        ageOf s.maxAge := by
    show (find ([("path".toList, s.path)] ++ ageAttrs s.maxAge ++ flagAttrs s) _).bind seconds = _
    rw [find_append_absent _ _ _ (flag_ne s _ (by decide) (by decide) (by decide) (by decide)),
      find_absent_append _ _ _ (one_ne _ _ _ (by decide)), age_get]
  have e5 : SetCookie.Spec.Seen.get ⟨s.name, quoted (s.signer.sign t x),
      [("path".toList, s.path)] ++ ageAttrs s.maxAge ++ flagAttrs s⟩ "expires".toList = none := by
    show find ([("path".toList, s.path)] ++ ageAttrs s.maxAge ++ flagAttrs s) _ = _
    rw [find_append_absent _ _ _ (flag_ne s _ (by decide) (by decide) (by decide) (by decide)),
      find_append_absent _ _ _ (age_ne _ _ (by decide)), find_none _ _ _ (by decide)]
  rw [place_home c now s _ rfl e1 e2, hk]
  simp only
  rw [if_neg]
  · unfold endOf
    rw [e4, e5, e3]
    cases ageOf s.maxAge with
    | none => cases s.httpsOnly <;> rfl
    | some n => cases s.httpsOnly <;> rfl
  · unfold SetCookie.Spec.Expired
    rw [e4, e5]
    cases hm : s.maxAge with
    | none => exact id
    | some n =>
      have := hs.2.2.2.2 n hm
      by_cases h0 : n = 0
      · subst h0; exact id
      · have : ageOf (some n) = some n := by simp [ageOf, Option.filter, h0]
        rw [this]
        simp only
        omega

theorem take_ending (c : SetCookie.Spec.Client) (hc : ReadsDate c) (s : Site) (hs : Sane s) (k : SetCookie.Spec.Key)
    (hk : home c s = some k) (now : Nat) (b : List Kept) :
    take c now b s.ending = b.filter fun y => y.key ≠ k := by
  unfold take
  rw [seen_ending s hs]
  simp only
  obtain ⟨-, -, g3, g4⟩ := flag_gets s
  have e1 : SetCookie.Spec.Seen.get ⟨s.name, "null".toList, [("path".toList, s.path)] ++
      [("expires".toList, "Thu, 01 Jan 1970 00:00:00 GMT".toList)] ++ flagAttrs s⟩ "path".toList = some s.path := by
    show find ([("path".toList, s.path)] ++ [("expires".toList, _)] ++ flagAttrs s) _ = _
    rw [find_append_absent _ _ _ (flag_ne s _ (by decide) (by decide) (by decide) (by decide)),
      find_append_absent _ _ _ (one_ne _ _ _ (by decide)), find_one]
  have e2 : SetCookie.Spec.Seen.get ⟨s.name, "null".toList, [("path".toList, s.path)] ++
      [("expires".toList, "Thu, 01 Jan 1970 00:00:00 GMT".toList)] ++ flagAttrs s⟩ "domain".toList = s.domain := by
    show find ([("path".toList, s.path)] ++ [("expires".toList, _)] ++ flagAttrs s) _ = _
    rw [List.append_assoc, find_absent_append _ _ _ (one_ne _ _ _ (by decide)),
      find_absent_append _ _ _ (one_ne _ _ _ (by decide)), g4]
  have e4 : SetCookie.Spec.Seen.get ⟨s.name, "null".toList, [("path".toList, s.path)] ++
      [("expires".toList, "Thu, 01 Jan 1970 00:00:00 GMT".toList)] ++ flagAttrs s⟩ "max-age".toList = none := by
    show find ([("path".toList, s.path)] ++ [("expires".toList, _)] ++ flagAttrs s) _ = _
    rw [find_append_absent _ _ _ (flag_ne s _ (by decide) (by decide) (by decide) (by decide)),
      find_absent_append _ _ _ (one_ne _ _ _ (by decide)), find_none _ _ _ (by decide)]
  have e5 : SetCookie.Spec.Seen.get ⟨s.name, "null".toList, [("path".toList, s.path)] ++
      [("expires".toList, "Thu, 01 Jan 1970 00:00:00 GMT".toList)] ++ flagAttrs s⟩ "expires".toList =
        some "Thu, 01 Jan 1970 00:00:00 GMT".toList := by
    show find ([("path".toList, s.path)] ++ [("expires".toList, _)] ++ flagAttrs s) _ = _
    rw [find_append_absent _ _ _ (flag_ne s _ (by decide) (by decide) (by decide) (by decide)),
      find_absent_append _ _ _ (one_ne _ _ _ (by decide)), find_one]
  rw [place_home c now s _ rfl e1 e2, hk]
  simp only
  rw [if_pos]
  unfold SetCookie.Spec.Expired
  rw [e4, e5]
  simp only [Option.bind_none, Option.bind_some]
  have : c.dateOf "Thu, 01 Jan 1970 00:00:00 GMT".toList = some 0 := hc
  rw [this]
  exact Int.natCast_nonneg now

/-! ## What the application sees -/

theorem lookup_eq (ps : List (Str × Str)) (f : Str → Str) (n : Str) :
    Cookies.Spec.lookup (ps.map fun kv => (kv.1, f kv.2)) n =
      ((ps.filter fun kv => kv.1 = n).getLast?).map fun kv => f kv.2 := by
  unfold Cookies.Spec.lookup
  rw [List.filter_map, List.getLast?_map, Option.map_map]
  rfl

/-- The cookie of the session among those that are sent. -/
theorem mine_sent (s : Site) (k : SetCookie.Spec.Key) (hk : k.1 = s.name) (order : List Kept → List Kept)
    (ho : Orders order) (b : List Kept) (hb : Tidy s k b) (v : Visit) (l : List Kept) (hl : l.length ≤ 1)
    (hf : (b.filter fun x => x.key = k) = l) :
    ((order (b.filter fun x => Goes v x)).filter fun x => x.key.1 = s.name) = l.filter fun x => Goes v x := by
  have h1 := (ho (b.filter fun x => Goes v x)).filter fun x => decide (x.key.1 = s.name)
  have h2 : ((b.filter fun x => Goes v x).filter fun x => decide (x.key.1 = s.name)) = l.filter fun x => Goes v x := by
    rw [← hf, List.filter_filter, List.filter_filter]
    apply List.filter_congr
    intro x hx
    have : x.key.1 = s.name ↔ x.key = k := ⟨(hb x hx).1, fun e => by rw [e, hk]⟩
    rw [decide_eq_decide.mpr this, Bool.and_comm]
  rw [h2] at h1
  match l, hl, h1 with
  | [], _, h1 => exact List.perm_nil.mp h1
  | [x], _, h1 =>
    by_cases hx : Goes v x
    · rw [List.filter_cons, if_pos (by simpa using hx)] at h1 ⊢
      exact List.perm_singleton.mp h1
    · rw [List.filter_cons, if_neg (by simpa using hx)] at h1 ⊢
      exact List.perm_nil.mp h1

theorem view_eq (s : Site) (k : SetCookie.Spec.Key) (hk : k.1 = s.name) (order : List Kept → List Kept)
    (ho : Orders order) (b : List Kept) (hb : Tidy s k b) (v : Visit) (l : List Kept) (hl : l.length ≤ 1)
    (hf : (b.filter fun x => x.key = k) = l) :
    view s order b v = jarLoad s.conf v.time (((l.filter fun x => Goes v x).getLast?).map (·.value)) := by
  unfold view
  rw [opened_plain _ rfl]
  unfold sent load
  rw [lookup_header, lookup_eq _ (fun v => Url.unquote (Cookies.unquoteCookie v)), List.filter_map, List.getLast?_map]
  · have := mine_sent s k hk order ho b hb v l hl hf
    have e : ((fun kv : Str × Str => decide (kv.1 = s.conf.name)) ∘ fun x : Kept => (x.key.1, x.value)) =
        fun x : Kept => decide (x.key.1 = s.name) := rfl
    rw [e, this]
    cases (l.filter fun x => Goes v x).getLast? <;> rfl
  · intro kv hkv
    obtain ⟨x, hx, rfl⟩ := List.mem_map.mp hkv
    exact (hb x (List.mem_filter.mp ((ho _).mem_iff.mp hx)).1).2

/-! ## The simulation -/

/-- The cookie for a session. -/
def cookieOf (s : Site) (k : SetCookie.Spec.Key) (p : Nat × Sess) : Kept :=
  ⟨k, quoted (s.signer.sign p.1 p.2), (ageOf s.maxAge).map fun n => (p.1 : Int) + n, s.httpsOnly⟩

/-- The browser and the store agree. -/
structure Rel (s : Site) (k : SetCookie.Spec.Key) (clock : Nat) (w : World) (m : Store) : Prop where
  tidy : Tidy s k w.jar
  log : w.log = m.log
  waiting : ∀ i, m.waiting i = (w.waiting i).map (·.1)
  flags : ∀ i p, w.waiting i = some p → p.2 = decide (p.1 = [])
  mine : (w.jar.filter fun x => x.key = k) = (m.session.map (cookieOf s k)).toList
  past : ∀ p, m.session = some p → p.1 ≤ clock ∧ p.2 ≠ []

theorem rel_view (s : Site) (ht : Timed s) (k : SetCookie.Spec.Key) (hk : k.1 = s.name)
    (order : List Kept → List Kept) (ho : Orders order) (clock : Nat) (w : World) (m : Store)
    (h : Rel s k clock w m) (v : Visit) (hv : Within s k v) (hc : clock ≤ v.time) :
    view s order w.jar v = (m.at s v.time, decide (m.at s v.time = [])) := by
  rw [view_eq s k hk order ho w.jar h.tidy v _ (by cases m.session <;> simp) h.mine]
  unfold Store.at
  cases hm : m.session with
  | none => rfl
  | some p =>
    obtain ⟨t, x⟩ := p
    obtain ⟨h1, h2⟩ := h.past _ hm
    simp only at h1 h2
    simp only [Option.map_some, Option.toList_some]
    have hu : Url.unquote (Cookies.unquoteCookie (quoted (s.signer.sign t x))) = s.signer.sign t x :=
      decode_quoted _ (ht.clean t x)
    have hval : (cookieOf s k (t, x)).value = quoted (s.signer.sign t x) := rfl
    by_cases hf : Fresh s t v.time
    · simp only [if_pos hf]
      have hg : Goes v (cookieOf s k (t, x)) := by
        refine ⟨hv.1, ?_, hv.2⟩
        intro e he
        cases hma : s.maxAge with
        | none => simp [cookieOf, hma, ageOf] at he
        | some n =>
          have := hf n hma
          by_cases h0 : n = 0
          · subst h0; simp [cookieOf, hma, ageOf, Option.filter] at he
          · simp [cookieOf, hma, ageOf, Option.filter, h0] at he
            omega
      rw [List.filter_cons, if_pos (by simpa using hg)]
      simp only [List.filter_nil, List.getLast?_singleton, Option.map_some, hval, jarLoad, hu]
      have : s.conf.signer.unsign v.time (s.signer.sign t x) = some x := ht.accepts t v.time x (by omega) hf
      rw [this]
      simp [h2]
    · simp only [if_neg hf]
      by_cases hg : Goes v (cookieOf s k (t, x))
      · rw [List.filter_cons, if_pos (by simpa using hg)]
        simp only [List.filter_nil, List.getLast?_singleton, Option.map_some, hval, jarLoad, hu]
        have : s.conf.signer.unsign v.time (s.signer.sign t x) = none := ht.rejects t v.time x hf
        rw [this]
        rfl
      · rw [List.filter_cons, if_neg (by simpa using hg)]
        rfl

theorem tidy_filter (s : Site) (k : SetCookie.Spec.Key) (b : List Kept) (h : Tidy s k b) (p : Kept → Bool) :
    Tidy s k (b.filter p) := fun x hx => h x (List.mem_filter.mp hx).1

theorem tidy_cookie (s : Site) (hs : Sane s) (ht : Timed s) (k : SetCookie.Spec.Key) (hk : k.1 = s.name)
    (p : Nat × Sess) (b : List Kept) (h : Tidy s k b) : Tidy s k (b ++ [cookieOf s k p]) := by
  intro x hx
  rcases List.mem_append.mp hx with hx | hx
  · exact h x hx
  · rw [List.mem_singleton.mp hx]
    have hl := Cookies.legal_all _ hs.1.2
    have hchar : ∀ ch, Cookies.legal ch = false → ch ∉ s.name := by
      intro ch hch hm
      rw [List.all_eq_true.mp hl _ hm] at hch
      cases hch
    have hq := clean_quoted s ht p.1 p.2
    refine ⟨fun _ => rfl, ?_, hq.2, ?_, ?_, hq.1⟩
    · show Trimmed k.1; rw [hk]; exact Cookies.legal_trimmed _ hl
    · show ';' ∉ k.1; rw [hk]; exact hchar _ (by decide)
    · show '=' ∉ k.1; rw [hk]; exact hchar _ (by decide)

theorem filter_out (b : List Kept) (k : SetCookie.Spec.Key) :
    ((b.filter fun y => y.key ≠ k).filter fun x => x.key = k) = [] := by
  rw [List.filter_filter, List.filter_eq_nil_iff]
  intro x _
  by_cases hx : x.key = k <;> simp [hx]

theorem rel_step (c : SetCookie.Spec.Client) (hc : ReadsDate c) (s : Site) (hs : Sane s) (ht : Timed s)
    (k : SetCookie.Spec.Key) (hk : home c s = some k) (order : List Kept → List Kept) (ho : Orders order)
    (clock : Nat) (w : World) (m : Store) (h : Rel s k clock w m) (a : Act) (hv : ∀ i v, a = .start i v → Within s k v)
    (hle : clock ≤ a.time) : Rel s k a.time (step s c order w a) (Store.step s m a) := by
  have hn := home_name c s k hk
  cases a with
  | start i v =>
    have hview := rel_view s ht k hn order ho clock w m h v (hv i v rfl) hle
    simp only [step, Store.step]
    refine ⟨h.tidy, ?_, ?_, ?_, h.mine, ?_⟩
    · simp only [hview, h.log]
    · intro j
      simp only [put]
      by_cases hj : j = i
      · rw [if_pos hj, if_pos hj, hview]; rfl
      · rw [if_neg hj, if_neg hj]; exact h.waiting j
    · intro j p hp
      simp only [put] at hp
      by_cases hj : j = i
      · rw [if_pos hj, hview] at hp
        injection hp with hp
        subst hp; rfl
      · rw [if_neg hj] at hp; exact h.flags j p hp
    · intro p hp
      exact ⟨Nat.le_trans (h.past p hp).1 hle, (h.past p hp).2⟩
  | finish i now f =>
    have hle : clock ≤ now := hle
    simp only [step, Store.step]
    have hw := h.waiting i
    cases hi : w.waiting i with
    | none =>
      rw [hi] at hw
      rw [hw]
      exact ⟨h.tidy, h.log, h.waiting, h.flags, h.mine, fun p hp => ⟨Nat.le_trans (h.past p hp).1 hle, (h.past p hp).2⟩⟩
    | some p =>
      obtain ⟨seen, e⟩ := p
      rw [hi] at hw
      rw [hw]
      have he : e = decide (seen = []) := h.flags i _ hi
      simp only [Option.map_some]
      have hwait : ∀ j, put m.waiting i none j = (put w.waiting i none j).map (·.1) := by
        intro j
        simp only [put]
        by_cases hj : j = i
        · rw [if_pos hj, if_pos hj]; rfl
        · rw [if_neg hj, if_neg hj]; exact h.waiting j
      have hflag : ∀ j p, put w.waiting i none j = some p → p.2 = decide (p.1 = []) := by
        intro j p hp
        simp only [put] at hp
        by_cases hj : j = i
        · rw [if_pos hj] at hp; cases hp
        · rw [if_neg hj] at hp; exact h.flags j p hp
      unfold Site.respond
      simp only [List.any_nil, Bool.false_eq_true, if_false, List.nil_append]
      by_cases hl : f seen ≠ []
      · rw [if_pos hl, if_pos hl]
        simp only [List.foldl_cons, List.foldl_nil]
        rw [take_field c s hs ht k hk]
        refine ⟨tidy_cookie s hs ht k hn (now, f seen) _ (tidy_filter s k _ h.tidy _), h.log, hwait, hflag, ?_, ?_⟩
        · simp only
          rw [List.filter_append, filter_out]
          simp [cookieOf]
        · intro p hp
          injection hp with hp
          subst hp
          exact ⟨Nat.le_refl _, hl⟩
      · rw [if_neg hl, if_neg hl]
        by_cases hse : seen ≠ []
        · have : e = false := by rw [he]; simpa using hse
          subst this
          rw [if_pos hse]
          simp only [Bool.not_false, if_true, List.foldl_cons, List.foldl_nil]
          rw [take_ending c hc s hs k hk]
          refine ⟨tidy_filter s k _ h.tidy _, h.log, hwait, hflag, ?_, fun p hp => nomatch hp⟩
          exact filter_out _ _
        · have : e = true := by rw [he]; simpa using hse
          subst this
          rw [if_neg hse]
          simp only [Bool.not_true, Bool.false_eq_true, if_false, List.foldl_nil]
          exact ⟨h.tidy, h.log, hwait, hflag, h.mine,
            fun p hp => ⟨Nat.le_trans (h.past p hp).1 hle, (h.past p hp).2⟩⟩

/-- The clock after a history. -/
def clockAfter (t : Nat) (as : List Act) : Nat := as.foldl (fun _ a => a.time) t

theorem rel_run (c : SetCookie.Spec.Client) (hc : ReadsDate c) (s : Site) (hs : Sane s) (ht : Timed s)
    (k : SetCookie.Spec.Key) (hk : home c s = some k) (order : List Kept → List Kept) (ho : Orders order)
    (as : List Act) (clock : Nat) (w : World) (m : Store) (h : Rel s k clock w m) (ha : AllWithin s k as)
    (hi : InOrder clock as) : Rel s k (clockAfter clock as) (run s c order w as) (Store.run s m as) := by
  induction as generalizing clock w m with
  | nil => exact h
  | cons a as ih =>
    obtain ⟨h1, h2⟩ := hi
    exact ih a.time _ _ (rel_step c hc s hs ht k hk order ho clock w m h a (ha a (by simp)) h1)
      (fun b hb => ha b (List.mem_cons_of_mem _ hb)) h2

theorem rel_start (s : Site) (k : SetCookie.Spec.Key) (b : List Kept) (hb : Tidy s k b)
    (hn : ∀ x ∈ b, x.key ≠ k) : Rel s k 0 (fresh b) empty := by
  refine ⟨hb, rfl, fun _ => rfl, (fun _ _ h => nomatch h), ?_, (fun _ h => nomatch h)⟩
  show (b.filter fun x => x.key = k) = []
  rw [List.filter_eq_nil_iff]
  intro x hx
  simpa using hn x hx

/-! ## The store -/

theorem run_append (s : Site) (c : SetCookie.Spec.Client) (order : List Kept → List Kept) (w : World) (a b : List Act) :
    run s c order w (a ++ b) = run s c order (run s c order w a) b := List.foldl_append

theorem store_append (s : Site) (m : Store) (a b : List Act) :
    Store.run s m (a ++ b) = Store.run s (Store.run s m a) b := List.foldl_append

theorem inOrder_append (t : Nat) (a b : List Act) : InOrder t (a ++ b) ↔ InOrder t a ∧ InOrder (clockAfter t a) b := by
  induction a generalizing t with
  | nil => simp [InOrder, clockAfter]
  | cons x a ih => simp only [List.cons_append, InOrder, ih, clockAfter, List.foldl_cons, and_assoc]

theorem inOrder_le (t : Nat) (as : List Act) (h : InOrder t as) : t ≤ clockAfter t as := by
  induction as generalizing t with
  | nil => exact Nat.le_refl _
  | cons a as ih => exact Nat.le_trans h.1 (ih a.time h.2)

theorem fresh_mono (s : Site) (t t' u : Nat) (h : Fresh s t u) (ht : t ≤ t') : Fresh s t' u := by
  intro n hn
  have := h n hn
  omega

/-- What the store holds while there are only readers. -/
structure Holds (t : Nat) (y : Sess) (pre : List Act) (m : Store) : Prop where
  kept : (y = [] ∧ m.session = none) ∨ ∃ t', t ≤ t' ∧ m.session = some (t', y)
  copies : ∀ j, (∃ v, Act.start j v ∈ pre) → m.waiting j = none ∨ m.waiting j = some y

theorem holds_at (s : Site) (t : Nat) (y : Sess) (pre : List Act) (m : Store) (h : Holds t y pre m) (u : Nat)
    (hf : Fresh s t u) : m.at s u = y := by
  unfold Store.at
  rcases h.kept with ⟨h1, h2⟩ | ⟨t', h1, h2⟩
  · rw [h2, h1]
  · rw [h2]
    exact if_pos (fresh_mono s t t' u hf h1)

theorem holds_step (s : Site) (t : Nat) (y : Sess) (pre : List Act) (m : Store) (h : Holds t y pre m) (a : Act)
    (ht : t ≤ a.time) (hf : Fresh s t a.time)
    (ha : ∀ i now g, a = .finish i now g → (∀ x, g x = x) ∧ ∃ v, Act.start i v ∈ pre) :
    Holds t y (pre ++ [a]) (Store.step s m a) := by
  cases a with
  | start i v =>
    have hat := holds_at s t y pre m h v.time hf
    simp only [Store.step, hat]
    refine ⟨h.kept, ?_⟩
    rintro j ⟨v', hj⟩
    simp only [put]
    by_cases hji : j = i
    · rw [if_pos hji]; exact .inr rfl
    · rw [if_neg hji]
      rcases List.mem_append.mp hj with hj | hj
      · exact h.copies j ⟨v', hj⟩
      · have := List.mem_singleton.mp hj
        injection this with h1
        exact absurd h1 hji
  | finish i now g =>
    obtain ⟨hg, hv⟩ := ha i now g rfl
    have hcop : ∀ (mm : Store), (∀ j, mm.waiting j = m.waiting j ∨ mm.waiting j = none) →
        ∀ j, (∃ v, Act.start j v ∈ pre ++ [Act.finish i now g]) → mm.waiting j = none ∨ mm.waiting j = some y := by
      rintro mm hmm j ⟨v', hj⟩
      rcases List.mem_append.mp hj with hj | hj
      · rcases hmm j with h1 | h1
        · rw [h1]; exact h.copies j ⟨v', hj⟩
        · exact .inl h1
      · exact absurd (List.mem_singleton.mp hj) (fun e => nomatch e)
    simp only [Store.step]
    rcases h.copies i hv with hw | hw
    · rw [hw]
      exact ⟨h.kept, hcop m fun j => .inl rfl⟩
    · rw [hw]
      simp only [hg]
      refine ⟨?_, hcop _ fun j => ?_⟩
      · by_cases hy : y = []
        · subst hy
          simpa using h.kept
        · simp only [ne_eq, hy, not_false_eq_true, if_true]
          exact .inr ⟨now, ht, rfl⟩
      · simp only [put]
        by_cases hji : j = i
        · rw [if_pos hji]; exact .inr rfl
        · rw [if_neg hji]; exact .inl rfl

theorem holds_run (s : Site) (t : Nat) (y : Sess) (as pre : List Act) (clock : Nat) (m : Store) (h : Holds t y pre m)
    (ht : t ≤ clock) (hi : InOrder clock as) (hs : Soon s t as)
    (hr : ∀ p i now g post, as = p ++ .finish i now g :: post → (∀ x, g x = x) ∧ ∃ v, Act.start i v ∈ pre ++ p) :
    Holds t y (pre ++ as) (Store.run s m as) := by
  induction as generalizing pre clock m with
  | nil => rw [List.append_nil]; exact h
  | cons a as ih =>
    have hta : t ≤ a.time := Nat.le_trans ht hi.1
    have h1 := holds_step s t y pre m h a hta (hs a (by simp)) (by
      rintro i now g rfl
      have := hr [] i now g as rfl
      rwa [List.append_nil] at this)
    have := ih (pre ++ [a]) a.time (Store.step s m a) h1 hta hi.2 (fun b hb => hs b (List.mem_cons_of_mem _ hb)) (by
      intro p i now g post e
      have := hr (a :: p) i now g post (by rw [e]; rfl)
      rwa [List.append_assoc])
    rwa [List.append_assoc] at this

end Verif.SessionFlow
