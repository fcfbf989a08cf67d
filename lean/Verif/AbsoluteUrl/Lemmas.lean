import Verif.AbsoluteUrl.Spec
import Verif.Hosts.Lemmas
import Verif.Reverse.Lemmas

namespace Verif.AbsoluteUrl

open Verif Verif.Url Verif.Hosts.Spec Verif.AbsoluteUrl.Spec

/-! ## Numerals -/

theorem natToDecF_fuel (f : Nat) : ∀ g n, n < 10 ^ (f + 1) → n < 10 ^ (g + 1) →
    Path.natToDecF f n = Path.natToDecF g n := by
  induction f with
  | zero =>
    intro g n hf hg
    have hn : n < 10 := by simpa using hf
    cases g with
    | zero => rfl
    | succ g => rw [Path.natToDecF, Path.natToDecF, if_pos hn, Nat.mod_eq_of_lt hn]
  | succ f ih =>
    intro g n hf hg
    cases g with
    | zero =>
      have hn : n < 10 := by simpa using hg
      rw [Path.natToDecF, Path.natToDecF, if_pos hn, Nat.mod_eq_of_lt hn]
    | succ g =>
      rw [Path.natToDecF, Path.natToDecF]
      split
      · rfl
      · rw [ih g (n / 10)]
        · rw [Nat.div_lt_iff_lt_mul (by omega)]; rw [Nat.pow_succ] at hf; exact hf
        · rw [Nat.div_lt_iff_lt_mul (by omega)]; rw [Nat.pow_succ] at hg; exact hg

theorem lt_pow (n : Nat) : n < 10 ^ (n + 1) := by
  have : n < 10 ^ n := Nat.lt_pow_self (by omega)
  rw [Nat.pow_succ]; omega

theorem natToDec_small (n : Nat) (h : n < 10) : Path.natToDec n = [Char.ofNat ('0'.toNat + n)] := by
  unfold Path.natToDec
  rw [natToDecF_fuel n 0 n (lt_pow n) (by simpa using h), Path.natToDecF, Nat.mod_eq_of_lt h]

theorem natToDec_big (n : Nat) (h : ¬ n < 10) :
    Path.natToDec n = Path.natToDec (n / 10) ++ [Char.ofNat ('0'.toNat + n % 10)] := by
  unfold Path.natToDec
  have h1 : n / 10 < 10 ^ (n / 10 + 1 + 1) := by
    have := lt_pow (n / 10); rw [Nat.pow_succ]; omega
  have h2 : n < 10 ^ (n / 10 + 1 + 1) := by
    rw [Nat.pow_succ, ← Nat.div_lt_iff_lt_mul (by omega)]; exact lt_pow _
  rw [natToDecF_fuel n (n / 10 + 1) n (lt_pow n) h2, Path.natToDecF, if_neg h]

theorem digit_back (c : Char) (h : '0' ≤ c ∧ c ≤ '9') :
    c.toNat - '0'.toNat < 10 ∧ Char.ofNat ('0'.toNat + (c.toNat - '0'.toNat)) = c := by
  have h1 : '0'.toNat ≤ c.toNat := h.1
  have h2 : c.toNat ≤ '9'.toNat := h.2
  have e1 : '0'.toNat = 48 := rfl
  have e2 : '9'.toNat = 57 := rfl
  refine ⟨by omega, ?_⟩
  rw [show '0'.toNat + (c.toNat - '0'.toNat) = c.toNat by omega, Char.ofNat_toNat]

theorem numeral_pos (d : Str) (hd : ∀ c ∈ d, '0' ≤ c ∧ c ≤ '9') (h0 : d.head? ≠ some '0') (hne : d ≠ []) :
    0 < Path.decVal d := by
  cases d with
  | nil => exact absurd rfl hne
  | cons c cs =>
    have hc := hd c (by simp)
    have h1 : '0'.toNat ≤ c.toNat := hc.1
    have hn : c.toNat ≠ '0'.toNat := fun e => h0 (by rw [List.head?_cons, Char.toNat_inj.1 e])
    have hge : ∀ (l : Str) (a : Nat), a ≤ l.foldl (fun n c => 10 * n + (c.toNat - '0'.toNat)) a := by
      intro l
      induction l with
      | nil => intro a; exact Nat.le_refl _
      | cons x xs ih => intro a; rw [List.foldl_cons]; exact Nat.le_trans (by omega) (ih _)
    unfold Path.decVal
    rw [List.foldl_cons]
    exact Nat.lt_of_lt_of_le (by omega) (hge cs _)

/-- A number written without leading zeros is written in one way. -/
theorem natToDec_of (d : Str) (hd : ∀ c ∈ d, '0' ≤ c ∧ c ≤ '9') (h0 : d.head? = some '0' → d = ['0']) (hne : d ≠ []) :
    Path.natToDec (number d) = d := by
  show Path.natToDec (Path.decVal d) = d
  generalize hl : d.length = l
  induction l generalizing d with
  | zero => exact absurd (List.length_eq_zero_iff.1 hl) hne
  | succ l ih =>
    obtain ⟨a, c, rfl⟩ : ∃ a c, d = a ++ [c] := ⟨d.dropLast, d.getLast hne, (List.dropLast_concat_getLast hne).symm⟩
    have hc := digit_back c (hd c (by simp))
    rw [Path.decVal_append]
    by_cases ha : a = []
    · subst ha
      rw [natToDec_small _ (by simpa [Path.decVal] using hc.1)]
      have : 10 * Path.decVal [] + (c.toNat - '0'.toNat) = c.toNat - '0'.toNat := by simp [Path.decVal]
      rw [this, hc.2]; rfl
    · have h0a : a.head? ≠ some '0' := by
        intro e
        have := h0 (by cases a with
          | nil => cases e
          | cons x xs => simpa using e)
        cases a with
        | nil => exact ha rfl
        | cons x xs => simp at this
      have hpos := numeral_pos a (fun x hx => hd x (by simp [hx])) h0a ha
      rw [natToDec_big _ (by omega), show (10 * Path.decVal a + (c.toNat - '0'.toNat)) / 10 = Path.decVal a by omega,
        show (10 * Path.decVal a + (c.toNat - '0'.toNat)) % 10 = c.toNat - '0'.toNat by omega, hc.2,
        ih a (fun x hx => hd x (by simp [hx])) (fun e => absurd e h0a) ha (by simpa using hl)]

/-! ## Texts -/

theorem scheme_ok (a b : Bool) : Scheme (scheme a b) := by
  cases a <;> cases b
  · exact ⟨⟨'h', "ttp".toList, rfl, by decide⟩, by decide, by decide⟩
  · exact ⟨⟨'h', "ttps".toList, rfl, by decide⟩, by decide, by decide⟩
  · exact ⟨⟨'w', "s".toList, rfl, by decide⟩, by decide, by decide⟩
  · exact ⟨⟨'w', "ss".toList, rfl, by decide⟩, by decide, by decide⟩

theorem defaultPort_scheme (a b : Bool) : defaultPort (scheme a b) = some (Spec.usual b) := by
  cases a <;> cases b <;> decide

theorem made_plain {sc : Sc} {b : Bool} {auth : Str} (h : Made sc b auth) :
    ∃ x t, auth = x ++ t ∧ PlainHost x ∧ PortText t := by
  cases h with
  | header before after h1 h2 h3 h4 => exact ⟨_, _, rfl, h3, h4⟩
  | usual h1 h2 h3 => exact ⟨auth, [], (List.append_nil _).symm, h3, .inl rfl⟩
  | other h1 h2 h3 h4 h5 h6 h7 h8 h9 => exact ⟨_, _, rfl, h9, .inr ⟨_, rfl, h8, h6, by rw [h5]; exact h4⟩⟩

theorem aget_first (l : List (Str × Str)) (k v : Str) (before after : List (Str × Str))
    (h : l = before ++ (k, v) :: after) (hb : ∀ kv ∈ before, kv.1 ≠ k) : aget l k = some v := by
  subst h
  induction before with
  | nil => simp [aget]
  | cons x xs ih =>
    rw [List.cons_append, aget, if_neg (hb x (by simp)), ih (fun kv hkv => hb kv (by simp [hkv]))]

theorem aget_absent (l : List (Str × Str)) (k : Str) (h : ∀ kv ∈ l, kv.1 ≠ k) : aget l k = none := by
  induction l with
  | nil => rfl
  | cons x xs ih => rw [aget, if_neg (h x (by simp)), ih (fun kv hkv => h kv (by simp [hkv]))]

theorem scopeText_made {sc : Sc} {a b : Bool} {auth : Str} (hs : sc.scheme = scheme a b) (h : Made sc b auth) :
    scopeText sc = .ok (scheme a b ++ "://".toList ++ auth ++ sc.path ++ tail '?' sc.query) := by
  have fin : ∀ (x : Str), (Except.ok (if sc.query ≠ [] then x ++ '?' :: sc.query else x) : Except Err Str) =
      .ok (x ++ tail '?' sc.query) := by
    intro x
    unfold tail
    by_cases hq : sc.query = [] <;> simp [hq]
  unfold scopeText
  cases h with
  | header before after h1 h2 h3 h4 =>
    rw [aget_first _ _ _ _ _ h1 h2]
    simp only [hs, fin]
  | usual h1 h2 h3 =>
    rw [aget_absent _ _ h1, h2]
    simp only [hs, defaultPort_scheme, if_true, fin]
  | other h1 h2 h3 h4 h5 h6 h7 h8 h9 =>
    rw [aget_absent _ _ h1, h2]
    simp only [hs, defaultPort_scheme, Option.some.injEq, h3, if_false, fin, portText]
    rw [← h5, natToDec_of _ h6 h7 h8]
    simp

theorem ofText_plain (ip6 : Str → Bool) {s x t p q : Str} (hs : Scheme s) (hx : PlainHost x) (ht : PortText t)
    (hp : PlainPath p) (hq : PlainQuery q) :
    ∃ n k, ofText ip6 (s ++ "://".toList ++ (x ++ t) ++ p ++ tail '?' q) =
      .ok ⟨s ++ "://".toList ++ (x ++ t) ++ p ++ tail '?' q, s, x ++ t, p, q, [], n, k, some ⟨s, x ++ t, p, q, []⟩⟩ := by
  obtain ⟨h1, h2, _, _⟩ := Hosts.authority_plain hx ht
  obtain ⟨h3, h4, _, _⟩ := Hosts.plainPath_abs hp
  obtain ⟨h5, h6, _⟩ := Hosts.plainQuery_facts hq
  unfold ofText
  rw [urlsplit_eq ip6 hs h1 h3 h5 h2 h4 h6]
  simp only [Hosts.port_authority hx ht]
  exact ⟨_, _, rfl⟩

theorem addresses_plain {s n p q : Str} (hp : PlainPath p) :
    Addresses (s ++ "://".toList ++ n ++ p ++ tail '?' q) s n p q := by
  obtain ⟨h3, h4, h5, h6⟩ := Hosts.plainPath_abs hp
  refine ⟨p, rfl, hp.1, h3.2.1, h3.2.2, ?_⟩
  rw [Hosts.percentDecode_eq]
  clear h3 h4 h5 hp
  induction p with
  | nil => rfl
  | cons c cs ih =>
    simp only [List.mem_cons, not_or] at h6
    rw [unquote_cons_ne _ _ (fun e => h6.1 e.symm), ih h6.2]

theorem root_slash {r : Str} (h : Root r) :
    PlainPath (if endsWith r ['/'] then r else r ++ ['/']) ∧
      rstrip (· = '/') (if endsWith r ['/'] then r else r ++ ['/']) = r := by
  have hne : endsWith r ['/'] = false := by
    rcases h with rfl | ⟨_, h⟩
    · rfl
    · cases hb : endsWith r ['/'] with
      | false => rfl
      | true => exact absurd ((Hosts.endsWith_iff _ _).1 hb) h
  rw [hne, if_neg (by simp)]
  refine ⟨⟨?_, ?_⟩, ?_⟩
  · rcases h with rfl | ⟨⟨⟨x, hx⟩, _⟩, _⟩
    · exact ⟨[], rfl⟩
    · exact ⟨x ++ ['/'], by rw [hx]; rfl⟩
  · intro c hc
    rcases List.mem_append.1 hc with hc | hc
    · rcases h with rfl | ⟨⟨_, hh⟩, _⟩
      · cases hc
      · exact hh c hc
    · have : c = '/' := by simpa using hc
      subst this; decide
  · obtain ⟨n, hn⟩ := Path.rstrip_slash_spec (r ++ ['/'])
    have hlast := Path.rstrip_slash_last (r ++ ['/'])
    generalize rstrip (· = '/') (r ++ ['/']) = z at hn hlast
    cases n with
    | zero =>
      rw [List.replicate_zero, List.append_nil] at hn
      exact absurd hn.symm (hlast r)
    | succ n =>
      rw [List.replicate_succ', ← List.append_assoc] at hn
      have hr := List.append_inj_left' hn rfl
      cases n with
      | zero => simpa using hr.symm
      | succ n =>
        rw [List.replicate_succ', ← List.append_assoc] at hr
        have : endsWith r ['/'] = true := (Hosts.endsWith_iff _ _).2 ⟨_, hr⟩
        rw [this] at hne; cases hne

theorem plain_append {r p : Str} (h : Root r) (hp : PlainPath p) : PlainPath (r ++ p) := by
  rcases h with rfl | ⟨⟨⟨x, rfl⟩, hh⟩, _⟩
  · exact hp
  · refine ⟨⟨x ++ p, rfl⟩, ?_⟩
    intro c hc
    rcases List.mem_append.1 hc with hc | hc
    · exact hh c hc
    · exact hp.2 c hc

/-- The base URL of a plain request. -/
theorem base_plain (ip6 : Str → Bool) {sc : Sc} {a b : Bool} {auth : Str} (hs : sc.scheme = scheme a b)
    (h : Made sc b auth) (hr : Root (appRoot sc)) :
    ∃ base, baseUrl ip6 sc = .ok base ∧ base.scheme = scheme a b ∧ base.netloc = auth ∧
      rstrip (· = '/') base.path = appRoot sc := by
  obtain ⟨h1, h2⟩ := root_slash hr
  unfold baseUrl ofScope
  simp only
  generalize (if endsWith (appRoot sc) ['/'] = true then appRoot sc else appRoot sc ++ ['/']) = p at h1 h2 ⊢
  have hm : Made { sc with path := p, query := [], rootPath := appRoot sc } b auth := by
    cases h with
    | header before after h1 h2 h3 h4 => exact .header before after h1 h2 h3 h4
    | usual h1 h2 h3 => exact .usual h1 h2 h3
    | other h1 h2 h3 h4 h5 h6 h7 h8 h9 => exact .other h1 h2 h3 h4 h5 h6 h7 h8 h9
  rw [scopeText_made (sc := { sc with path := p, query := [], rootPath := appRoot sc }) hs hm]
  simp only
  obtain ⟨x, t, rfl, hx, ht⟩ := made_plain h
  obtain ⟨n, k, e⟩ := ofText_plain ip6 (scheme_ok a b) hx ht h1 (q := []) (fun c hc => by cases hc)
  exact ⟨_, e, rfl, rfl, h2⟩

theorem secure_scheme (u : URL) (a b : Bool) (h : u.scheme = scheme a b) : isSecure u = b := by
  unfold isSecure
  rw [h]
  cases a <;> cases b <;> decide

theorem made_ne {sc : Sc} {b : Bool} {auth : Str} (h : Made sc b auth) : auth ≠ [] := by
  obtain ⟨x, t, rfl, hx, _⟩ := made_plain h
  intro e
  exact hx.1 (List.append_eq_nil_iff.1 e).1

theorem ofParts_text {s n p : Str} (hs : Scheme s) (hn : n ≠ []) (hp : PlainPath p) :
    (ofParts s n p).text = s ++ "://".toList ++ n ++ p ++ tail '?' [] := by
  obtain ⟨h3, _, _, _⟩ := Hosts.plainPath_abs hp
  obtain ⟨⟨c, cs, e, _⟩, _⟩ := hs
  exact geturl_eq (s := s) (q := []) (by rw [e]; simp) hn h3

theorem schemeOf_ok (proto : Reverse.Proto) (a b : Bool) : Scheme (schemeOf proto a b) := by
  cases proto <;> exact scheme_ok _ _

theorem makeAbsolute_eq (u : Reverse.Url) (base : URL) (a b : Bool) (hb : base.scheme = scheme a b) :
    makeAbsolute u base = ofParts (schemeOf u.proto a b) (if u.host ≠ [] then u.host else base.netloc)
      (rstrip (· = '/') base.path ++ u.path) := by
  obtain ⟨path, proto, host⟩ := u
  unfold makeAbsolute
  rw [secure_scheme base a b hb]
  cases proto <;> cases b <;> simp only [schemeOf, hb] <;> rfl

end Verif.AbsoluteUrl
