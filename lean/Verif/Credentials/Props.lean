import Verif.Credentials.Lemmas

/-!
# C63: a security scheme finds the credentials that the client sent, or asks for them

Full statement: when a request carries credentials under the scheme's name (in any letter case), the handler
gets exactly these; otherwise the client is asked for credentials of this scheme (401 with a challenge that names
it), or the handler gets `None` when `auto_error` is off.
-/

namespace Verif.Credentials

open Verif Spec Verif.Url

/-- **C63, Basic.**  What a client sends for a user and a password in ASCII arrives. -/
theorem C63_basic_partial (realm : Option Str) (auto : Bool) (scheme user password : Str)
    (hs : Names scheme "basic".toList) (hu : Ascii user) (hp : Ascii password) (hc : ':' ∉ user) :
    basic realm auto (some (basicHeader scheme user password)) = .ok (user, password) := by
  obtain ⟨h1, h2⟩ := schemeParam_carries scheme (Base64.Spec.encode (user ++ ':' :: password)) hs.2
  have hall : ∀ c ∈ user ++ ':' :: password, c.toNat < 128 := by
    intro c hm
    rcases List.mem_append.mp hm with hm | hm
    · exact hu c hm
    · rcases List.mem_cons.mp hm with e | hm
      · subst e; decide
      · exact hp c hm
  have hpair : basicPair (Base64.Spec.encode (user ++ ':' :: password)) = some (user, password) := by
    unfold basicPair
    rw [Base64.decode_encode _ (fun c hm => Nat.lt_trans (hall c hm) (by decide))]
    simp only
    rw [if_pos (List.all_eq_true.mpr fun c hm => decide_eq_true (hall c hm)), partition_mid ':' user password hc]
  unfold basic basicHeader
  rw [h1, h2, if_neg (fun h => h.elim (fun h => by cases h) (fun h => h hs.1)), hpair]

example : basicHeader "BASIC".toList "Aladdin".toList "open sesame".toList =
      "BASIC QWxhZGRpbjpvcGVuIHNlc2FtZQ==".toList ∧
    basic none true (some "BASIC QWxhZGRpbjpvcGVuIHNlc2FtZQ==".toList) =
      .ok ("Aladdin".toList, "open sesame".toList) ∧ Names "BASIC".toList "basic".toList :=
  ⟨by decide +kernel, by decide +kernel, by unfold Names; decide⟩

/-- What a handler gets was in the request: the scheme's name, a space, and a Base64 form of the pair. -/
theorem C63_basic_sound (realm : Option Str) (auto : Bool) (header : Option Str) (user password : Str)
    (h : basic realm auto header = .ok (user, password)) :
    ∃ scheme cred, header = some (scheme ++ ' ' :: cred) ∧ Names scheme "basic".toList ∧
      Base64.decode cred = some (user ++ ':' :: password) ∧ ':' ∉ user ∧ Ascii user ∧ Ascii password := by
  unfold basic at h
  by_cases h0 : present header = false ∨ lower (schemeParam header).1 ≠ "basic".toList
  · rw [if_pos h0] at h
    unfold fail at h
    cases auto <;> cases h
  · rw [if_neg h0] at h
    have hl : lower (schemeParam header).1 = "basic".toList := Classical.byContradiction fun hh => h0 (.inr hh)
    cases hb : basicPair (schemeParam header).2 with
    | none => rw [hb] at h; cases h
    | some pair =>
      rw [hb] at h
      have hpair : pair = (user, password) := by injection h
      subst hpair
      unfold basicPair at hb
      cases hd : Base64.decode (schemeParam header).2 with
      | none => rw [hd] at hb; cases hb
      | some data =>
        rw [hd] at hb
        simp only at hb
        by_cases ha : data.all (fun c => decide (c.toNat < 128)) = true
        · rw [if_pos ha] at hb
          cases hp : (partition ':' data).2 with
          | none => rw [hp] at hb; cases hb
          | some w =>
            rw [hp] at hb
            obtain ⟨e1, e2⟩ := Prod.mk.inj (Option.some.inj hb)
            obtain ⟨h3, h4⟩ := partition_inv ':' data w hp
            rw [e1] at h3 h4
            rw [e2] at h3
            have hne : (schemeParam header).2 ≠ [] := by
              intro e
              rw [e] at hd
              have hnil : some ([] : Str) = some data := hd
              rw [h3] at hnil
              have := congrArg List.length (Option.some.inj hnil)
              simp at this
            obtain ⟨v, hv, hcar⟩ := schemeParam_inv header (schemeParam header).1 (schemeParam header).2 rfl hne
            have hasc : ∀ c ∈ data, c.toNat < 128 := fun c hc => of_decide_eq_true (List.all_eq_true.mp ha c hc)
            rw [h3] at hasc
            refine ⟨(schemeParam header).1, (schemeParam header).2, hv.trans (congrArg some hcar.1), ⟨hl, hcar.2.1⟩,
              hd.trans (congrArg some h3), h4, ?_, ?_⟩
            · exact fun c hc => hasc c (List.mem_append_left _ hc)
            · exact fun c hc => hasc c (List.mem_append_right _ (List.mem_cons_of_mem _ hc))
        · rw [if_neg ha] at hb; cases hb

/-- **C63, Bearer.**  The handler gets a token exactly when the request carries it under the name `bearer`. -/
theorem C63_bearer (auto : Bool) (header : Option Str) (scheme token : Str) :
    bearer auto header = .ok (scheme, token) ↔
      ∃ v, header = some v ∧ Carries v scheme token ∧ Names scheme "bearer".toList := by
  unfold bearer
  constructor
  · intro h
    by_cases h0 : present header = false
    · rw [if_pos h0] at h
      unfold fail at h
      cases auto <;> cases h
    · rw [if_neg h0] at h
      by_cases h1 : ((schemeParam header).1 = [] ∨ (schemeParam header).2 = []) ∨
          lower (schemeParam header).1 ≠ "bearer".toList
      · rw [if_pos h1] at h
        unfold fail at h
        cases auto <;> cases h
      · rw [if_neg h1] at h
        have hp : schemeParam header = (scheme, token) := by injection h
        have hne : token ≠ [] := fun e => h1 (.inl (.inr (by rw [hp]; exact e)))
        obtain ⟨v, hv, hc⟩ := schemeParam_inv header scheme token hp hne
        refine ⟨v, hv, hc, Classical.byContradiction fun hl => h1 (.inr ?_), hc.2.1⟩
        rw [hp]; exact hl
  · rintro ⟨v, rfl, ⟨rfl, h2, h3⟩, h4⟩
    obtain ⟨e1, e2⟩ := schemeParam_carries scheme token h2
    rw [e1, e2, if_neg (fun h => by cases h), if_neg]
    rintro ((h | h) | h)
    · have hnil : scheme = [] := h
      rw [hnil] at h4
      exact absurd h4.1 (by decide)
    · exact h3 h
    · exact h h4.1

example : bearer true (some "Bearer abc".toList) = .ok ("Bearer".toList, "abc".toList) := by decide +kernel

/-- **C63, Digest.**  The same for `digest`. -/
theorem C63_digest (auto : Bool) (header : Option Str) (scheme cred : Str) :
    digest auto header = .ok (scheme, cred) ↔
      ∃ v, header = some v ∧ Carries v scheme cred ∧ Names scheme "digest".toList := by
  unfold digest
  constructor
  · intro h
    by_cases h0 : present header = false ∨ (schemeParam header).1 = [] ∨ (schemeParam header).2 = []
    · rw [if_pos h0] at h
      unfold fail at h
      cases auto <;> cases h
    · rw [if_neg h0] at h
      by_cases h1 : lower (schemeParam header).1 ≠ "digest".toList
      · rw [if_pos h1] at h; cases h
      · rw [if_neg h1] at h
        have hp : schemeParam header = (scheme, cred) := by injection h
        have hne : cred ≠ [] := fun e => h0 (.inr (.inr (by rw [hp]; exact e)))
        obtain ⟨v, hv, hc⟩ := schemeParam_inv header scheme cred hp hne
        refine ⟨v, hv, hc, Classical.byContradiction fun hl => h1 ?_, hc.2.1⟩
        rw [hp]; exact hl
  · rintro ⟨v, rfl, ⟨rfl, h2, h3⟩, h4⟩
    obtain ⟨e1, e2⟩ := schemeParam_carries scheme cred h2
    rw [e1, e2, if_neg, if_neg (fun h => h h4.1)]
    rintro (h | h | h)
    · cases h
    · have hnil : scheme = [] := h
      rw [hnil] at h4
      exact absurd h4.1 (by decide)
    · exact h3 h

example : digest true (some "DIGEST qop=auth".toList) = .ok ("DIGEST".toList, "qop=auth".toList) := by decide +kernel

/-- **C63, OAuth2.**  A bearer token that is not empty arrives, and only such. -/
theorem C63_oauth_partial (auto : Bool) (header : Option Str) (token : Str) (hne : token ≠ []) :
    oauthBearer auto header = .ok token ↔
      ∃ v scheme, header = some v ∧ Carries v scheme token ∧ Names scheme "bearer".toList := by
  unfold oauthBearer
  constructor
  · intro h
    by_cases h0 : present header = true ∧ lower (schemeParam header).1 = "bearer".toList
    · rw [if_pos h0] at h
      have ht : (schemeParam header).2 = token := by injection h
      obtain ⟨v, hv, hc⟩ := schemeParam_inv header (schemeParam header).1 token (by rw [← ht]) hne
      exact ⟨v, _, hv, hc, h0.2, hc.2.1⟩
    · rw [if_neg h0] at h
      unfold fail at h
      cases auto <;> cases h
  · rintro ⟨v, scheme, rfl, ⟨rfl, h2, h3⟩, h4⟩
    obtain ⟨e1, e2⟩ := schemeParam_carries scheme token h2
    rw [e1, e2, if_pos ⟨rfl, h4.1⟩]

example : oauthBearer true (some "bearer abc".toList) = .ok "abc".toList := by decide +kernel

/-- **C63, keys.**  A key that is there and not empty arrives, and only such; this is also what `OAuth2` and
`OpenIdConnect` do with the whole header. -/
theorem C63_key (challenge : Str) (auto : Bool) (value : Option Str) (k : Str) :
    plainValue challenge auto value = .ok k ↔ value = some k ∧ k ≠ [] := by
  unfold plainValue
  cases value with
  | none =>
    unfold fail
    cases auto <;> exact ⟨(fun h => by cases h), (fun h => by cases h.1)⟩
  | some v =>
    simp only
    by_cases hv : v = []
    · rw [if_pos hv]
      unfold fail
      constructor
      · cases auto <;> exact fun h => by cases h
      · rintro ⟨h, h'⟩
        exact absurd (Option.some.inj h ▸ hv) h'
    · rw [if_neg hv]
      constructor
      · intro h
        injection h with h
        subst h
        exact ⟨rfl, hv⟩
      · rintro ⟨h, _⟩
        rw [Option.some.inj h]

example : plainValue "APIKey".toList true (some "k1".toList) = .ok "k1".toList := by decide +kernel

/-- **C63, asking.**  Without credentials the client is asked, or the handler gets `None`. -/
theorem C63_declines_partial (auto : Bool) (header : Option Str) :
    ((∃ c, bearer auto header = .ok c) ∨ Declines "bearer".toList auto (bearer auto header)) ∧
    ((∃ c, oauthBearer auto header = .ok c) ∨ Declines "bearer".toList auto (oauthBearer auto header)) ∧
    ((∃ c, plainValue "APIKey".toList auto header = .ok c) ∨
      Declines "apikey".toList auto (plainValue "APIKey".toList auto header)) := by
  have key : ∀ (α : Type) (name detail challenge : Str), lower (challenge.takeWhile (· ≠ ' ')) = name →
      Declines name auto (fail auto detail challenge : Result α) := by
    intro α name detail challenge h
    unfold Declines fail
    cases auto with
    | true => exact ⟨rfl, h⟩
    | false => rfl
  refine ⟨?_, ?_, ?_⟩
  · unfold bearer
    split
    · exact .inr (key _ _ _ _ (by decide))
    · split
      · exact .inr (key _ _ _ _ (by decide))
      · exact .inl ⟨_, rfl⟩
  · unfold oauthBearer
    split
    · exact .inl ⟨_, rfl⟩
    · exact .inr (key _ _ _ _ (by decide))
  · unfold plainValue
    split
    · exact .inr (key _ _ _ _ (by decide))
    · split
      · exact .inr (key _ _ _ _ (by decide))
      · exact .inl ⟨_, rfl⟩

example : bearer true (some "Basic abc".toList) = .refused 401 invalid "Bearer".toList ∧
    bearer false none = .nothing := by decide +kernel

/-- **C63, asking for Basic and Digest.**  With `auto_error` the client is asked in every other case. -/
theorem C63_asks (realm : Option Str) (header : Option Str) :
    ((∃ c, basic realm true header = .ok c) ∨ Asks "basic".toList (basic realm true header)) ∧
    ((∃ c, digest true header = .ok c) ∨ Asks "digest".toList (digest true header)) := by
  have hch : lower ((basicChallenge realm).takeWhile (· ≠ ' ')) = "basic".toList := by
    unfold basicChallenge
    split
    · decide
    · split
      · decide
      · rename_i r _
        show lower ((("Basic".toList ++ ' ' :: ("realm=\"".toList ++ r ++ ['"']))).takeWhile (· ≠ ' ')) = _
        generalize "realm=\"".toList ++ r ++ ['"'] = x
        rfl
  constructor
  · unfold basic fail
    split
    · rw [if_pos rfl]
      exact .inr ⟨rfl, hch⟩
    · split
      · exact .inr ⟨rfl, hch⟩
      · exact .inl ⟨_, rfl⟩
  · unfold digest fail
    split
    · rw [if_pos rfl]
      exact .inr ⟨rfl, by decide⟩
    · split
      · exact .inr ⟨rfl, by decide⟩
      · exact .inl ⟨_, rfl⟩

example : basic (some "x y".toList) true none = .refused 401 notAuthenticated "Basic realm=\"x y\"".toList := by
  decide +kernel

/-- **False of Basic and Digest without `auto_error`**: unreadable credentials raise, and so does another scheme
for Digest. -/
theorem C63_optional_false :
    (¬ ∀ header, (∃ c, basic none false header = .ok c) ∨ basic none false header = .nothing) ∧
    (¬ ∀ header, (∃ c, digest false header = .ok c) ∨ digest false header = .nothing) := by
  constructor
  · intro h
    have e : basic none false (some "Basic x".toList) = .refused 401 invalid "Basic".toList := by decide +kernel
    rcases h (some "Basic x".toList) with ⟨c, h⟩ | h
    · rw [e] at h; cases h
    · rw [e] at h; cases h
  · intro h
    have e : digest false (some "Bearer x".toList) = .refused 401 invalid "Digest".toList := by decide +kernel
    rcases h (some "Bearer x".toList) with ⟨c, h⟩ | h
    · rw [e] at h; cases h
    · rw [e] at h; cases h

/-- **False of other characters**: a password with bytes above 127 (as UTF-8 has them) is refused. -/
theorem C63_bytes_false : ¬ ∀ user password, ':' ∉ user → (∀ c ∈ user ++ password, c.toNat < 256) →
    basic none true (some (basicHeader "Basic".toList user password)) = .ok (user, password) := by
  intro h
  have := h "u".toList [Char.ofNat 0xc3, Char.ofNat 0xa9] (by decide) (by decide)
  revert this
  decide +kernel

/-- **False of empty tokens**: `Bearer` alone gives the handler an empty token, which is not `None`. -/
theorem C63_empty_false : oauthBearer true (some "Bearer".toList) = .ok [] ∧
    oauthBearer true (some "Bearer ".toList) = .ok [] := by decide +kernel

/-- **False of `HTTPBase`**: whatever the scheme it was made for, it takes every scheme. -/
theorem C63_any_scheme_false (title scheme cred : Str) (auto : Bool) (h : ' ' ∉ scheme) (hs : scheme ≠ []) (hc : cred ≠ []) :
    base title auto (some (scheme ++ ' ' :: cred)) = .ok (scheme, cred) := by
  obtain ⟨e1, e2⟩ := schemeParam_carries scheme cred h
  unfold base
  rw [e1, e2, if_neg (fun h => by cases h), if_neg (fun h => h.elim hs hc)]

example : base "Hawk".toList true (some "Basic abc".toList) = .ok ("Basic".toList, "abc".toList) := by decide +kernel

/-- **False of several spaces**, which RFC 7235 allows: they become part of the token. -/
theorem C63_spaces_false : bearer true (some "Bearer  abc".toList) = .ok ("Bearer".toList, " abc".toList) := by
  decide +kernel

/-- **False of `OpenIdConnect`**: it reads `Authorization` and asks for `APIKey`, which is no scheme of that field. -/
theorem C63_openid_false : ¬ Asks "bearer".toList (plainValue "APIKey".toList true none) := by
  rintro ⟨_, h⟩
  revert h
  decide

/-- **C63, no credentials.**  A header that is missing or empty: with `auto_error` the client is asked for credentials,
in the same words by every scheme. -/
theorem C63_missing (realm header : Option Str) (title challenge : Str) (h : header = none ∨ header = some []) :
    base title true header = .refused 401 "Not authenticated".toList title ∧
    basic realm true header = .refused 401 "Not authenticated".toList (basicChallenge realm) ∧
    bearer true header = .refused 401 "Not authenticated".toList "Bearer".toList ∧
    digest true header = .refused 401 "Not authenticated".toList "Digest".toList ∧
    oauthBearer true header = .refused 401 "Not authenticated".toList "Bearer".toList ∧
    plainValue challenge true header = .refused 401 "Not authenticated".toList challenge := by
  have hp : present header = false := by rcases h with rfl | rfl <;> rfl
  have hf : ∀ (α : Type) (d c : Str), (fail true d c : Result α) = .refused 401 d c := fun _ _ _ => rfl
  refine ⟨?_, ?_, ?_, ?_, ?_, ?_⟩
  · unfold base; rw [if_pos hp, hf]; rfl
  · unfold basic; rw [if_pos (Or.inl hp), hf]; rfl
  · unfold bearer; rw [if_pos hp, hf]; rfl
  · unfold digest; rw [if_pos (Or.inl hp), hf]; rfl
  · unfold oauthBearer; rw [if_neg (fun x => by rw [hp] at x; cases x.1), hf]; rfl
  · rcases h with rfl | rfl <;> rfl

example : (none : Option Str) = none ∨ (none : Option Str) = some [] := .inl rfl

/-- **C63, the plain scheme** takes any scheme name: exactly the name and the credentials sent. -/
theorem C63_base (title : Str) (auto : Bool) (header : Option Str) (scheme cred : Str) :
    base title auto header = .ok (scheme, cred) ↔ ∃ v, header = some v ∧ Carries v scheme cred ∧ scheme ≠ [] := by
  unfold base
  constructor
  · intro h
    by_cases h0 : present header = false
    · rw [if_pos h0] at h
      unfold fail at h
      cases auto <;> cases h
    · rw [if_neg h0] at h
      by_cases h1 : (schemeParam header).1 = [] ∨ (schemeParam header).2 = []
      · rw [if_pos h1] at h
        unfold fail at h
        cases auto <;> cases h
      · rw [if_neg h1] at h
        have e : schemeParam header = (scheme, cred) := by injection h
        rw [e] at h1
        have hc : cred ≠ [] := fun x => h1 (.inr x)
        obtain ⟨v, hv, hk⟩ := schemeParam_inv header scheme cred e hc
        exact ⟨v, hv, hk, fun x => h1 (.inl x)⟩
  · rintro ⟨v, rfl, ⟨rfl, h1, h2⟩, h3⟩
    obtain ⟨e1, e2⟩ := schemeParam_carries scheme cred h1
    have hp : present (some (scheme ++ ' ' :: cred)) = true := by
      unfold present
      simp
    rw [if_neg (by rw [hp]; decide), e1, if_neg (fun x => x.elim h3 h2)]

example : Carries "Token abc".toList "Token".toList "abc".toList ∧ "Token".toList ≠ [] := by
  refine ⟨⟨by decide, by decide, by decide⟩, by decide⟩

/-- **C63, credentials that nobody encoded.**  A parameter with a single character of the alphabet of Base64, whatever
else is in it, is refused. -/
theorem C63_short (realm : Option Str) (auto : Bool) (scheme param : Str) (hs : Names scheme "basic".toList)
    (h : (param.filter Base64.Spec.carries).length = 1) :
    basic realm auto (some (scheme ++ ' ' :: param)) =
      .refused 401 "Invalid authentication credentials".toList (basicChallenge realm) := by
  obtain ⟨h1, h2⟩ := schemeParam_carries scheme param hs.2
  have hp : present (some (scheme ++ ' ' :: param)) = true := by
    unfold present
    simp
  have hb : basicPair param = none := by
    unfold basicPair
    rw [Base64.decode_short param h]
  unfold basic
  rw [h1, if_neg (fun x => x.elim (fun y => by rw [hp] at y; cases y) (fun y => y hs.1))]
  show (match basicPair param with | none => _ | some pair => _) = _
  rw [hb]
  rfl

example : ("Q===".toList.filter Base64.Spec.carries).length = 1 ∧ Names "Basic".toList "basic".toList :=
  ⟨by decide +kernel, by decide, by decide⟩

end Verif.Credentials
