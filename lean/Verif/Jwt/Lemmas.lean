import Verif.Jwt.Spec

namespace Verif.Jwt

open Verif Verif.Jwt.Spec

theorem timestamp_convert (here : Int) (d : Date) :
    timestamp here (convertTime d) = secondOf here d * 1000000 := by
  unfold timestamp convertTime secondOf second
  dsimp only
  omega

theorem timestamp_utcnow (here now : Int) :
    timestamp here (convertTime (utcnow now)) = secondAt now * 1000000 := by
  rw [timestamp_convert]
  unfold secondOf secondAt utcnow
  dsimp only [Option.getD]
  omega

theorem secondOf_convert (here : Int) (d : Date) : secondOf here (convertTime d) = secondOf here d := by
  unfold convertTime secondOf second
  dsimp only
  omega

theorem secondOf_utcnow (here now : Int) : secondOf here (convertTime (utcnow now)) = secondAt now := by
  rw [secondOf_convert]
  unfold secondOf secondAt utcnow
  dsimp only [Option.getD]
  omega

theorem validateExp_ok (here now : Int) (d e : Date) :
    validateExp here now d = .ok e ↔ secondAt now ≤ secondOf here d ∧ e = convertTime d := by
  unfold validateExp
  rw [timestamp_utcnow, timestamp_convert]
  split
  · rename_i h
    constructor
    · intro he
      cases he
      exact ⟨by omega, rfl⟩
    · rintro ⟨_, rfl⟩
      rfl
  · rename_i h
    constructor
    · intro he
      cases he
    · rintro ⟨h', _⟩
      omega

theorem validateIat_ok (here now : Int) (d e : Date) :
    validateIat here now d = .ok e ↔ secondOf here d ≤ secondAt now ∧ e = convertTime d := by
  unfold validateIat
  rw [timestamp_utcnow, timestamp_convert]
  split
  · rename_i h
    constructor
    · intro he
      cases he
      exact ⟨by omega, rfl⟩
    · rintro ⟨_, rfl⟩
      rfl
  · rename_i h
    constructor
    · intro he
      cases he
    · rintro ⟨h', _⟩
      omega

/-- When `Token(…)` gives a token. -/
theorem make_ok (here now : Int) (f : Fields) (t : Token) :
    make here now f = .ok t ↔ (∃ e, f.exp = some e ∧ secondAt now ≤ secondOf here e ∧ t.exp = convertTime e) ∧
      (f.iat = none ∧ t.iat = convertTime (utcnow now) ∨
        ∃ i, f.iat = some i ∧ secondOf here i ≤ secondAt now ∧ t.iat = convertTime i) ∧
      validateSub f.sub = .ok t.sub ∧ t.iss = f.iss ∧ t.aud = f.aud ∧ t.jti = f.jti := by
  obtain ⟨texp, tiat, tsub, tiss, taud, tjti⟩ := t
  unfold make
  cases hf : f.exp with
  | none =>
    constructor
    · intro h
      cases h
    · rintro ⟨⟨e, he, _⟩, _⟩
      cases he
  | some e =>
    dsimp only
    cases he : validateExp here now e with
    | error x =>
      constructor
      · intro h
        cases h
      · rintro ⟨⟨e', hee, h1, h2⟩, _⟩
        cases hee
        rw [(validateExp_ok here now e _).2 ⟨h1, rfl⟩] at he
        cases he
    | ok e1 =>
      obtain ⟨g1, g2⟩ := (validateExp_ok here now e e1).1 he
      cases hi : f.iat with
      | none =>
        cases hs : validateSub f.sub with
        | error x =>
          constructor
          · intro h
            cases h
          · rintro ⟨_, _, h3, _⟩
            cases h3
        | ok s =>
          constructor
          · intro h
            cases h
            exact ⟨⟨e, rfl, g1, g2⟩, Or.inl ⟨rfl, rfl⟩, rfl, rfl, rfl, rfl⟩
          · rintro ⟨⟨e', hee, h1, h2⟩, h3, h4, h5, h6, h7⟩
            cases hee
            cases h4
            subst h2 h5 h6 h7 g2
            rcases h3 with ⟨_, h3⟩ | ⟨i, h3, _⟩
            · subst h3
              rfl
            · cases h3
      | some i =>
        cases hv : validateIat here now i with
        | error x =>
          constructor
          · intro h
            simp only [bind, Except.bind, hv] at h
            cases h
          · rintro ⟨_, h3, _⟩
            rcases h3 with ⟨h3, _⟩ | ⟨i', h3, h4, _⟩
            · cases h3
            · cases h3
              rw [(validateIat_ok here now i _).2 ⟨h4, rfl⟩] at hv
              cases hv
        | ok i1 =>
          obtain ⟨k1, k2⟩ := (validateIat_ok here now i i1).1 hv
          cases hs : validateSub f.sub with
          | error x =>
            constructor
            · intro h
              simp only [bind, Except.bind, hv] at h
              cases h
            · rintro ⟨_, _, h3, _⟩
              cases h3
          | ok s =>
            constructor
            · intro h
              simp only [bind, Except.bind, hv] at h
              cases h
              exact ⟨⟨e, rfl, g1, g2⟩, Or.inr ⟨i, rfl, k1, k2⟩, rfl, rfl, rfl, rfl⟩
            · rintro ⟨⟨e', hee, h1, h2⟩, h3, h4, h5, h6, h7⟩
              cases hee
              cases h4
              subst h2 h5 h6 h7 g2
              rcases h3 with ⟨h3, _⟩ | ⟨i', h3, _, h8⟩
              · cases h3
              · cases h3
                subst h8 k2
                simp only [bind, Except.bind, hv]

/-- A claim as it is written. -/
def written : Claim → Claim
  | .date d => .num (unix d)
  | c => c

theorem writeClaim_ok (nc mc : Name × Claim) (h : writeClaim nc = .ok mc) : mc = (nc.1, written nc.2) := by
  obtain ⟨n, c⟩ := nc
  cases c with
  | date d =>
    unfold writeClaim at h
    dsimp only at h
    split at h
    · cases h
      rfl
    · cases h
  | num k => cases h; rfl
  | text k => cases h; rfl
  | null => cases h; rfl
  | other k => cases h; rfl

theorem aget_written (p q : Payload) (h : writeClaims p = .ok q) (n : Name) :
    aget q n = (aget p n).map written := by
  induction p generalizing q with
  | nil =>
    cases h
    rfl
  | cons nc rest ih =>
    unfold writeClaims at h
    cases h1 : writeClaim nc with
    | error e =>
      rw [h1] at h
      cases h
    | ok mc =>
      rw [h1] at h
      cases h2 : writeClaims rest with
      | error e =>
        rw [h2] at h
        cases h
      | ok ms =>
        rw [h2] at h
        cases h
        have := writeClaim_ok nc mc h1
        subst this
        obtain ⟨n', c⟩ := nc
        simp only [aget]
        split
        · rfl
        · exact ih ms h2

theorem aget_foreign (extra : Payload) (h : Foreign extra) (n : Name) (hn : ∀ s, n ≠ .other s) :
    aget extra n = none := by
  induction extra with
  | nil => rfl
  | cons kv rest ih =>
    obtain ⟨k, v⟩ := kv
    obtain ⟨s, hs⟩ := h (k, v) (List.mem_cons_self ..)
    dsimp only at hs
    simp only [aget]
    rw [if_neg (fun e => hn s (by rw [← e, hs]))]
    exact ih (fun kv hkv => h kv (List.mem_cons_of_mem _ hkv))

theorem aget_dump (t : Token) : aget (dump t) .exp = some (.date t.exp) ∧ aget (dump t) .iat = some (.date t.iat) ∧
    aget (dump t) .nbf = none ∧ aget (dump t) .sub = t.sub.map .text ∧ aget (dump t) .iss = t.iss.map .text ∧
    aget (dump t) .aud = t.aud.map .text ∧ aget (dump t) .jti = t.jti.map .text := by
  obtain ⟨e, i, s, iss, aud, jti⟩ := t
  cases s <;> cases iss <;> cases aud <;> cases jti <;>
    exact ⟨rfl, rfl, rfl, rfl, rfl, rfl, rfl⟩

theorem encode_ok (c : Codec) (key alg : Str) (t : Token) (extra : Option Payload) (s : Str)
    (h : encode c key alg t extra = .ok s) :
    ∃ q, writeClaims (aupdate (dump t) (extra.getD [])) = .ok q ∧ c.sign key alg q = .ok s := by
  unfold encode at h
  cases hj : jwtEncode c key alg (aupdate (dump t) (extra.getD [])) with
  | error e =>
    rw [hj] at h
    cases e <;> cases h
  | ok s' =>
    rw [hj] at h
    cases h
    unfold jwtEncode at hj
    cases hw : writeClaims (aupdate (dump t) (extra.getD [])) with
    | error e =>
      rw [hw] at hj
      cases hj
    | ok q =>
      rw [hw] at hj
      exact ⟨q, rfl, hj⟩

theorem unix_placed (here : Int) (d : Date) (h : Placed here d) : unix d = secondOf here d := by
  unfold unix secondOf second
  rcases h with h | h
  · cases hz : d.zone with
    | none => exact absurd hz h
    | some z => rfl
  · subst h
    rfl

theorem fromUnix_near (n : Int) (h1 : -20000000000 ≤ n) (h2 : n ≤ 20000000000) : fromUnix n = utc n := by
  unfold fromUnix
  rw [if_neg (by omega)]
  rfl

theorem convert_utc (n : Int) : convertTime (utc n) = utc n := by
  unfold convertTime utc second
  dsimp only
  congr 1
  omega

theorem secondOf_utc (here n : Int) : secondOf here (utc n) = n := by
  unfold secondOf utc
  dsimp only [Option.getD]
  omega

theorem convert_fromUnix (n : Int) : convertTime (fromUnix n) = utc (secondOf 0 (fromUnix n)) := by
  unfold convertTime fromUnix utc secondOf second
  dsimp only [Option.getD]
  congr 1
  omega

/-- When `decode` gives a token. -/
theorem decode_ok (c : Codec) (here now : Int) (a : Call) (key : Str) (algs : List Str) (s : Str) (t : Token)
    (h : decode c here now a key algs s = .ok t) :
    binds a = true ∧ ∃ p f, c.verify key algs s = .ok p ∧ jwtChecks now a p = true ∧ fieldsOf p = some f ∧
      make here now f = .ok t := by
  unfold decode at h
  split at h
  · rename_i hb
    refine ⟨hb, ?_⟩
    cases hv : c.verify key algs s with
    | error e =>
      rw [hv] at h
      cases h
    | ok p =>
      rw [hv] at h
      dsimp only at h
      split at h
      · rename_i hj
        cases hf : fieldsOf p with
        | none =>
          rw [hf] at h
          cases h
        | some f =>
          rw [hf] at h
          exact ⟨p, f, rfl, hj, hf, h⟩
      · cases h
  · cases h

theorem fieldsOf_some (p : Payload) (f : Fields) (h : fieldsOf p = some f) :
    dateOf (aget p .exp) = some f.exp ∧ dateOf (aget p .iat) = some f.iat ∧ subjectOf (aget p .sub) = some f.sub ∧
      textOf (aget p .iss) = some f.iss ∧ textOf (aget p .aud) = some f.aud ∧ textOf (aget p .jti) = some f.jti := by
  unfold fieldsOf at h
  simp only [bind, Option.bind_eq_some_iff, Option.some.injEq] at h
  obtain ⟨a, h1, b, h2, c, h3, d, h4, e, h5, g, h6, rfl⟩ := h
  exact ⟨h1, h2, h3, h4, h5, h6⟩

theorem fieldsOf_eq (p : Payload) (f : Fields) (h1 : dateOf (aget p .exp) = some f.exp)
    (h2 : dateOf (aget p .iat) = some f.iat) (h3 : subjectOf (aget p .sub) = some f.sub)
    (h4 : textOf (aget p .iss) = some f.iss) (h5 : textOf (aget p .aud) = some f.aud)
    (h6 : textOf (aget p .jti) = some f.jti) : fieldsOf p = some f := by
  unfold fieldsOf
  rw [h1, h2, h3, h4, h5, h6]
  rfl

theorem dateOf_some (o : Option Claim) (d : Date) (h : dateOf o = some (some d)) :
    ∃ n, o = some (.num n) ∧ d = fromUnix n := by
  cases o with
  | none => cases h
  | some c =>
    cases c with
    | num n =>
      cases h
      exact ⟨n, rfl, rfl⟩
    | text s => cases h
    | null => cases h
    | date d => cases h
    | other n => cases h

theorem textOf_map (o : Option Str) : textOf ((o.map Claim.text).map written) = some o := by
  cases o <;> rfl

end Verif.Jwt
