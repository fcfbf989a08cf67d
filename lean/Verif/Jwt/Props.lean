import Verif.Jwt.Lemmas

/-!
# C107: JSON Web Tokens
-/

namespace Verif.Jwt

open Verif Verif.Jwt.Spec

/-- C107: which arguments make a token: `exp` must not be in a second before this one and `iat` not in one after it;
the dates are kept without their microseconds, and the subject as a string.  Part: `sub` is not `None`. -/
theorem C107_make_partial (here now : Int) (f : Fields) (t : Token) (hs : f.sub ≠ .none) :
    make here now f = .ok t ↔
      (∃ e, f.exp = some e ∧ secondAt now ≤ secondOf here e ∧ t.exp = ⟨e.wall - e.wall % 1000000, e.zone⟩) ∧
      (f.iat = none ∧ t.iat = utc (secondAt now) ∨
        ∃ i, f.iat = some i ∧ secondOf here i ≤ secondAt now ∧ t.iat = ⟨i.wall - i.wall % 1000000, i.zone⟩) ∧
      SubjectIs f.sub t.sub ∧ t.iss = f.iss ∧ t.aud = f.aud ∧ t.jti = f.jti := by
  rw [make_ok]
  have hnow : convertTime (utcnow now) = utc (secondAt now) := by
    unfold convertTime utcnow utc secondAt second
    dsimp only
    congr 1
    omega
  have hsub : validateSub f.sub = .ok t.sub ↔ SubjectIs f.sub t.sub := by
    generalize f.sub = a at hs ⊢
    generalize t.sub = b
    cases a with
    | absent =>
      constructor
      · intro h
        cases h
        exact .absent
      · intro h
        cases h
        rfl
    | none => exact absurd rfl hs
    | text s =>
      unfold validateSub
      dsimp only
      split
      · rename_i hn
        constructor
        · intro h
          cases h
        · intro h
          cases h with
          | text _ h => exact absurd hn h
      · rename_i hn
        constructor
        · intro h
          cases h
          exact .text s hn
        · intro h
          cases h
          rfl
    | number n =>
      unfold validateSub
      dsimp only
      split
      · rename_i hn
        constructor
        · intro h
          cases h
        · intro h
          cases h with
          | number _ h => omega
      · rename_i hn
        constructor
        · intro h
          cases h
          exact .number n (by omega)
        · intro h
          cases h
          rfl
  rw [hnow, hsub]
  rfl

/-- 10:00:00.5 in a zone two hours east, for a token made at 07:59:59.9 UTC of the first day. -/
example : (make 0 28799900000 { exp := some ⟨36000500000, some 7200⟩, sub := .number 12 }).toOption =
    some ⟨⟨36000000000, some 7200⟩, ⟨28799000000, some 0⟩, some "12".toList, none, none, none⟩ := by decide

/-- C107 does not hold for a subject `None`: it is the string `None`. -/
theorem C107_none_false : ¬∀ (here now : Int) (f : Fields) (t : Token), f.sub = .none → make here now f = .ok t →
    t.sub = none := by
  intro h
  have := h 0 0 { exp := some ⟨1, some 0⟩, sub := .none } ⟨⟨0, some 0⟩, ⟨0, some 0⟩, some "None".toList, none, none,
      none⟩
    rfl rfl
  exact absurd this (by decide)

/-- C107: a token which is decoded was signed with the key; it has not expired, it was not issued in the future, and
the issuer is the one which is asked for. -/
theorem C107_genuine (c : Codec) (here now : Int) (a : Call) (key : Str) (algs : List Str) (s : Str) (t : Token)
    (h : decode c here now a key algs s = .ok t) :
    (∃ p, c.verify key algs s = .ok p ∧ (∃ n, aget p .exp = some (.num n) ∧ now - a.leeway < n * 1000000) ∧
      (∀ n, aget p .nbf = some (.num n) → n * 1000000 ≤ now + a.leeway)) ∧
    secondAt now ≤ secondOf here t.exp ∧ secondOf here t.iat ≤ secondAt now ∧
    ∀ i, a.issuer = some i → t.iss = some i := by
  obtain ⟨_, p, f, hv, hj, hf, hm⟩ := decode_ok c here now a key algs s t h
  obtain ⟨f1, f2, f3, f4, f5, f6⟩ := fieldsOf_some p f hf
  obtain ⟨⟨e, m1, m2, m3⟩, m4, m5, m6, m7, m8⟩ := (make_ok here now f t).1 hm
  unfold jwtChecks at hj
  simp only [Bool.and_eq_true] at hj
  obtain ⟨⟨⟨⟨⟨j1, j2⟩, j3⟩, j4⟩, j5⟩, j6⟩ := hj
  rw [m1] at f1
  obtain ⟨n, hn, rfl⟩ := dateOf_some _ _ f1
  refine ⟨⟨p, hv, ⟨n, hn, ?_⟩, ?_⟩, ?_, ?_, ?_⟩
  · unfold numberIf at j5
    rw [hn] at j5
    exact of_decide_eq_true j5
  · intro k hk
    unfold numberIf at j4
    rw [hk] at j4
    exact of_decide_eq_true j4
  · rw [m3, secondOf_convert]
    exact m2
  · rcases m4 with ⟨_, m4⟩ | ⟨i, _, m9, m4⟩
    · rw [m4, secondOf_utcnow]
      exact Int.le_refl _
    · rw [m4, secondOf_convert]
      exact m9
  · intro i hi
    rw [hi] at j6
    rw [beq_iff_eq.1 j6] at f4
    rw [m6]
    exact (Option.some.inj f4).symm

/-- C107: a token of which a second has passed since it expired is refused. -/
theorem C107_expired (c : Codec) (here now : Int) (a : Call) (key : Str) (algs : List Str) (s : Str) (p : Payload)
    (n : Int) (hnow : 0 ≤ now) (hv : c.verify key algs s = .ok p) (hn : aget p .exp = some (.num n))
    (hlt : n < secondAt now) (t : Token) : decode c here now a key algs s ≠ .ok t := by
  intro h
  obtain ⟨_, p', f, hv', hj, hf, hm⟩ := decode_ok c here now a key algs s t h
  rw [hv] at hv'
  cases hv'
  obtain ⟨f1, _⟩ := fieldsOf_some p f hf
  obtain ⟨⟨e, m1, m2, m3⟩, _⟩ := (make_ok here now f t).1 hm
  rw [hn, m1] at f1
  have he : fromUnix n = e := Option.some.inj (Option.some.inj f1)
  subst he
  unfold secondAt at hlt m2
  unfold secondOf fromUnix second at m2
  dsimp only [Option.getD] at m2
  split at m2 <;> omega

/-- C107: a token comes back from its text at every moment before it expires, with the same seconds and strings.
Part: the dates have zones, or the machine is in UTC; they are not past the year 2603; other claims have other names;
the issuer is not asked for, or is the one of the token. -/
theorem C107_round_partial (c : Codec) (hc : Lawful c) (here now later : Int) (f : Fields) (t : Token) (a : Call)
    (key alg : Str) (algs : List Str) (extra : Option Payload) (s : Str) (hm : make here now f = .ok t)
    (he : encode c key alg t extra = .ok s) (hx : Foreign (extra.getD [])) (ha : alg ∈ algs) (hb : binds a = true)
    (hl : 0 ≤ a.leeway) (hi : a.issuer = none ∨ a.issuer = t.iss) (pe : Placed here t.exp) (pi : Placed here t.iat)
    (be : -20000000000 ≤ secondOf here t.exp ∧ secondOf here t.exp ≤ 20000000000)
    (bi : -20000000000 ≤ secondOf here t.iat ∧ secondOf here t.iat ≤ 20000000000) (hle : now ≤ later)
    (hlt : later < secondOf here t.exp * 1000000) :
    decode c here later a key algs s =
      .ok { t with exp := utc (secondOf here t.exp), iat := utc (secondOf here t.iat) } := by
  obtain ⟨q, hq, hs⟩ := encode_ok c key alg t extra s he
  have hv := hc key alg q s hs algs ha
  obtain ⟨⟨e, m1, m2, m3⟩, m4, m5, m6, m7, m8⟩ := (make_ok here now f t).1 hm
  obtain ⟨d1, d2, d3, d4, d5, d6, d7⟩ := aget_dump t
  have hget : ∀ n, (∀ s, n ≠ .other s) → aget q n = (aget (dump t) n).map written := by
    intro n hn
    rw [aget_written _ q hq n, aget_aupdate_of_notmem _ _ _ (aget_foreign _ hx n hn)]
  have q1 : aget q .exp = some (.num (secondOf here t.exp)) := by
    rw [hget .exp (by intro s; exact Name.noConfusion), d1, ← unix_placed here _ pe]
    rfl
  have q2 : aget q .iat = some (.num (secondOf here t.iat)) := by
    rw [hget .iat (by intro s; exact Name.noConfusion), d2, ← unix_placed here _ pi]
    rfl
  have q3 : aget q .nbf = none := by
    rw [hget .nbf (by intro s; exact Name.noConfusion), d3]
    rfl
  have q4 : aget q .sub = (t.sub.map Claim.text).map written := by
    rw [hget .sub (by intro s; exact Name.noConfusion), d4]
  have q5 : aget q .iss = (t.iss.map Claim.text).map written := by
    rw [hget .iss (by intro s; exact Name.noConfusion), d5]
  have q6 : aget q .aud = (t.aud.map Claim.text).map written := by
    rw [hget .aud (by intro s; exact Name.noConfusion), d6]
  have q7 : aget q .jti = (t.jti.map Claim.text).map written := by
    rw [hget .jti (by intro s; exact Name.noConfusion), d7]
  have hiat : secondOf here t.iat ≤ secondAt now := by
    rcases m4 with ⟨_, m4⟩ | ⟨i, _, m9, m4⟩
    · rw [m4, secondOf_utcnow]
      exact Int.le_refl _
    · rw [m4, secondOf_convert]
      exact m9
  have hiat' : secondOf here t.iat * 1000000 ≤ later := by
    unfold secondAt at hiat
    omega
  have htext : ∀ (n : Name) (o : Option Str), aget q n = (o.map Claim.text).map written → textIf q n = true := by
    intro n o h
    unfold textIf
    rw [h]
    cases o <;> rfl
  have hj : jwtChecks later a q = true := by
    unfold jwtChecks
    rw [htext .sub _ q4, htext .jti _ q7]
    unfold numberIf
    rw [q1, q2, q3]
    have c1 : decide (secondOf here t.iat * second ≤ later + a.leeway) = true :=
      decide_eq_true (by unfold second; omega)
    have c2 : decide (later - a.leeway < secondOf here t.exp * second) = true :=
      decide_eq_true (by unfold second; omega)
    dsimp only
    rw [c1, c2]
    rcases hi with hi | hi
    · rw [hi]
      rfl
    · rw [hi, q5]
      cases t.iss with
      | none => rfl
      | some i => exact beq_self_eq_true (some (Claim.text i))
  -- the subject of a token is not empty
  obtain ⟨sub, hsub, hsub'⟩ : ∃ sub, subjectOf (aget q .sub) = some sub ∧ validateSub sub = .ok t.sub := by
    rw [q4]
    cases ht : t.sub with
    | none => exact ⟨.absent, rfl, rfl⟩
    | some u =>
      refine ⟨.text u, rfl, ?_⟩
      have hu : u ≠ [] := by
        intro hu
        subst hu
        rw [ht] at m5
        cases hf : f.sub with
        | absent =>
          rw [hf] at m5
          cases m5
        | none =>
          rw [hf] at m5
          exact absurd m5 (by intro h; cases h)
        | text v =>
          rw [hf] at m5
          unfold validateSub at m5
          dsimp only at m5
          split at m5
          · cases m5
          · rename_i hv
            cases m5
            exact hv rfl
        | number n =>
          rw [hf] at m5
          unfold validateSub at m5
          dsimp only at m5
          split at m5
          · cases m5
          · have h0 := Option.some.inj (Except.ok.inj m5)
            rename_i hn
            match n, hn with
            | .ofNat k, _ =>
              have h1 : (toString (Int.ofNat k)).toList = (Nat.repr k).toList := rfl
              rw [h1, Nat.toList_repr] at h0
              exact Nat.toDigits_ne_nil h0
            | .negSucc k, hn => exact hn (Int.lt_trans (Int.negSucc_lt_zero k) (by decide))
      show (if u = [] then _ else _) = _
      rw [if_neg hu]
  have hff : fieldsOf q = some ⟨some (utc (secondOf here t.exp)), some (utc (secondOf here t.iat)), sub, t.iss, t.aud,
      t.jti⟩ := by
    apply fieldsOf_eq
    · rw [q1, ← fromUnix_near _ be.1 be.2]
      rfl
    · rw [q2, ← fromUnix_near _ bi.1 bi.2]
      rfl
    · exact hsub
    · rw [q5, textOf_map]
    · rw [q6, textOf_map]
    · rw [q7, textOf_map]
  unfold decode
  rw [if_pos hb, hv]
  dsimp only
  rw [if_pos hj, hff]
  dsimp only
  rw [make_ok]
  refine ⟨⟨_, rfl, ?_, (convert_utc _).symm⟩, Or.inr ⟨_, rfl, ?_, (convert_utc _).symm⟩, hsub', rfl, rfl, rfl⟩
  · rw [secondOf_utc]
    unfold secondAt
    omega
  · rw [secondOf_utc]
    unfold secondAt
    omega

/-- For examples: signing in which only one payload can be signed, with the text `token`. -/
def plainCodec (p : Payload) : Codec where
  sign := fun _ _ q => if q = p then .ok "token".toList else .error .jwt
  verify := fun _ algs s => if s = "token".toList ∧ algs ≠ [] then .ok p else .error .jwt

theorem plainCodec_lawful (p : Payload) : Lawful (plainCodec p) := by
  intro key alg q s hs algs ha
  unfold plainCodec at hs ⊢
  dsimp only at hs ⊢
  split at hs
  · rename_i hq
    cases hs
    rw [if_pos ⟨rfl, by intro h; subst h; exact absurd ha List.not_mem_nil⟩, hq]
  · cases hs

/-- The payload of the next example. -/
def demoPayload : Payload :=
  [(.exp, .num 28800), (.iat, .num 28799), (.sub, .text "12".toList), (.other "scopes".toList, .other 3)]

/-- A token until 10:00 in a zone two hours east, with scopes beside the fields. -/
example :
    (make 0 28799900000 { exp := some ⟨36000500000, some 7200⟩, sub := .number 12 }).toOption =
      some ⟨⟨36000000000, some 7200⟩, ⟨28799000000, some 0⟩, some "12".toList, none, none, none⟩ ∧
    (encode (plainCodec demoPayload) [] [] ⟨⟨36000000000, some 7200⟩, ⟨28799000000, some 0⟩, some "12".toList, none,
      none, none⟩ (some [(.other "scopes".toList, .other 3)])).toOption = some "token".toList ∧
    (decode (plainCodec demoPayload) 0 28799950000 {} [] [[]] "token".toList).toOption =
      some ⟨⟨28800000000, some 0⟩, ⟨28799000000, some 0⟩, some "12".toList, none, none, none⟩ := by decide

/-- C107 does not hold for dates after the year 2603: the number is taken for milliseconds, so that a token until the
end of the year 9999 has expired. -/
theorem C107_far_false : ¬∀ (c : Codec) (now : Int) (f : Fields) (t : Token) (s : Str), Lawful c →
    make 0 now f = .ok t → encode c [] [] t none = .ok s → now < secondOf 0 t.exp * 1000000 →
    ∃ u, decode c 0 now {} [] [[]] s = .ok u := by
  intro h
  obtain ⟨u, hu⟩ := h (plainCodec [(.exp, .num 253402300799), (.iat, .num 1800000000)]) 1800000000000000
    { exp := some ⟨253402300799000000, some 0⟩ }
    ⟨⟨253402300799000000, some 0⟩, ⟨1800000000000000, some 0⟩, none, none, none, none⟩ "token".toList
    (plainCodec_lawful _) rfl rfl (by decide)
  have he : decode (plainCodec [(.exp, .num 253402300799), (.iat, .num 1800000000)]) 0 1800000000000000 {} [] [[]]
      "token".toList = .error .validation := rfl
  rw [he] at hu
  cases hu

/-- C107 does not hold for dates without a zone: on a machine two hours east of UTC a token for ten minutes is good
for two hours more. -/
theorem C107_naive_false : ¬∀ (c : Codec) (here now later : Int) (f : Fields) (t : Token) (s : Str), Lawful c →
    make here now f = .ok t → encode c [] [] t none = .ok s → secondOf here t.exp < secondAt later →
    ∀ u, decode c here later {} [] [[]] s ≠ .ok u := by
  intro h
  exact h (plainCodec [(.exp, .num 1800007800), (.iat, .num 1800000000)]) 7200 1800000000000000 1800007000000000
    { exp := some ⟨1800007800000000, none⟩ }
    ⟨⟨1800007800000000, none⟩, ⟨1800000000000000, some 0⟩, none, none, none, none⟩ "token".toList
    (plainCodec_lawful _) rfl rfl (by decide)
    ⟨⟨1800007800000000, some 0⟩, ⟨1800000000000000, some 0⟩, none, none, none, none⟩ rfl

/-- C107 does not hold for leeway: a token which PyJWT accepts with it is refused, one second after it expired. -/
theorem C107_leeway_false : ¬∀ (c : Codec) (now : Int) (a : Call) (s : Str) (p : Payload) (n : Int),
    binds a = true → c.verify [] [[]] s = .ok p → jwtChecks now a p = true → aget p .exp = some (.num n) →
    now - a.leeway < n * 1000000 → ∃ t, decode c 0 now a [] [[]] s = .ok t := by
  intro h
  obtain ⟨t, ht⟩ := h (plainCodec [(.exp, .num 1800000000)]) 1800000001000000
    { given := [.token, .key, .algorithms, .leeway], leeway := 60000000 } "token".toList [(.exp, .num 1800000000)]
    1800000000 rfl rfl rfl rfl (by decide)
  have he : decode (plainCodec [(.exp, .num 1800000000)]) 0 1800000001000000
      { given := [.token, .key, .algorithms, .leeway], leeway := 60000000 } [] [[]] "token".toList =
        .error .validation := rfl
  rw [he] at ht
  cases ht

/-- C107 does not hold for the audience: it is not verified if it is asked for. -/
theorem C107_audience_false : ¬∀ (c : Codec) (now : Int) (a : Call) (s : Str) (t : Token) (w : Str),
    decode c 0 now a [] [[]] s = .ok t → a.audience = some w → t.aud = some w := by
  intro h
  have := h (plainCodec [(.exp, .num 1800000000), (.aud, .text "shop".toList)]) 1700000000000000
    { given := [.token, .key, .algorithms, .audience], audience := some "bank".toList } "token".toList
    ⟨⟨1800000000000000, some 0⟩, ⟨1700000000000000, some 0⟩, none, none, some "shop".toList, none⟩ "bank".toList rfl rfl
  exact absurd this (by decide)

/-- C107: `options` cannot be given to `decode`, nor `algorithm` for `algorithms` as in the documentation. -/
theorem C107_call_false : (∀ (c : Codec) (here now : Int) (a : Call) (key : Str) (algs : List Str) (s : Str),
      Keyword.options ∈ a.given → decode c here now a key algs s = .error .type) ∧
    ∀ (c : Codec) (here now : Int) (a : Call) (key : Str) (algs : List Str) (s : Str),
      a.given = [.token, .key, .algorithm] → decode c here now a key algs s = .error .type := by
  constructor
  · intro c here now a key algs s h
    have hb : binds a = false := by
      unfold binds
      rw [List.contains_iff_mem.2 h]
      simp only [Bool.not_true, Bool.and_false, Bool.false_and]
    unfold decode
    rw [hb]
    rfl
  · intro c here now a key algs s h
    have hb : binds a = false := by
      unfold binds
      rw [h]
      rfl
    unfold decode
    rw [hb]
    rfl

/-- C107: of the other claims nothing is left when a token is read: payloads which agree in the fields and in `nbf`
give the same. -/
theorem C107_others (c d : Codec) (here now : Int) (a : Call) (key : Str) (algs : List Str) (s : Str) (p q : Payload)
    (hp : c.verify key algs s = .ok p) (hq : d.verify key algs s = .ok q)
    (h : ∀ n, (∀ u, n ≠ .other u) → aget p n = aget q n) :
    decode c here now a key algs s = decode d here now a key algs s := by
  have h1 := h .exp (by intro s; exact Name.noConfusion)
  have h2 := h .iat (by intro s; exact Name.noConfusion)
  have h3 := h .nbf (by intro s; exact Name.noConfusion)
  have h4 := h .sub (by intro s; exact Name.noConfusion)
  have h5 := h .iss (by intro s; exact Name.noConfusion)
  have h6 := h .aud (by intro s; exact Name.noConfusion)
  have h7 := h .jti (by intro s; exact Name.noConfusion)
  unfold decode
  rw [hp, hq]
  dsimp only
  unfold jwtChecks fieldsOf numberIf textIf
  rw [h1, h2, h3, h4, h5, h6, h7]

/-- C107: the claims given to `encode` come before the fields, those without a claim of their name are written. -/
theorem C107_payload (c : Codec) (key alg : Str) (t : Token) (extra : Payload) (s : Str)
    (h : encode c key alg t (some extra) = .ok s) : ∃ q, c.sign key alg q = .ok s ∧
      (∀ e, aget extra .exp = none → t.exp.zone = some e → aget q .exp = some (.num (secondOf 0 t.exp))) ∧
      (aget extra .sub = none → aget q .sub = t.sub.map .text) ∧ (aget extra .iss = none → aget q .iss = t.iss.map
          .text) ∧
      (aget extra .aud = none → aget q .aud = t.aud.map .text) ∧ (aget extra .jti = none → aget q .jti = t.jti.map
          .text) := by
  obtain ⟨q, hq, hs⟩ := encode_ok c key alg t _ s h
  obtain ⟨d1, d2, d3, d4, d5, d6, d7⟩ := aget_dump t
  have hget : ∀ n, aget extra n = none → aget q n = (aget (dump t) n).map written := by
    intro n hn
    rw [aget_written _ q hq n]
    exact congrArg _ (aget_aupdate_of_notmem _ _ _ hn)
  refine ⟨q, hs, ?_, ?_, ?_, ?_, ?_⟩
  · intro e he hz
    rw [hget _ he, d1, ← unix_placed 0 _ (Or.inr rfl)]
    rfl
  · intro he
    rw [hget _ he, d4]
    cases t.sub <;> rfl
  · intro he
    rw [hget _ he, d5]
    cases t.iss <;> rfl
  · intro he
    rw [hget _ he, d6]
    cases t.aud <;> rfl
  · intro he
    rw [hget _ he, d7]
    cases t.jti <;> rfl

/-- C107: an error of PyJWT in `encode` is `ImproperlyConfigured`.  Part: only errors which are `PyJWTError`. -/
theorem C107_error_partial (c : Codec) (key alg : Str) (t : Token) (h : ∀ p, c.sign key alg p = .error .jwt) :
    encode c key alg t none = .error .improper := by
  have hw : ∃ q, writeClaims (aupdate (dump t) []) = .ok q := by
    obtain ⟨e, i, s, iss, aud, jti⟩ := t
    cases s <;> cases iss <;> cases aud <;> cases jti <;> exact ⟨_, rfl⟩
  obtain ⟨q, hq⟩ := hw
  unfold encode jwtEncode
  have : (none : Option Payload).getD [] = [] := rfl
  rw [this, hq]
  dsimp only
  rw [h q]

/-- C107 does not hold for other errors, as the `NotImplementedError` for an algorithm which PyJWT does not know. -/
theorem C107_error_false : ¬∀ (c : Codec) (key alg : Str) (t : Token), (∀ p s, c.sign key alg p ≠ .ok s) →
    encode c key alg t none = .error .improper := by
  intro h
  have := h ⟨fun _ _ _ => .error .other, fun _ _ _ => .error .jwt⟩ [] []
    ⟨⟨0, some 0⟩, ⟨0, some 0⟩, none, none, none, none⟩ (fun _ _ e => nomatch e)
  cases this

/-- C107 does not hold for conversion to UTC: `convert_time` leaves the zone. -/
theorem C107_utc_false : ¬∀ d : Date, d.zone ≠ none → (convertTime d).zone = some 0 := by
  intro h
  exact absurd (h ⟨0, some 3600⟩ (by decide)) (by decide)

/-- C107: the times of a token which is decoded are numbers. -/
theorem C107_number (c : Codec) (here now : Int) (a : Call) (key : Str) (algs : List Str) (s : Str) (t : Token)
    (p : Payload) (h : decode c here now a key algs s = .ok t) (hp : c.verify key algs s = .ok p) (n : Name)
    (hn : n = .exp ∨ n = .iat ∨ n = .nbf) (x : Claim) (hx : aget p n = some x) : ∃ k, x = .num k := by
  obtain ⟨_, p', f, hv, hj, hf, hm⟩ := decode_ok c here now a key algs s t h
  rw [hp] at hv
  cases hv
  have key : ∀ f, numberIf p n f = true → ∃ k, x = .num k := by
    intro f hf
    unfold numberIf at hf
    rw [hx] at hf
    cases x with
    | num k => exact ⟨k, rfl⟩
    | _ => cases hf
  unfold jwtChecks at hj
  simp only [Bool.and_eq_true] at hj
  obtain ⟨⟨⟨⟨_, h1⟩, h2⟩, h3⟩, _⟩ := hj
  rcases hn with rfl | rfl | rfl
  · exact key _ h3
  · exact key _ h1
  · exact key _ h2

/-- C107: times beyond 20000000000 seconds are read as milliseconds, as pydantic does; those up to there as seconds.
The microseconds are dropped. -/
theorem C107_milliseconds (c : Codec) (here now : Int) (a : Call) (key : Str) (algs : List Str) (s : Str) (t : Token)
    (p : Payload) (h : decode c here now a key algs s = .ok t) (hp : c.verify key algs s = .ok p) (n : Int) :
    (aget p .exp = some (.num n) → (n < -20000000000 ∨ 20000000000 < n) →
      t.exp = ⟨n * 1000 - n * 1000 % 1000000, some 0⟩) ∧
    (aget p .iat = some (.num n) → (n < -20000000000 ∨ 20000000000 < n) →
      t.iat = ⟨n * 1000 - n * 1000 % 1000000, some 0⟩) ∧
    (aget p .iat = some (.num n) → ¬ (n < -20000000000 ∨ 20000000000 < n) → t.iat = ⟨n * 1000000, some 0⟩) := by
  obtain ⟨_, p', f, hv, hj, hf, hm⟩ := decode_ok c here now a key algs s t h
  rw [hp] at hv
  cases hv
  obtain ⟨f1, f2, _⟩ := fieldsOf_some p f hf
  obtain ⟨⟨e, m1, m2, m3⟩, m4, _⟩ := (make_ok here now f t).1 hm
  refine ⟨?_, ?_, ?_⟩
  · intro hn hfar
    rw [hn, m1] at f1
    have he : fromUnix n = e := Option.some.inj (Option.some.inj f1)
    subst he
    rw [m3]
    unfold fromUnix
    rw [if_pos hfar]
    rfl
  · intro hn hfar
    rw [hn] at f2
    have he : f.iat = some (fromUnix n) := (Option.some.inj f2).symm
    rcases m4 with ⟨h0, _⟩ | ⟨i, h1, _, h3⟩
    · rw [he] at h0; cases h0
    · rw [he] at h1
      cases h1
      rw [h3]
      unfold fromUnix
      rw [if_pos hfar]
      rfl
  · intro hn hnear
    rw [hn] at f2
    have he : f.iat = some (fromUnix n) := (Option.some.inj f2).symm
    rcases m4 with ⟨h0, _⟩ | ⟨i, h1, _, h3⟩
    · rw [he] at h0; cases h0
    · rw [he] at h1
      cases h1
      rw [h3]
      unfold fromUnix convertTime
      rw [if_neg hnear]
      simp [second]

example : decode (plainCodec [(.exp, .num 1800000000), (.iat, .num (-20000000001))]) 0 0 {} [] [[]] "token".toList
    = .ok ⟨⟨1800000000000000, some 0⟩, ⟨-20000001000000, some 0⟩, none, none, none, none⟩ := rfl

end Verif.Jwt
