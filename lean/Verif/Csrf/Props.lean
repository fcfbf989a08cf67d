import Verif.Csrf.Lemmas

/-!
# Properties C12 and C13
-/

namespace Verif.Csrf

open Verif Spec

/-! ## C13: tokens -/

/-- A freshly generated token decodes to its own random part and matches itself. -/
theorem C13_roundtrip (hmac : Str → Str → Str) (hh : HexMac hmac) (secret rnd : Str)
    (hl : rnd.length = 64) (ha : ∀ c ∈ rnd, c.toNat < 128) :
    decode hmac secret (generate hmac secret rnd) = .some rnd ∧
    tokensMatch hmac secret (some (generate hmac secret rnd)) (some (generate hmac secret rnd)) =
      some true := by
  have h1 : decode hmac secret (generate hmac secret rnd) = .some rnd :=
    (decode_iff hmac hh _ _ _).2 ⟨hl, rfl⟩
  refine ⟨h1, ?_⟩
  have hne : generate hmac secret rnd ≠ [] := by
    intro e
    have := congrArg List.length e
    unfold generate at this
    rw [List.length_append, hl] at this
    simp at this
  unfold tokensMatch
  simp only
  rw [if_neg (by rintro (h | h) <;> exact hne h), h1]
  simp only [(isAscii_iff rnd).2 ha]
  simp

/-- A stand-in for HMAC-SHA256 with texts of the right shape. -/
def fakeMac : Str → Str → Str := fun k m => List.replicate 64 (if k = m then 'a' else 'b')

theorem fakeMac_hex : HexMac fakeMac := by
  intro k m
  refine ⟨by simp [fakeMac], ?_⟩
  intro c hc
  unfold fakeMac at hc
  rw [(List.mem_replicate.1 hc).2]
  split <;> decide

example : HexMac fakeMac ∧ (List.replicate 64 '0').length = 64 ∧
    ∀ c ∈ List.replicate 64 '0', c.toNat < 128 :=
  ⟨fakeMac_hex, by simp, fun c hc => by rw [(List.mem_replicate.1 hc).2]; decide⟩

/-- A token decodes to `s` exactly when it is 64 characters `s` followed by their signature; so no
string of another length and no string with another signature part is accepted. -/
theorem C13_accepts_only_signed (hmac : Str → Str → Str) (hh : HexMac hmac) (secret token : Str) :
    (∀ s, decode hmac secret token = .some s ↔ Signed hmac secret s token) ∧
    (token.length ≠ 128 → ∀ s, decode hmac secret token ≠ .some s) ∧
    (token.drop 64 ≠ hmac secret (token.take 64) → ∀ s, decode hmac secret token ≠ .some s) := by
  refine ⟨decode_iff hmac hh secret token, ?_, ?_⟩
  · intro hl s hd
    obtain ⟨h1, h2⟩ := (decode_iff hmac hh _ _ _).1 hd
    apply hl
    rw [h2, List.length_append, h1, (hh secret s).1]
  · intro hne s hd
    obtain ⟨h1, h2⟩ := (decode_iff hmac hh _ _ _).1 hd
    apply hne
    rw [h2, ← h1, List.drop_left, List.take_left]

/-- A token of ASCII text that is not signed is rejected by returning `None`. -/
theorem C13_rejects_partial (hmac : Str → Str → Str) (hh : HexMac hmac) (secret token : Str)
    (ha : ∀ c ∈ token, c.toNat < 128) (hn : ∀ s, ¬ Signed hmac secret s token) :
    decode hmac secret token = .none := by
  have h1 := (decode_iff hmac hh secret token)
  cases hd : decode hmac secret token with
  | none => rfl
  | some s => exact absurd ((h1 s).1 hd) (hn s)
  | raised =>
    exfalso
    unfold decode at hd
    simp only at hd
    split at hd
    · cases hd
    · split at hd
      · split at hd <;> cases hd
      · rename_i hna
        apply hna
        rw [Bool.and_eq_true]
        exact ⟨(isAscii_iff _).2 fun c hc => ha c (List.mem_of_mem_drop hc),
          (isAscii_iff _).2 (hh _ _).2⟩

example : (∀ c ∈ List.replicate 128 'x', c.toNat < 128) ∧
    decode fakeMac "k".toList (List.replicate 128 'x') = .none := by decide +kernel

/-- The full statement asks that every other string is rejected.  A string with a character outside
ASCII in its signature part makes `compare_digest` raise `TypeError` instead. -/
theorem C13_nonascii_false :
    decode fakeMac "k".toList (List.replicate 65 'é') = .raised ∧
    serve fakeMac ⟨"k".toList, [], "csrf".toList, 100⟩
      ⟨"POST".toList, some (List.replicate 65 'é'), some (List.replicate 65 'é'), [], []⟩ = .raised := by
  constructor <;> decide +kernel

/-- Two tokens match only when both are signed and have the same secret part, which makes them
equal. -/
theorem C13_match (hmac : Str → Str → Str) (hh : HexMac hmac) (secret : Str) (a b : Option Str)
    (h : tokensMatch hmac secret a b = some true) :
    ∃ s x, a = some x ∧ b = some x ∧ Signed hmac secret s x := by
  obtain ⟨s, x, y, h1, h2, h3, h4⟩ := tokensMatch_true hmac hh secret a b h
  have : x = y := h3.2.trans h4.2.symm
  exact ⟨s, x, h1, by rw [h2, this], h3⟩

/-- The cookie given out by the middleware carries a token that decodes. -/
theorem C13_issued (hmac : Str → Str → Str) (hh : HexMac hmac) (c : Config) (rnd : Str)
    (hl : rnd.length = 64) (cookie : Option Str) (headers : MultiDict.Items Str) (t : Str)
    (h : issued hmac c rnd cookie headers = some t) :
    Signed hmac c.secret rnd t ∧ decode hmac c.secret t = .some rnd ∧ cookie = none := by
  unfold issued at h
  split at h
  · rename_i hc
    injection h with h
    have hs : Signed hmac c.secret rnd t := ⟨hl, h.symm⟩
    exact ⟨hs, (decode_iff hmac hh _ _ _).2 hs, hc.1⟩
  · cases h

example : issued fakeMac ⟨"k".toList, [], [], 1⟩ (List.replicate 64 '0') none
    [("a".toList, "b".toList)] = some (List.replicate 64 '0' ++ List.replicate 64 'b') := by decide +kernel

/-- A cookie is given out exactly when the request had none and the response sets none. -/
theorem C13_issued_exact (hmac : Str → Str → Str) (c : Config) (rnd : Str) (cookie : Option Str)
    (headers : MultiDict.Items Str) :
    issued hmac c rnd cookie headers ≠ none ↔
      cookie = none ∧ ∀ kv ∈ headers, lower kv.1 ≠ "set-cookie".toList := by
  have hlow : lower "set-cookie".toList = "set-cookie".toList := by decide
  have hget : (MultiDict.get lower headers "set-cookie".toList).isSome = false ↔
      ∀ kv ∈ headers, lower kv.1 ≠ "set-cookie".toList := by
    unfold MultiDict.get
    constructor
    · intro h kv hkv e
      have hm : kv.2 ∈ MultiDict.getall lower headers "set-cookie".toList :=
        (MultiDict.mem_getall _ _ _ _).2 ⟨kv.1, by rw [e, hlow], hkv⟩
      cases hg : MultiDict.getall lower headers "set-cookie".toList with
      | nil => rw [hg] at hm; cases hm
      | cons a l => rw [hg] at h; cases h
    · intro h
      cases hg : MultiDict.getall lower headers "set-cookie".toList with
      | nil => rfl
      | cons a l =>
        obtain ⟨k, hk, hm⟩ := (MultiDict.mem_getall _ _ _ _).1 (hg ▸ List.mem_cons_self : a ∈ MultiDict.getall lower headers "set-cookie".toList)
        exact absurd (hk.trans hlow) (h _ hm)
  unfold issued
  rw [← hget]
  by_cases h : cookie = none ∧ (MultiDict.get lower headers "set-cookie".toList).isSome = false
  · rw [if_pos h]
    exact ⟨fun _ => h, fun _ => by (intro e; cases e)⟩
  · rw [if_neg h]
    exact ⟨fun e => absurd rfl e, fun e => absurd e h⟩

example : issued fakeMac ⟨"k".toList, [], [], 1⟩ (List.replicate 64 '0') none
    [("Set-Cookie".toList, "a=b".toList)] = none := by decide +kernel

/-! ## C12: the middleware -/

/-- The token a request submits: its header, or else the field of its form. -/
def Submitted (c : Config) (r : Request) (token : Str) : Prop :=
  (r.header = some token ∧ token ≠ []) ∨
  ((r.header = none ∨ r.header = some []) ∧
    ∃ body, Body r.messages body ∧ FormField body r.contentType c.field token)

/-- C12.  A request with an unsafe method reaches the application only with a cookie and a submitted
token that are both signed with the same secret part (so they are equal). -/
theorem C12_admits (hmac : Str → Str → Str) (hh : HexMac hmac) (c : Config) (r : Request)
    (recv : Recv) (w : Bool) (h : serve hmac c r = .app recv w) (hs : ¬ SafeMethod c r.method) :
    ∃ s cookie token, r.cookie = some cookie ∧ Submitted c r token ∧
      Signed hmac c.secret s cookie ∧ Signed hmac c.secret s token ∧ token = cookie := by
  have hm : r.method ∉ c.safe := fun h => hs ((safe_iff c _).1 h)
  have hfin : ∀ tok rc, finish hmac c r tok rc = .app recv w →
      ∃ s x, tok = some x ∧ r.cookie = some x ∧ Signed hmac c.secret s x := by
    intro tok rc hf
    unfold finish at hf
    rw [if_neg hm] at hf
    split at hf
    · cases hf
    · rename_i ht; exact C13_match hmac hh _ _ _ ht
    · cases hf
  have hne : ∀ s x, Signed hmac c.secret s x → x ≠ [] := by
    rintro s x ⟨hl, rfl⟩ e
    have := congrArg List.length e
    rw [List.length_append, hl] at this
    simp at this
  unfold serve at h
  split at h
  · rename_i hc
    split at h
    · cases h
    · obtain ⟨s, x, h1, h2, h3⟩ := hfin _ _ h
      exact ⟨s, x, x, h2, .inl ⟨h1, hne s x h3⟩, h3, h3, rfl⟩
    · rename_i body hb
      obtain ⟨s, x, h1, h2, h3⟩ := hfin _ _ h
      obtain ⟨b', hb1, hb2⟩ := readBody_spec _ _ _ _ hb
      rw [List.nil_append] at hb1
      subst hb1
      exact ⟨s, x, x, h2, .inr ⟨hc.1, body, hb2, extractToken_spec h1⟩, h3, h3, rfl⟩
  · obtain ⟨s, x, h1, h2, h3⟩ := hfin _ _ h
    exact ⟨s, x, x, h2, .inl ⟨h1, hne s x h3⟩, h3, h3, rfl⟩

/-- Safe methods always reach the application, with the untouched receive channel. -/
theorem C12_safe (hmac : Str → Str → Str) (c : Config) (r : Request) (hs : SafeMethod c r.method) :
    serve hmac c r = .app (.original r.messages) true := by
  have hm : r.method ∈ c.safe := (safe_iff c _).2 hs
  unfold serve
  rw [if_neg (fun h => h.2.1 hm)]
  unfold finish
  rw [if_pos hm]

example : SafeMethod ⟨"k".toList, [], "csrf".toList, 100⟩ "QUERY".toList ∧
    ¬ SafeMethod ⟨"k".toList, [], "csrf".toList, 100⟩ "POST".toList ∧
    ¬ SafeMethod ⟨"k".toList, ["PUT".toList], "csrf".toList, 100⟩ "GET".toList := by
  unfold SafeMethod
  decide

/-- A request with an unsafe method, no token in its header and no form is refused, whatever its
cookie and its body. -/
theorem C12_no_form (hmac : Str → Str → Str) (c : Config) (r : Request) (hs : ¬ SafeMethod c r.method)
    (hh : r.header = none ∨ r.header = some []) (hf : ¬ IsForm r.contentType) : serve hmac c r = .denied := by
  have hm : r.method ∉ c.safe := fun h => hs ((safe_iff c _).1 h)
  unfold serve
  rw [if_neg (fun h => hf ((isForm_iff _).1 h.2.2))]
  unfold finish
  rw [if_neg hm]
  have : tokensMatch hmac c.secret r.header r.cookie = some false := by
    unfold tokensMatch
    rcases hh with e | e
    · rw [e]
    · rw [e]
      cases r.cookie with
      | none => rfl
      | some y => simp
  rw [this]

example : ¬ SafeMethod ⟨"k".toList, [], "csrf".toList, 100⟩ "POST".toList ∧ ¬ IsForm "application/json".toList := by
  refine ⟨by unfold SafeMethod; decide, fun h => ?_⟩
  have := (isForm_iff _).2 h
  revert this
  decide

/-- The application reads the body the client sent, also when the middleware has read it first. -/
theorem C12_body (hmac : Str → Str → Str) (c : Config) (r : Request)
    (recv : Recv) (w : Bool) (h : serve hmac c r = .app recv w) :
    recv = .original r.messages ∨ ∃ b, recv = .replay b ∧ Body r.messages b := by
  have hfin : ∀ tok rc, finish hmac c r tok rc = .app recv w →
      recv = .original r.messages ∨ (recv = rc ∧ ∃ x, tok = some x ∧ x ≠ []) := by
    intro tok rc hf
    unfold finish at hf
    split at hf
    · injection hf with h1 _; exact .inl h1.symm
    · split at hf
      · cases hf
      · rename_i ht
        injection hf with h1 _
        refine .inr ⟨h1.symm, ?_⟩
        cases tok with
        | none => cases ht
        | some x =>
          refine ⟨x, rfl, ?_⟩
          rintro rfl
          unfold tokensMatch at ht
          cases hck : r.cookie with
          | none => rw [hck] at ht; cases ht
          | some y => rw [hck] at ht; simp at ht
      · cases hf
  unfold serve at h
  split at h
  · rename_i hc
    split at h
    · cases h
    · rcases hfin _ _ h with h1 | ⟨_, x, h2, h3⟩
      · exact .inl h1
      · rcases hc.1 with e | e
        · rw [e] at h2; cases h2
        · rw [e] at h2; injection h2 with h2; exact absurd h2.symm h3
    · rename_i body hb
      rcases hfin _ _ h with h1 | ⟨h1, _⟩
      · exact .inl h1
      · obtain ⟨b', hb1, hb2⟩ := readBody_spec _ _ _ _ hb
        rw [List.nil_append] at hb1
        subst hb1
        exact .inr ⟨body, h1, hb2⟩
  · rcases hfin _ _ h with h1 | ⟨h1, _⟩
    · exact .inl h1
    · exact .inl h1

/-- A request that repeats its signed cookie in the header is admitted, whatever its body. -/
theorem C12_header_admitted (hmac : Str → Str → Str) (hh : HexMac hmac) (c : Config) (r : Request)
    (rnd : Str) (hl : rnd.length = 64) (ha : ∀ x ∈ rnd, x.toNat < 128) (hs : ¬ SafeMethod c r.method)
    (hc : r.cookie = some (generate hmac c.secret rnd))
    (ht : r.header = some (generate hmac c.secret rnd)) :
    serve hmac c r = .app (.original r.messages) false := by
  have hm : r.method ∉ c.safe := fun h => hs ((safe_iff c _).1 h)
  have hne : generate hmac c.secret rnd ≠ [] := by
    intro e
    have := congrArg List.length e
    unfold generate at this
    rw [List.length_append, hl] at this
    simp at this
  unfold serve
  rw [if_neg]
  · unfold finish
    rw [if_neg hm, ht, hc, (C13_roundtrip hmac hh c.secret rnd hl ha).2]
  · rintro ⟨h | h, _⟩
    · rw [ht] at h; cases h
    · rw [ht] at h; injection h with h; exact hne h

/-- A form without a token in the header whose field holds the cookie's token is admitted, and the
application reads the same body. -/
theorem form_admitted (hmac : Str → Str → Str) (hh : HexMac hmac) (c : Config) (r : Request)
    (rnd : Str) (hl : rnd.length = 64) (ha : ∀ x ∈ rnd, x.toNat < 128) (hs : ¬ SafeMethod c r.method)
    (hc : r.cookie = some (generate hmac c.secret rnd)) (ht : r.header = none ∨ r.header = some [])
    (hf : IsForm r.contentType) (body : Str) (hb : Body r.messages body) (hmax : body.length ≤ c.maxBody)
    (he : extractToken body r.contentType c.field = some (generate hmac c.secret rnd)) :
    serve hmac c r = .app (.replay body) false := by
  have hm : r.method ∉ c.safe := fun h => hs ((safe_iff c _).1 h)
  have hread := readBody_complete c.maxBody [] r.messages body hb (by simpa using hmax)
  rw [List.nil_append] at hread
  unfold serve
  rw [if_pos ⟨ht, hm, (isForm_iff _).2 hf⟩, hread]
  dsimp only
  rw [he]
  unfold finish
  rw [if_neg hm, hc, (C13_roundtrip hmac hh c.secret rnd hl ha).2]

/-- A urlencoded form, sent in any pieces, whose first field of the configured name holds the
cookie's token is admitted, and the application reads the same body. -/
theorem C12_form_admitted (hmac : Str → Str → Str) (hh : HexMac hmac) (c : Config) (r : Request)
    (rnd : Str) (hl : rnd.length = 64) (ha : ∀ x ∈ rnd, x.toNat < 128) (hs : ¬ SafeMethod c r.method)
    (hc : r.cookie = some (generate hmac c.secret rnd)) (ht : r.header = none ∨ r.header = some [])
    (hf : Occurs "application/x-www-form-urlencoded".toList (lower r.contentType))
    (body : Str) (hb : Body r.messages body) (hmax : body.length ≤ c.maxBody)
    (pre post : List (Str × Str)) (hq : Url.parseQsl true body = pre ++ (c.field, generate hmac c.secret rnd) :: post)
    (hpre : ∀ kv ∈ pre, kv.1 ≠ c.field) :
    serve hmac c r = .app (.replay body) false := by
  refine form_admitted hmac hh c r rnd hl ha hs hc ht (.inl hf) body hb hmax ?_
  unfold extractToken
  simp only []
  rw [if_pos ((hasSub_iff _ _).2 hf), hq, first_get _ _ _ _ hpre]

/-- A multipart form, sent in any pieces, is admitted when the first part that names the field holds
the cookie's token, and the application reads the same body.  The boundary has to be of lower-case
letters (see `C12_refused_forms`), it does not occur within the parts, no part's headers contain an
empty line, and the part that names the field does so at the end of its headers or before a
semicolon. -/
theorem C12_multipart_admitted (hmac : Str → Str → Str) (hh : HexMac hmac) (c : Config) (r : Request)
    (rnd : Str) (hl : rnd.length = 64) (ha : ∀ x ∈ rnd, x.toNat < 128) (hs : ¬ SafeMethod c r.method)
    (hc : r.cookie = some (generate hmac c.secret rnd)) (ht : r.header = none ∨ r.header = some [])
    (b : Str) (hbd : PlainBoundary b) (hct : r.contentType = multipartType b)
    (before : List Part) (p : Part) (after : List Part)
    (hb : Body r.messages (multipartBody b (before ++ p :: after)))
    (hmax : (multipartBody b (before ++ p :: after)).length ≤ c.maxBody)
    (hd : ∀ q ∈ before ++ p :: after, OnlyAtEnd ("--".toList ++ b) q.text)
    (hq : ∀ q ∈ before ++ p :: after, OnlyAtEnd "\r\n\r\n".toList ("\r\n".toList ++ q.headers))
    (hbe : ∀ q ∈ before, ¬ Occurs ("name=\"".toList ++ c.field ++ ['"']) ("\r\n".toList ++ q.headers))
    (hp : NamesField c.field ("\r\n".toList ++ p.headers))
    (hpc : p.content = generate hmac c.secret rnd)
    (hnl : ∀ x ∈ generate hmac c.secret rnd, x ≠ '\r' ∧ x ≠ '\n') :
    serve hmac c r = .app (.replay (multipartBody b (before ++ p :: after))) false := by
  refine form_admitted hmac hh c r rnd hl ha hs hc ht ?_ _ hb hmax ?_
  · rw [hct]
    exact .inr (by rw [lower_multipartType hbd]; exact ⟨[], "; boundary=".toList ++ b, rfl⟩)
  · rw [hct]
    exact extractToken_form hbd before p after hd hq hbe hp hpc hnl

/-- A token signed by the stand-in. -/
def tok : Str := List.replicate 64 '0' ++ List.replicate 64 'b'

/-- A multipart form of two parts meets the hypotheses of `C12_multipart_admitted`. -/
example :
    let p1 : Part := ⟨"Content-Disposition: form-data; name=\"a\"\r\nContent-Type: text/plain".toList, "x\r\n-y".toList⟩
    let p2 : Part := ⟨"Content-Disposition: form-data; name=\"csrf\"; x=y".toList, tok⟩
    PlainBoundary "----form-0a".toList ∧
    (∀ q ∈ [p1] ++ p2 :: [], OnlyAtEnd ("--".toList ++ "----form-0a".toList) q.text) ∧
    (∀ q ∈ [p1] ++ p2 :: [], OnlyAtEnd "\r\n\r\n".toList ("\r\n".toList ++ q.headers)) ∧
    (∀ q ∈ [p1], ¬ Occurs ("name=\"".toList ++ "csrf".toList ++ ['"']) ("\r\n".toList ++ q.headers)) ∧
    NamesField "csrf".toList ("\r\n".toList ++ p2.headers) ∧
    tok = generate fakeMac "k".toList (List.replicate 64 '0') ∧ (∀ x ∈ tok, x ≠ '\r' ∧ x ≠ '\n') := by
  intro p1 p2
  refine ⟨⟨by decide, by decide⟩, ?_, ?_, ?_, ⟨"\r\nContent-Disposition: form-data; ".toList, "; x=y".toList, rfl, .inr rfl⟩,
    by decide +kernel, by decide +kernel⟩
  · intro q hq
    rcases List.mem_cons.1 hq with rfl | hq
    · exact onlyAtEnd_of_cut (by decide +kernel)
    · rw [List.mem_singleton.1 hq]; exact onlyAtEnd_of_cut (by decide +kernel)
  · intro q hq
    rcases List.mem_cons.1 hq with rfl | hq
    · exact onlyAtEnd_of_cut (by decide +kernel)
    · rw [List.mem_singleton.1 hq]; exact onlyAtEnd_of_cut (by decide +kernel)
  · intro q hq ho
    rw [List.mem_singleton.1 hq] at ho
    have := (hasSub_iff _ _).2 ho
    revert this
    decide +kernel

/-- A request with a form of two pieces whose token is the one in the cookie. -/
def formRequest (ctype body1 body2 : Str) : Request :=
  ⟨"POST".toList, some tok, none, ctype, [.body body1 true, .other, .body body2 false]⟩

/-- Non-trivial instances: a urlencoded and a multipart form are admitted and replayed. -/
example :
    serve fakeMac ⟨"k".toList, [], "csrf".toList, 1000⟩
      (formRequest "application/x-www-form-urlencoded".toList "a=b&cs".toList ("rf=".toList ++ tok)) =
      .app (.replay ("a=b&csrf=".toList ++ tok)) false ∧
    serve fakeMac ⟨"k".toList, [], "csrf".toList, 1000⟩
      (formRequest "multipart/form-data; boundary=xyz".toList
        "--xyz\r\nContent-Disposition: form-data; name=\"csrf\"\r\n\r\n".toList
        (tok ++ "\r\n--xyz--\r\n".toList)) =
      .app (.replay ("--xyz\r\nContent-Disposition: form-data; name=\"csrf\"\r\n\r\n".toList ++
        (tok ++ "\r\n--xyz--\r\n".toList))) false := by
  constructor <;> decide +kernel

/-- Departures on the side of refusing: the boundary is compared after lower-casing the header, so
a form with an upper-case letter in its boundary is denied although its token is right; with
bare line feeds two characters of the token are skipped; without a final message the
middleware waits for ever, also after a disconnect. -/
theorem C12_refused_forms :
    serve fakeMac ⟨"k".toList, [], "csrf".toList, 1000⟩
      (formRequest "multipart/form-data; boundary=Xyz".toList
        "--Xyz\r\nContent-Disposition: form-data; name=\"csrf\"\r\n\r\n".toList
        (tok ++ "\r\n--Xyz--\r\n".toList)) = .denied ∧
    extractToken ("--x\nContent-Disposition: form-data; name=\"csrf\"\n\nabcd\n--x--\n".toList)
      "multipart/form-data; boundary=x".toList "csrf".toList = some "cd".toList ∧
    serve fakeMac ⟨"k".toList, [], "csrf".toList, 1000⟩
      ⟨"POST".toList, some tok, none, "application/x-www-form-urlencoded".toList,
        [.body [] true, .other]⟩ = .waiting := by
  refine ⟨?_, ?_, ?_⟩ <;> decide +kernel

end Verif.Csrf
