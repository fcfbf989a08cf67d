import Verif.Login.Lemmas

/-!
# C145: logging in with a password and using the token
-/

namespace Verif.Login.Props

open Verif Verif.Login Verif.Login.Spec Verif.Dependencies

/-- A toy of signing for one payload: the token is `token` whatever the key is. -/
def toyCodec : Jwt.Codec where
  sign := fun _ _ p => if p = [(.exp, .num 1800), (.iat, .num 0), (.sub, .text "jane".toList)]
    then .ok "token".toList else .error .other
  verify := fun _ algs s => if s = "token".toList ∧ algs ≠ [] then
      .ok [(.exp, .num 1800), (.iat, .num 0), (.sub, .text "jane".toList)] else .error .jwt

/-- An application with the accounts of `jane`, and of `peter`, who is disabled. -/
def toy : App where
  codec := toyCodec
  key := "key".toList
  alg := "HS256".toList
  accounts := fun u => if u = "jane".toList then some ⟨"secret".toList, false⟩
    else if u = "peter".toList then some ⟨"other".toList, true⟩ else none
  check := fun p h => p == h

/-- A form. -/
def form (u p : Str) : Body Value :=
  .mapping [("grant_type".toList, .text "password".toList), ("username".toList, .text u), ("password".toList, .text p)]

/-- **C145, what a login reads.**  The form of a request to `/token` is read as though all fields which anybody has sent
there before had been sent along with it, in front of its own. -/
theorem C145_pool (a : App) (now : Int) (h : List (Int × Req)) (body : Body Value) (hb : body ≠ .other) :
    (serve a now (run a start h) (.login body)).2 =
      (serve a now start (.login (.mapping (loginFields h ++ fieldsOf body)))).2 := by
  rw [login_reply, login_reply]
  have key : ∀ kw, (∀ k, k ∈ formNames → aget kw k = sent (loginFields h ++ fieldsOf body) k) →
      login a now ((makeForm kw).map .form) = login a now ((makeForm (takeFields formNames formMap [] (loginFields h
        ++ fieldsOf body))).map .form) := by
    intro kw hkw
    rw [makeForm_congr kw (takeFields formNames formMap [] (loginFields h ++ fieldsOf body))]
    intro k hk
    rw [hkw k hk, takeFields_get, if_pos ⟨hk, formMap_none k hk⟩]
    exact (Option.or_none).symm
  cases body with
  | other => exact absurd rfl hb
  | nothing =>
    refine key (run a start h 0).kwargs ?_
    intro k hk
    rw [run_form a k hk]
    show (sent (loginFields h) k).or none = sent (loginFields h ++ []) k
    rw [List.append_nil, Option.or_none]
  | mapping fields =>
    refine key (takeFields formNames formMap (run a start h 0).kwargs fields) ?_
    intro k hk
    rw [takeFields_get, if_pos ⟨hk, formMap_none k hk⟩, run_form a k hk, sent_append]
    show (sent fields k).or ((sent (loginFields h) k).or none) = (sent fields k).or _
    rw [Option.or_none]

/-- **C145, logging in.**  After any requests with plain forms, a request with a complete plain form gets a token just
when the user has an account with this password; the token is for this user.  Part: for plain forms, whose fields
have values of their types (`C145_poison_false` is about others). -/
theorem C145_login_partial (a : App) (now : Int) (h : List (Int × Req)) (body : Body Value) (u p t : Str)
    (hh : Plain (loginFields h)) (hb : Plain (fieldsOf body)) (hc : Complete body u p) :
    (serve a now (run a start h) (.login body)).2 = .token t ↔ Knows a u p ∧ issue a now u = some t := by
  obtain ⟨fields, rfl, hg, hu, hp⟩ := hc
  rw [login_reply]
  have hget : ∀ k, k ∈ formNames → aget (takeFields formNames formMap (run a start h 0).kwargs fields) k =
      (sent fields k).or (sent (loginFields h) k) := by
    intro k hk
    rw [takeFields_get, if_pos ⟨hk, formMap_none k hk⟩, run_form a k hk]
    show (sent fields k).or ((sent (loginFields h) k).or none) = _
    rw [Option.or_none]
  have hfits : ∀ k, k ∈ formNames → ∀ v, aget (takeFields formNames formMap (run a start h 0).kwargs fields) k =
      some v → Fits k v := by
    intro k hk v
    rw [hget k hk]
    intro e
    cases h1 : sent fields k with
    | some w =>
      rw [h1, Option.some_or] at e
      exact Option.some.inj e ▸ hb _ (sent_mem fields k w h1)
    | none =>
      rw [h1, Option.none_or] at e
      exact hh _ (sent_mem _ k v e)
  have hform : ∃ l, makeForm (takeFields formNames formMap (run a start h 0).kwargs fields) = some ⟨u, p, l⟩ := by
    have e1 : textField (takeFields formNames formMap (run a start h 0).kwargs fields) "grant_type".toList =
        some "password".toList := by
      unfold textField; rw [hget _ (by decide), hg]; rfl
    have e2 : textField (takeFields formNames formMap (run a start h 0).kwargs fields) "username".toList = some u := by
      unfold textField; rw [hget _ (by decide), hu]; rfl
    have e3 : textField (takeFields formNames formMap (run a start h 0).kwargs fields) "password".toList = some p := by
      unfold textField; rw [hget _ (by decide), hp]; rfl
    have e4 : ∃ l, scopeField (takeFields formNames formMap (run a start h 0).kwargs fields) = some l := by
      unfold scopeField
      cases e : aget (takeFields formNames formMap (run a start h 0).kwargs fields) "scope".toList with
      | none => exact ⟨_, rfl⟩
      | some v =>
        have hf := hfits "scope".toList (by decide) v e
        cases v with
        | text s => exact ⟨_, rfl⟩
        | list l => exact ⟨_, rfl⟩
        | null => exact absurd hf (by unfold Fits; decide)
        | _ => exact hf.elim
    have e5 : ∀ k, k ∈ formNames → k ≠ "scope".toList →
        optionalField (takeFields formNames formMap (run a start h 0).kwargs fields) k = true := by
      intro k hk hne
      unfold optionalField
      cases e : aget (takeFields formNames formMap (run a start h 0).kwargs fields) k with
      | none => rfl
      | some v =>
        have hf := hfits k hk v e
        cases v with
        | text s => rfl
        | null => rfl
        | list l => exact absurd hf hne
        | _ => exact hf.elim
    obtain ⟨l, e4⟩ := e4
    refine ⟨l, ?_⟩
    unfold makeForm
    rw [e1, e2, e3, e4]
    dsimp only
    rw [if_pos ⟨rfl, e5 _ (by decide) (by decide), e5 _ (by decide) (by decide)⟩]
  obtain ⟨l, hform⟩ := hform
  show login a now ((makeForm (takeFields formNames formMap (run a start h 0).kwargs fields)).map .form) = _ ↔ _
  rw [hform, login_token]
  constructor
  · rintro ⟨f, hf, hk, hi⟩
    cases hf
    exact ⟨hk, hi⟩
  · rintro ⟨hk, hi⟩
    exact ⟨_, rfl, hk, hi⟩

example : Plain (loginFields [(0, .login (form "peter".toList "x".toList))]) ∧
    Complete (form "jane".toList "secret".toList) "jane".toList "secret".toList ∧
    (serve toy 0 (run toy start [(0, .login (form "peter".toList "x".toList))])
      (.login (form "jane".toList "secret".toList))).2 = .token "token".toList := by
  refine ⟨?_, ⟨_, rfl, by decide +kernel, by decide +kernel, by decide +kernel⟩, by decide +kernel⟩
  intro kv hm
  simp only [loginFields, fieldsOf, form, List.append_nil, List.mem_cons, List.not_mem_nil, or_false] at hm
  rcases hm with rfl | rfl | rfl <;> exact trivial

/-- A form as JSON with null and a list. -/
example : Plain [("client_id".toList, .null), ("scope".toList, .list ["a".toList])] := by
  intro kv hm
  simp only [List.mem_cons, List.not_mem_nil, or_false] at hm
  rcases hm with rfl | rfl
  · exact .inl rfl
  · rfl

/-- **C145, logging in, whatever was sent before.**  A request with a complete form gets a token only if the user has an
account with this password, and the token is for this user. -/
theorem C145_only (a : App) (now : Int) (s : Store Value) (body : Body Value) (u p t : Str)
    (hc : Complete body u p) (h : (serve a now s (.login body)).2 = .token t) :
    Knows a u p ∧ issue a now u = some t := by
  obtain ⟨fields, rfl, hg, hu, hp⟩ := hc
  rw [login_reply] at h
  obtain ⟨f, hf, hk, hi⟩ := (login_token a now _ t).1 h
  have hget : ∀ k, k ∈ formNames → aget (takeFields formNames formMap (s 0).kwargs fields) k =
      (sent fields k).or (aget (s 0).kwargs k) := by
    intro k hk
    rw [takeFields_get, if_pos ⟨hk, formMap_none k hk⟩]
  have e2 : textField (takeFields formNames formMap (s 0).kwargs fields) "username".toList = some u := by
    unfold textField; rw [hget _ (by decide), hu]; rfl
  have e3 : textField (takeFields formNames formMap (s 0).kwargs fields) "password".toList = some p := by
    unfold textField; rw [hget _ (by decide), hp]; rfl
  have hm : makeForm (takeFields formNames formMap (s 0).kwargs fields) = some f := by
    cases hm : makeForm (takeFields formNames formMap (s 0).kwargs fields) with
    | none => rw [hm] at hf; cases hf
    | some f' => rw [hm] at hf; cases hf; rfl
  unfold makeForm at hm
  rw [e2, e3] at hm
  have : f.username = u ∧ f.password = p := by
    split at hm
    · rename_i h2 h3 _
      cases h2
      cases h3
      split at hm
      · cases hm; exact ⟨rfl, rfl⟩
      · cases hm
    · cases hm
  rw [this.1, this.2] at hk
  rw [this.1] at hi
  exact ⟨hk, hi⟩

/-- **C145 is false without the fields.**  Whenever somebody has logged in, the next request to `/token` without any
form is given a token for the same user: the form is that of the request before. -/
theorem C145_anyone_false (a : App) (now later : Int) (s : Store Value) (body : Body Value) (t : Str)
    (h : (serve a now s (.login body)).2 = .token t) :
    ∃ u p, Knows a u p ∧ issue a now u = some t ∧ ∀ t', issue a later u = some t' →
      (serve a later (serve a now s (.login body)).1 (.login .nothing)).2 = .token t' := by
  rw [login_reply] at h
  cases hk : kept s body with
  | none => rw [hk] at h; cases h
  | some kw =>
    rw [hk] at h
    obtain ⟨f, hf, hkn, hi⟩ := (login_token a now _ t).1 h
    refine ⟨f.username, f.password, hkn, hi, ?_⟩
    intro t' ht'
    have hs : (serve a now s (.login body)).1 = s.set 0 { s 0 with kwargs := kw } := by
      show (resolve .null defs formMap ⟨.request none, body⟩ 2 s 0).1 = _
      rw [resolve_form, hk]
    rw [hs, login_reply]
    show login a later ((makeForm kw).map .form) = _
    rw [hf]
    exact (login_token a later _ t').2 ⟨f, rfl, hkn, ht'⟩

example : (serve toy 0 start (.login (form "jane".toList "secret".toList))).2 = .token "token".toList ∧
    (serve toy 5 (serve toy 0 start (.login (form "jane".toList "secret".toList))).1 (.login .nothing)).2 =
      .token "token".toList ∧
    (serve toy 5 start (.login .nothing)).2 = .refused := by
  refine ⟨?_, ?_, ?_⟩ <;> decide +kernel

/-- **C145 is false of the scopes**: a form without them is read with those of an earlier one. -/
theorem C145_scopes_false : ¬ ∀ (a : App) (h : List (Int × Req)) (fields : List (Str × Value)) (f : Form),
    sent fields "scope".toList = none →
    (resolve .null defs [("form_data".toList, .provide 0)] ⟨.request none, .mapping fields⟩ 2 (run a start h) 0).2 =
      some (.form f) → f.scopes = [] := by
  intro H
  have := H toy [(0, .login (.mapping [("scope".toList, .text "admin read".toList)]))]
    [("grant_type".toList, .text "password".toList), ("username".toList, .text "jane".toList),
      ("password".toList, .text "secret".toList)]
    ⟨"jane".toList, "secret".toList, ["admin".toList, "read".toList]⟩ (by decide +kernel) (by decide +kernel)
  exact absurd this (by decide)

/-- **C145 is false after other forms.**  Once somebody has sent a `client_id` which is no text, nobody gets a token
with
a form that leaves this field out. -/
theorem C145_poison_false (a : App) (now : Int) (h : List (Int × Req)) (body : Body Value) (n : Nat)
    (hh : sent (loginFields h) "client_id".toList = some (.other n))
    (hb : sent (fieldsOf body) "client_id".toList = none) (t : Str) :
    (serve a now (run a start h) (.login body)).2 ≠ .token t := by
  intro e
  rw [login_reply] at e
  have hno : ∀ kw, aget kw "client_id".toList = some (.other n) → makeForm kw = none := by
    intro kw hkw
    have ho : optionalField kw "client_id".toList = false := by unfold optionalField; rw [hkw]
    unfold makeForm
    split
    · rw [if_neg]
      rintro ⟨_, h2, _⟩
      rw [ho] at h2
      cases h2
    · rfl
  have hrun : aget (run a start h 0).kwargs "client_id".toList = some (.other n) := by
    rw [run_form a _ (by decide), hh]; rfl
  cases body with
  | other => cases e
  | nothing =>
    have : makeForm (run a start h 0).kwargs = none := hno _ hrun
    rw [show kept (run a start h) .nothing = some (run a start h 0).kwargs from rfl] at e
    dsimp only at e
    rw [this] at e
    cases e
  | mapping fields =>
    have : makeForm (takeFields formNames formMap (run a start h 0).kwargs fields) = none := by
      apply hno
      rw [takeFields_get, if_pos ⟨by decide, formMap_none _ (by decide)⟩]
      have hb' : sent fields "client_id".toList = none := hb
      rw [hb', Option.none_or, hrun]
    rw [show kept (run a start h) (.mapping fields) =
      some (takeFields formNames formMap (run a start h 0).kwargs fields) from rfl] at e
    dsimp only at e
    rw [this] at e
    cases e

example : sent (loginFields [(0, .login (.mapping [("client_id".toList, .other 5)]))]) "client_id".toList =
    some (.other 5) ∧ sent (fieldsOf (form "jane".toList "secret".toList)) "client_id".toList = none := by
      decide +kernel

/-- **C145, using the token.**  A token that was issued to a user opens `/items` for this user until it expires,
whatever requests come between, if the account is active.  Part: nobody has sent a field `request`
(`C145_request_false`), and the times are before the year 2603. -/
theorem C145_use_partial (a : App) (hc : Jwt.Spec.Lawful a.codec) (issued now : Int) (h : List (Int × Req))
    (u t : Str) (auth : Option Str) (body : Body Value) (hi : issue a issued u = some t) (ht : t ≠ [])
    (hauth : Bears auth t) (hact : Active a u) (hh : sent (itemFields h) "request".toList = none)
    (hb : sent (fieldsOf body) "request".toList = none) (ho : body ≠ .other) (h0 : 0 ≤ issued)
    (hyear : issued + a.ttl ≤ 20000000000 * 1000000) (hle : issued ≤ now) (hlt : now < expiry a issued) :
    (serve a now (run a start h) (.items auth body)).2 = .served u := by
  rw [items_header a now h auth body hh hb ho, (scheme_bears auth t ht).2 hauth]
  refine (items_served a now _ u).2 ⟨t, rfl, ?_, hact⟩
  obtain ⟨tok, hm, he⟩ := issue_some a issued u t hi
  obtain ⟨⟨e, he1, he2, he3⟩, hiat, hsub, _⟩ :=
    (Jwt.C107_make_partial a.here issued _ tok (by intro h; cases h)).1 hm
  cases he1
  have hiat : tok.iat = Jwt.Spec.utc (Jwt.Spec.secondAt issued) := by
    rcases hiat with ⟨_, e⟩ | ⟨i, e, _⟩
    · exact e
    · cases e
  have hexp : Jwt.Spec.secondOf a.here tok.exp = (issued + a.ttl) / 1000000 := by
    rw [he3]; unfold Jwt.Spec.secondOf; simp only [Option.getD_some]; omega
  have hiats : Jwt.Spec.secondOf a.here tok.iat = issued / 1000000 := by
    rw [hiat]; unfold Jwt.Spec.secondOf Jwt.Spec.utc Jwt.Spec.secondAt; simp only [Option.getD_some]; omega
  have hsub : tok.sub = some u := by
    generalize hg : tok.sub = o at hsub
    cases hsub
    rfl
  unfold expiry at hlt
  have hr := Jwt.C107_round_partial a.codec hc a.here issued now _ tok {} a.key a.alg [a.alg] none t hm he
    (fun kv hkv => by cases hkv) List.mem_cons_self rfl (Int.le_refl 0) (.inl rfl)
    (.inl (by rw [he3]; exact Option.some_ne_none _)) (.inl (by rw [hiat]; exact Option.some_ne_none _))
    (by rw [hexp]; omega) (by rw [hiats]; omega) hle (by rw [hexp]; exact hlt)
  unfold subject
  rw [hr]
  exact hsub

/-- The toy signs and verifies. -/
theorem toy_lawful : Jwt.Spec.Lawful toy.codec := by
  intro key alg p s hs algs ha
  have hs' : (if p = [(.exp, .num 1800), (.iat, .num 0), (.sub, .text "jane".toList)]
    then Except.ok "token".toList else Except.error Jwt.Error.other) = .ok s := hs
  by_cases hp : p = [(.exp, .num 1800), (.iat, .num 0), (.sub, .text "jane".toList)]
  · rw [if_pos hp] at hs'
    cases hs'
    show (if "token".toList = "token".toList ∧ algs ≠ [] then _ else _) = _
    rw [if_pos ⟨rfl, by intro h; subst h; exact absurd ha List.not_mem_nil⟩, hp]
  · rw [if_neg hp] at hs'
    cases hs'

example : issue toy 0 "jane".toList = some "token".toList ∧ Bears (some "Bearer token".toList) "token".toList ∧
    Active toy "jane".toList ∧ (5000000 : Int) < expiry toy 0 ∧
    (serve toy 5000000 (run toy start [(0, .login (form "jane".toList "secret".toList))])
      (.items (some "Bearer token".toList) .nothing)).2 = .served "jane".toList :=
  ⟨by decide +kernel, ⟨"Bearer".toList, by decide, by decide, by decide⟩, ⟨⟨"secret".toList, false⟩, by
      decide +kernel, rfl⟩, by decide,
    by decide +kernel⟩

/-- **C145, after it has expired** a token opens nothing, whatever has been sent before. -/
theorem C145_expired (a : App) (hc : Jwt.Spec.Lawful a.codec) (issued now : Int) (h : List (Int × Req)) (u t v : Str)
    (auth : Option Str) (body : Body Value) (hi : issue a issued u = some t) (ht : t ≠ []) (hauth : Bears auth t)
    (hh : sent (itemFields h) "request".toList = none) (hb : sent (fieldsOf body) "request".toList = none)
    (hge : expiry a issued ≤ now) : (serve a now (run a start h) (.items auth body)).2 ≠ .served v := by
  intro e
  have ho : body ≠ .other := by
    rintro rfl
    rw [items_reply] at e
    cases e
  rw [items_header a now h auth body hh hb ho, (scheme_bears auth t ht).2 hauth] at e
  obtain ⟨t', e', hs, _⟩ := (items_served a now _ v).1 e
  cases e'
  obtain ⟨tok, hm, he⟩ := issue_some a issued u t hi
  obtain ⟨⟨x, he1, he2, he3⟩, _⟩ := (Jwt.C107_make_partial a.here issued _ tok (by intro h; cases h)).1 hm
  cases he1
  unfold subject at hs
  cases hd : Jwt.decode a.codec a.here now {} a.key [a.alg] t with
  | error e => rw [hd] at hs; cases hs
  | ok tok' =>
    obtain ⟨⟨p, hv, ⟨n, hn, hlt⟩, _⟩, _⟩ := Jwt.C107_genuine _ _ _ _ _ _ _ _ hd
    obtain ⟨q, hq, hqe, _⟩ := Jwt.C107_payload a.codec a.key a.alg tok [] t he
    have hvq := hc _ _ _ _ hq [a.alg] List.mem_cons_self
    rw [hv] at hvq
    cases hvq
    have := hqe 0 rfl (by rw [he3])
    rw [hn] at this
    have hsec : n = (issued + a.ttl) / 1000000 := by
      have : n = Jwt.Spec.secondOf 0 tok.exp := Jwt.Claim.num.inj (Option.some.inj this)
      rw [this, he3]; unfold Jwt.Spec.secondOf; simp only [Option.getD_some]; omega
    unfold expiry at hge
    have hz : ({} : Jwt.Call).leeway = 0 := rfl
    rw [hz, hsec] at hlt
    omega

example : expiry toy 0 ≤ 1800000000 ∧
    (serve toy 1800000000 start (.items (some "Bearer token".toList) .nothing)).2 = .refused := by
  refine ⟨by decide, by decide +kernel⟩

/-- **C145, who is served.**  If nobody has sent a field `request`, a user is served only on a request whose header
bears
a token that is signed with the key and made for this user, and only if the account is active. -/
theorem C145_whose (a : App) (now : Int) (h : List (Int × Req)) (u : Str) (auth : Option Str) (body : Body Value)
    (hh : sent (itemFields h) "request".toList = none) (hb : sent (fieldsOf body) "request".toList = none)
    (e : (serve a now (run a start h) (.items auth body)).2 = .served u) :
    Active a u ∧ ∃ t, Signed a t u ∧ (t ≠ [] → Bears auth t) := by
  have ho : body ≠ .other := by
    rintro rfl
    rw [items_reply] at e
    cases e
  rw [items_header a now h auth body hh hb ho] at e
  obtain ⟨t, hs, hsub, hact⟩ := (items_served a now _ u).1 e
  refine ⟨hact, t, ?_, fun ht => (scheme_bears auth t ht).1 hs⟩
  unfold subject at hsub
  cases hd : Jwt.decode a.codec a.here now {} a.key [a.alg] t with
  | error e => rw [hd] at hsub; cases hsub
  | ok tok =>
    rw [hd] at hsub
    obtain ⟨_, p, f, hv, hj, hf, hm⟩ := Jwt.decode_ok _ _ _ _ _ _ _ _ hd
    refine ⟨p, hv, ?_⟩
    obtain ⟨f1, f2, f3, f4, f5, f6⟩ := Jwt.fieldsOf_some p f hf
    obtain ⟨_, _, hvs, _⟩ := (Jwt.make_ok a.here now f tok).1 hm
    have htext : Jwt.textIf p .sub = true := by
      unfold Jwt.jwtChecks at hj
      simp only [Bool.and_eq_true] at hj
      exact hj.1.1.1.1.1
    have hsub : tok.sub = some u := hsub
    unfold Jwt.textIf at htext
    cases hg : aget p .sub with
    | none =>
      rw [hg] at f3
      have f3 : some Jwt.Subject.absent = some f.sub := f3
      rw [← Option.some.inj f3] at hvs
      have hvs : Except.ok none = Except.ok tok.sub := hvs
      rw [hsub] at hvs
      cases hvs
    | some x =>
      rw [hg] at htext f3
      cases x with
      | text w =>
        have f3 : some (Jwt.Subject.text w) = some f.sub := f3
        rw [← Option.some.inj f3] at hvs
        have hvs : (if w = [] then Except.error Jwt.Error.validation else Except.ok (some w)) = Except.ok tok.sub := hvs
        by_cases hw : w = []
        · rw [if_pos hw] at hvs; cases hvs
        · rw [if_neg hw, hsub] at hvs
          cases hvs
          rfl
      | num n => cases htext
      | null => cases htext
      | date d => cases htext
      | other n => cases htext

/-- **C145 is false after a field `request`.**  One request to `/items` with a field of this name in its body closes the
route for everybody, for good. -/
theorem C145_request_false (a : App) (now : Int) (h : List (Int × Req)) (u : Str) (auth : Option Str)
    (body : Body Value) (hw : ∀ kv ∈ itemFields h ++ fieldsOf body, Wire kv.2)
    (hh : ∃ v, sent (itemFields h) "request".toList = some v) :
    (serve a now (run a start h) (.items auth body)).2 ≠ .served u := by
  obtain ⟨v, hv⟩ := hh
  intro e
  rw [items_reply] at e
  have hrun : aget (run a start h 1).kwargs "request".toList = some v := by
    rw [run_items, if_pos rfl, hv]; rfl
  have hno : ∀ kw w, aget kw "request".toList = some w → Wire w →
      items a now (if kw = [] then scheme auth else schemeOf (aget kw "request".toList)) ≠ .served u := by
    intro kw w hkw hwire he
    rw [if_neg (by rintro rfl; cases hkw), hkw] at he
    cases w with
    | request x => exact hwire.elim
    | _ => cases he
  cases body with
  | other => cases e
  | nothing =>
    exact hno (run a start h 1).kwargs v hrun (hw _ (List.mem_append_left _ (sent_mem _ _ _ hv))) e
  | mapping fields =>
    have hget : aget (takeFields ["request".toList] itemsMap (run a start h 1).kwargs fields) "request".toList =
        (sent fields "request".toList).or (some v) := by
      rw [takeFields_get, if_pos ⟨List.mem_cons_self, by decide +kernel⟩, hrun]
    cases hs : sent fields "request".toList with
    | none =>
      rw [hs, Option.none_or] at hget
      exact hno _ v hget (hw _ (List.mem_append_left _ (sent_mem _ _ _ hv))) e
    | some w =>
      rw [hs, Option.some_or] at hget
      exact hno _ w hget (hw _ (List.mem_append_right _ (sent_mem _ _ _ hs))) e

example : (serve toy 5 (run toy start [(1, .items none (.mapping [("request".toList, .other 1)]))])
    (.items (some "Bearer token".toList) .nothing)).2 = .refused ∧
    (serve toy 5 start (.items (some "Bearer token".toList) .nothing)).2 = .served "jane".toList := by
  refine ⟨?_, ?_⟩ <;> decide +kernel

/-- **C145 is false of `Security` under `Provide`.**  `Provide(get_current_user)` calls the function with the token of
the
header, and then once more with its own result: the function of the documentation, which takes texts, never answers. -/
theorem C145_twice_false (g : Value → Option Value) (auth : Option Str) :
    (currentUser g [] auth .nothing).2 = ((scheme auth).bind g).bind g := by
  show (Markers.provide (world g auth) 2 1 []).1.toOption = _
  have hsec : Markers.secure (world g auth) 0 [] = match scheme auth with
      | some v => (.ok v, [0])
      | none => (.error .raised, [0]) := by
    have hcall : Markers.call (world g auth) 0 [.request auth] [] [] = match scheme auth with
        | some v => (.ok v, [0])
        | none => (.error .raised, [0]) := by
      have hacc : Markers.accepts ((world g auth).fn 0).params [.request auth] [] = true := rfl
      unfold Markers.call
      rw [if_pos hacc]
      have hr : ((world g auth).fn 0).result ([] : List Nat).length [.request auth] [] = scheme auth := rfl
      rw [hr]
      cases scheme auth <;> rfl
    unfold Markers.secure
    rw [show (world g auth).request = .request auth from rfl, hcall]
    cases scheme auth <;> rfl
  have hcall1 : ∀ v log, Markers.call (world g auth) 1 [] [("token".toList, v)] log = match g v with
      | some w => (.ok w, log ++ [1])
      | none => (.error .raised, log ++ [1]) := by
    intro v log
    have hacc : Markers.accepts ((world g auth).fn 1).params [] [("token".toList, v)] = true := by
      unfold Markers.accepts
      show (decide (0 ≤ 1) && ([("token".toList, v)].all _) && _) = true
      rfl
    unfold Markers.call
    rw [if_pos hacc]
    have hr : ((world g auth).fn 1).result log.length [] [("token".toList, v)] = g v := by
      show (aget [("token".toList, v)] "token".toList).bind g = _
      rw [aget, if_pos rfl]
      rfl
    rw [hr]
    cases g v <;> rfl
  have hres : Markers.resolve (world g auth) 2 1 [] = match scheme auth with
      | some v => Markers.call (world g auth) 1 [] [("token".toList, v)] [0]
      | none => (.error .raised, [0]) := by
    rw [Markers.resolve]
    have hf : Markers.feed (world g auth) (Markers.resolve (world g auth) 1) ((world g auth).fn 1).params [] =
        match Markers.secure (world g auth) 0 [] with
        | (.error e, log) => (.error e, log)
        | (.ok v, log) => (.ok [("token".toList, v)], log) := by
      have hps : ((world g auth).fn 1).params = [{ name := "token".toList, default := .security 0 }] := rfl
      rw [hps]
      simp only [Markers.feed]
      rcases Markers.secure (world g auth) 0 [] with ⟨_ | _, _⟩ <;> rfl
    rw [hf, hsec]
    cases scheme auth <;> rfl
  have hp : Markers.provide (world g auth) 2 1 [] = match Markers.resolve (world g auth) 2 1 [] with
      | (.error e, log) => (.error e, log)
      | (.ok v, log) => Markers.call (world g auth) 1 [] [("token".toList, v)] log := by
    have ha : Markers.provideArgs (world g auth) 2 1 ((world g auth).fn 1).params [] =
        match Markers.resolve (world g auth) 2 1 [] with
        | (.error e, log) => (.error e, log)
        | (.ok v, log) => (.ok [("token".toList, v)], log) := by
      have hps : ((world g auth).fn 1).params = [{ name := "token".toList, default := .security 0 }] := rfl
      rw [hps]
      simp only [Markers.provideArgs]
      rcases Markers.resolve (world g auth) 2 1 [] with ⟨_ | _, _⟩ <;> rfl
    unfold Markers.provide
    rw [ha]
    rcases Markers.resolve (world g auth) 2 1 [] with ⟨_ | _, _⟩ <;> rfl
  rw [hp, hres]
  cases scheme auth with
  | none => rfl
  | some v =>
    dsimp only
    rw [hcall1]
    cases hg : g v with
    | none => simp only [Option.bind_some, hg, Option.bind_none]; rfl
    | some w =>
      dsimp only
      rw [hcall1]
      simp only [Option.bind_some, hg]
      cases g w <;> rfl

/-- So nobody is served by the documented application. -/
theorem C145_documented_false (a : App) (now : Int) (auth : Option Str) :
    (currentUser (documented a now) [] auth .nothing).2 = none := by
  rw [C145_twice_false]
  cases scheme auth with
  | none => rfl
  | some v =>
    cases v with
    | text t =>
      show ((userOf a now t).map Value.user).bind (documented a now) = none
      cases userOf a now t <;> rfl
    | _ => rfl

/-- **C145 is false after a field `token`.**  Once somebody has sent a token in a body, every later request is served as
the user of that token, whatever its header is. -/
theorem C145_body_false (g : Value → Option Value) (kw : List (Str × Value)) (first auth : Option Str) (t : Value) :
    (currentUser g (currentUser g kw first (.mapping [("token".toList, t)])).1 auth .nothing).2 = g t := by
  have h1 : (currentUser g kw first (.mapping [("token".toList, t)])).1 = aset kw "token".toList t := by
    unfold currentUser
    have : absorb (currentDep g) [("current_user".toList, .provide 2)] ⟨.request first,
        .mapping [("token".toList, t)]⟩ kw = some (aset kw "token".toList t) := by
      unfold absorb
      rw [if_neg (by unfold currentDep; exact List.cons_ne_nil _ _)]
      show some (takeFields ["token".toList] _ kw [("token".toList, t)]) = _
      rw [takeFields, if_pos ⟨List.mem_cons_self, by decide +kernel⟩]
      rfl
    rw [this]
  rw [h1]
  have hne : aset kw "token".toList t ≠ [] := by
    intro e
    have := aget_aset_self kw "token".toList t
    rw [e] at this
    cases this
  show (if aset kw "token".toList t ≠ [] then ((currentDep g).call [] (aset kw "token".toList t)).map Ret.obj
    else _) = _
  rw [if_pos hne]
  show (((aget (aset kw "token".toList t) "token".toList).bind g).map fun v => ({ obj := v } : Ret Value)).map Ret.obj
    = _
  rw [aget_aset_self]
  show ((g t).map fun v => ({ obj := v } : Ret Value)).map Ret.obj = _
  cases g t <;> rfl

example : (currentUser (documented toy 5) [] none (.mapping [("token".toList, .text "token".toList)])).2 =
      some (.user "jane".toList) ∧
    (currentUser (documented toy 5)
      (currentUser (documented toy 5) [] none (.mapping [("token".toList, .text "token".toList)])).1 none .nothing).2 =
      some (.user "jane".toList) := by
  refine ⟨?_, ?_⟩ <;> decide +kernel

end Verif.Login.Props
