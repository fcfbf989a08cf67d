import Verif.CsrfFlow.Spec
import Verif.Csrf.Props
import Verif.SetCookie.Props
import Verif.Url.Lemmas

/-!
# Lemmas for the flow of the CSRF protection
-/

namespace Verif.CsrfFlow

open Verif Verif.CsrfFlow.Spec

theorem hex_small (c : Char) (h : (48 ≤ c.toNat ∧ c.toNat ≤ 57) ∨ (97 ≤ c.toNat ∧ c.toNat ≤ 102)) :
    c ∈ Cookies.Spec.tokenChars ∧ c ≠ '%' ∧ c.toNat < 128 := by
  have hc : c.toNat < 256 := by omega
  exact Cookies.toNat_lt_cases
    (fun c => ((48 ≤ c.toNat ∧ c.toNat ≤ 57) ∨ (97 ≤ c.toNat ∧ c.toNat ≤ 102)) →
      c ∈ Cookies.Spec.tokenChars ∧ c ≠ '%' ∧ c.toNat < 128) (by decide +kernel) c hc h

theorem hexMac_of (hmac : Str → Str → Str) (h : HexDigest hmac) : Csrf.Spec.HexMac hmac :=
  fun k m => ⟨(h k m).1, fun c hc => (hex_small c ((h k m).2 c hc)).2.2⟩

theorem hex_token (hmac : Str → Str → Str) (h : HexDigest hmac) (secret rnd : Str) (hr : Random rnd) :
    Hex (Csrf.generate hmac secret rnd) := by
  intro c hc
  unfold Csrf.generate at hc
  rcases List.mem_append.1 hc with hc | hc
  · exact hr.2 c hc
  · exact (h secret rnd).2 c hc

theorem token_length (hmac : Str → Str → Str) (h : HexDigest hmac) (secret rnd : Str) (hr : Random rnd) :
    (Csrf.generate hmac secret rnd).length = 128 := by
  unfold Csrf.generate
  rw [List.length_append, hr.1, (h secret rnd).1]

theorem token_ne (hmac : Str → Str → Str) (h : HexDigest hmac) (secret rnd : Str) (hr : Random rnd) :
    Csrf.generate hmac secret rnd ≠ [] := by
  intro e
  have := token_length hmac h secret rnd hr
  rw [e] at this
  exact absurd this (by decide)

theorem token_inj (hmac : Str → Str → Str) (secret secret' rnd rnd' : Str) (hr : Random rnd) (hr' : Random rnd')
    (h : Csrf.generate hmac secret rnd = Csrf.generate hmac secret' rnd') : rnd = rnd' := by
  unfold Csrf.generate at h
  exact (List.append_inj h (hr.1.trans hr'.1.symm)).1

theorem quote_hex (t : Str) (hne : t ≠ []) (h : Hex t) : Cookies.quote t = t :=
  (Cookies.C48_quoted t).1 ⟨hne, fun c hc => (hex_small c (h c hc)).1⟩

/-! ## The cookie -/

theorem toHeader_eq (date : Int → Str) (k : Cookie) (hn : SetCookie.Spec.Name k.key) :
    toHeader date k = some (strip isSpace
      (' ' :: joinWith "; ".toList
        ((k.key ++ '=' :: Cookies.quote (k.value.getD [])) :: SetCookie.attrs date k.opts))) := by
  have hr : lower k.key ∉ SetCookie.reserved := hn.2
  unfold toHeader
  rw [if_neg hr, if_neg]
  rintro (h | h)
  · exact hn.1.1 h
  · exact h (Cookies.legal_all _ hn.1.2)

theorem opts_cookie (s : Site) (t : Str) : (s.cookie t).opts = options s := rfl

theorem field_eq (date : Int → Str) (s : Site) (c : SetCookie.Spec.Client) (k : SetCookie.Spec.Key)
    (hs : Sound s c k) (t : Str) :
    ∃ f, field date (s.cookie t) = [f]
      ∧ ∀ jar k', SetCookie.Spec.receive c jar f k' = if k' = k then some (Cookies.quote t) else jar k' := by
  obtain ⟨hn, hss, hp, hd, hw⟩ := hs
  refine ⟨strip isSpace (' ' :: joinWith "; ".toList
    ((s.name ++ '=' :: Cookies.quote t) :: SetCookie.attrs date (options s))), ?_, ?_⟩
  · unfold field
    rw [toHeader_eq date (s.cookie t) hn]
    rfl
  · intro jar k'
    have hclean : SetCookie.Spec.CleanOpts date (options s) := by
      refine ⟨?_, hd, ?_⟩
      · intro p h
        rw [← Option.some.inj h]
        exact hp
      · intro e h
        exact absurd h (by intro h; cases h)
    have h := SetCookie.receive_eq date s.name t (options s) hn hclean hss c jar k'
    refine Eq.trans h ?_
    unfold SetCookie.Spec.stored
    rw [hw]
    have hend : ¬ SetCookie.Spec.Ended date c (options s) := fun h => h
    by_cases hk : k' = k
    · rw [if_pos hk, if_pos (by rw [hk]), if_neg hend]
    · rw [if_neg hk, if_neg (fun e => hk (Option.some.inj e).symm)]

theorem sent_token (s : Site) (c : SetCookie.Spec.Client) (k : SetCookie.Spec.Key) (hs : Sound s c k)
    (jar : SetCookie.Spec.Jar) (t : Str) (hne : t ≠ []) (ht : Hex t) (hj : jar k = some t) : sent s k jar = some t := by
  unfold sent
  rw [hj, Option.bind_some]
  have hq := quote_hex t hne ht
  have h := (Cookies.C48_set_cookie_partial [(s.name, t)] (by simp)
    (by intro kv hkv; rw [List.mem_singleton.mp hkv]; exact hs.1.1) [] (fun c hc => by cases hc) s.name).2
    (by
      intro kv hkv
      rw [List.mem_singleton.mp hkv]
      exact fun hm => (hex_small _ (ht _ hm)).2.1 rfl)
  have e : joinWith [';'] ([(s.name, t)].map fun kv => [] ++ kv.1 ++ '=' :: Cookies.quote kv.2) =
      s.name ++ '=' :: Cookies.quote t := rfl
  rw [e, hq] at h
  rw [h]
  simp [Cookies.Spec.lookup]

/-! ## Histories -/

theorem fold_apart (c : SetCookie.Spec.Client) (k : SetCookie.Spec.Key) (fs : List Str)
    (h : ∀ f ∈ fs, ∀ jar, SetCookie.Spec.receive c jar f k = jar k) (jar : SetCookie.Spec.Jar) :
    (fs.foldl (SetCookie.Spec.receive c) jar) k = jar k := by
  induction fs generalizing jar with
  | nil => rfl
  | cons f fs ih =>
    rw [List.foldl_cons, ih (fun g hg => h g (List.mem_cons_of_mem _ hg)), h f List.mem_cons_self]

/-- With a cookie that is not empty, no page sets another one. -/
theorem respond_some (hmac : Str → Str → Str) (date : Int → Str) (s : Site) (x : Str) (hx : x ≠ []) (v : Visit) :
    respond hmac date s (some x) v = (if v.page = .plain then none else some x, v.extra) := by
  cases x with
  | nil => exact absurd rfl hx
  | cons a t =>
    cases hp : v.page <;> simp [respond, handle, hp, getOrSet]

theorem openAll_some (hmac : Str → Str → Str) (date : Int → Str) (s : Site) (c : SetCookie.Spec.Client)
    (k : SetCookie.Spec.Key) (b : Browser) (x : Str) (hx : x ≠ []) (hsent : sent s k b.jar = some x)
    (vs : List Visit) (ha : ∀ v ∈ vs, Apart c k v) :
    (openAll hmac date s c k b vs).jar k = b.jar k
    ∧ (openAll hmac date s c k b vs).tabs
      = b.tabs ++ vs.map fun v => if v.page = .plain then none else some x := by
  unfold openAll
  rw [hsent]
  simp only [respond_some hmac date s x hx]
  refine ⟨fold_apart c k _ ?_ _, trivial⟩
  intro f hf
  obtain ⟨v, hv, hf⟩ := List.mem_flatMap.1 hf
  exact ha v hv f hf

theorem sent_congr (s : Site) (k : SetCookie.Spec.Key) (jar jar' : SetCookie.Spec.Jar) (h : jar' k = jar k) :
    sent s k jar' = sent s k jar := by
  unfold sent
  rw [h]

theorem history_some (hmac : Str → Str → Str) (date : Int → Str) (s : Site) (c : SetCookie.Spec.Client)
    (k : SetCookie.Spec.Key) (b : Browser) (x : Str) (hx : x ≠ []) (hsent : sent s k b.jar = some x)
    (h : List (List Visit)) (ha : ∀ vs ∈ h, ∀ v ∈ vs, Apart c k v) :
    (history hmac date s c k b h).jar k = b.jar k
    ∧ (history hmac date s c k b h).tabs
      = b.tabs ++ h.flatten.map fun v => if v.page = .plain then none else some x := by
  unfold history
  induction h generalizing b with
  | nil => simp
  | cons vs h ih =>
    obtain ⟨h1, h2⟩ := openAll_some hmac date s c k b x hx hsent vs (ha vs List.mem_cons_self)
    obtain ⟨h3, h4⟩ := ih (openAll hmac date s c k b vs) ((sent_congr s k _ _ h1).trans hsent)
      (fun vs' hvs => ha vs' (List.mem_cons_of_mem _ hvs))
    rw [List.foldl_cons]
    refine ⟨h3.trans h1, ?_⟩
    rw [h4, h2, List.flatten_cons, List.map_append, List.append_assoc]

/-! ## Submissions -/

theorem serve_submits (hmac : Str → Str → Str) (s : Site) (r : Csrf.Request) (t : Str) (hne : t ≠ [])
    (h : Submits s r t) : ∃ recv, Csrf.serve hmac s.conf r = Csrf.finish hmac s.conf r (some t) recv := by
  obtain ⟨hs, h⟩ := h
  have hm : r.method ∉ s.conf.safe := fun h => hs ((Csrf.safe_iff _ _).1 h)
  rcases h with h | ⟨h, hf, others, hb, hbody, hmax⟩
  · refine ⟨.original r.messages, ?_⟩
    unfold Csrf.serve
    rw [if_neg, h]
    rintro ⟨h1 | h1, -⟩
    · rw [h] at h1; cases h1
    · rw [h] at h1; exact hne (Option.some.inj h1)
  · refine ⟨.replay (Url.urlencode ((s.conf.field, t) :: others)), ?_⟩
    have hread := Csrf.readBody_complete s.conf.maxBody [] r.messages _ hbody (by simpa using hmax)
    rw [List.nil_append] at hread
    unfold Csrf.serve
    rw [if_pos ⟨.inl h, hm, (Csrf.isForm_iff _).2 (.inl hf)⟩, hread]
    dsimp only
    have he : Csrf.extractToken (Url.urlencode ((s.conf.field, t) :: others)) r.contentType s.conf.field = some t := by
      unfold Csrf.extractToken
      simp only []
      rw [if_pos ((Csrf.hasSub_iff _ _).2 hf), Url.parseQsl_urlencode true _ hb (.inl rfl)]
      exact Csrf.first_get [] others s.conf.field t (fun kv hkv => by cases hkv)
    rw [he]

theorem passes_iff (hmac : Str → Str → Str) (s : Site) (r : Csrf.Request) (t : Str) (hne : t ≠ [])
    (h : Submits s r t) : Passes hmac s r ↔ Csrf.tokensMatch hmac s.conf.secret (some t) r.cookie = some true := by
  obtain ⟨recv, he⟩ := serve_submits hmac s r t hne h
  have hm : r.method ∉ s.conf.safe := fun hh => h.1 ((Csrf.safe_iff _ _).1 hh)
  unfold Passes
  rw [he]
  unfold Csrf.finish
  rw [if_neg hm]
  cases Csrf.tokensMatch hmac s.conf.secret (some t) r.cookie with
  | none => simp
  | some b => cases b <;> simp

end Verif.CsrfFlow
