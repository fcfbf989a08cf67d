import Verif.SetCookie.Lemmas
import Verif.Cookies.Props

/-!
# C59: cookies that are set and deleted
-/

namespace Verif.SetCookie

open Verif Verif.Responses Spec
open Verif.Responses.Spec (fields)

/-- A cookie with a path, a domain and every other option. -/
def full : Opts :=
  ⟨some "/a".toList, some ".Example.org".toList, true, true, some 60, some (.text "Fri, 01 Jan".toList), some "Lax".toList⟩

/-- Without options. -/
def bare : Opts := ⟨none, none, false, false, none, none, none⟩

/-- A date. -/
def aDate : Int → Str := fun _ => "Thu, 01 Jan 1970".toList

theorem full_clean : CleanOpts aDate full := by
  refine ⟨?_, ?_, ?_⟩
  · intro s hs
    rw [← Option.some.inj hs]
    refine ⟨by decide, ?_, ?_⟩ <;> (intro c hc; rw [← Option.some.inj hc]; decide)
  · intro s hs
    rw [← Option.some.inj hs]
    refine ⟨by decide, ?_, ?_⟩ <;> (intro c hc; rw [← Option.some.inj hc]; decide)
  · intro s hs
    rw [← Option.some.inj hs]
    refine ⟨by decide, ?_, ?_⟩ <;> (intro c hc; rw [← Option.some.inj hc]; decide)

/-- A client sees in the field that is added exactly the name, the value as quoted, and the attributes
given.  Partial: the path, the domain and the date have no semicolon and no white space at their ends. -/
theorem C59_seen_partial (date : Int → Str) (hs : Headers) (key value : Str) (o : Opts) (hn : Name key)
    (h : CleanOpts date o) (hss : SameSite o.samesite) :
    ∃ (v : Str) (s : Seen), setCookie date hs key value o = some (hs ++ [("set-cookie".toList, v)]) ∧
      seen v = some s ∧ s.name = key ∧ s.value = Cookies.quote value ∧
      s.get "domain".toList = given o.domain ∧
      s.get "expires".toList = given (o.expires.map (expiresText date)) ∧
      s.get "httponly".toList = (if o.httponly then some [] else none) ∧
      (s.get "max-age".toList).bind seconds = o.maxAge ∧
      s.get "path".toList = given o.path ∧
      s.get "samesite".toList = given o.samesite ∧
      s.get "secure".toList = (if o.secure then some [] else none) ∧
      ∀ kv ∈ s.attrs, kv.1 ∈ ["domain".toList, "expires".toList, "httponly".toList, "max-age".toList,
        "path".toList, "samesite".toList, "secure".toList] := by
  obtain ⟨h1, h2, h3, h4, h5, h6, h7⟩ := get_attrs date o h hss
  refine ⟨_, _, ?_, seen_eq date key value o hn h hss, rfl, rfl, h1, h2, h3, ?_, h5, h6, h7,
    names_attrs date o h hss⟩
  · unfold setCookie
    rw [cookieValue_eq date key value o hn hss]
    rfl
  · have e : Seen.get ⟨key, Cookies.quote value, readAttrs (attrs date o)⟩ "max-age".toList =
        o.maxAge.map intText := h4
    rw [e]
    cases o.maxAge with
    | none => rfl
    | some n => exact seconds_intText n

example : cookieValue aDate "k".toList "a b".toList full =
    some "k=\"a b\"; Domain=.Example.org; expires=Fri, 01 Jan; HttpOnly; Max-Age=60; Path=/a; SameSite=Lax; Secure".toList := by
  decide +kernel

/-- The cookie is refused exactly when the name is not allowed or `samesite` has another value. -/
theorem C59_refused (date : Int → Str) (hs : Headers) (key value : Str) (o : Opts) :
    setCookie date hs key value o = none ↔ ¬ (Name key ∧ SameSite o.samesite) := by
  constructor
  · rintro h ⟨h1, h2⟩
    unfold setCookie at h
    rw [cookieValue_eq date key value o h1 h2] at h
    cases h
  · intro h
    have : cookieValue date key value o = none := by
      unfold cookieValue
      split
      · rfl
      · rename_i h1
        split
        · rfl
        · rename_i h2
          split
          · rfl
          · rename_i h3
            exfalso
            apply h
            refine ⟨⟨⟨fun e => h2 (.inl e), ?_⟩, h1⟩, ?_⟩
            · have h2' : key.all Cookies.legal = true := by
                cases hk : key.all Cookies.legal with
                | true => rfl
                | false => exact absurd (.inr (by rw [hk]; exact Bool.false_ne_true)) h2
              intro c hc
              exact (Cookies.token_iff c).1 (List.all_eq_true.1 h2' c hc)
            · intro v hv
              have h3' : samesiteOk o.samesite = true := by
                cases hk : samesiteOk o.samesite with
                | true => rfl
                | false => exact absurd hk (by simpa using h3)
              rw [hv] at h3'
              unfold samesiteOk at h3'
              simp only [List.mem_cons, List.not_mem_nil, or_false, decide_eq_true_eq] at h3'
              exact h3'
    unfold setCookie
    rw [this]
    rfl

example : setCookie aDate [] "Path".toList [] bare = none ∧ setCookie aDate [] "a b".toList [] bare = none ∧
    setCookie aDate [] "k".toList [] { bare with samesite := some "weak".toList } = none ∧
    setCookie aDate [] "k".toList [] bare = some [("set-cookie".toList, "k=\"\"".toList)] := by
  decide +kernel

theorem receive_eq (date : Int → Str) (key value : Str) (o : Opts) (hn : Name key)
    (h : CleanOpts date o) (hss : SameSite o.samesite) (c : Client) (jar : Jar) (k : Key) :
    receive c jar (strip isSpace (' ' :: joinWith "; ".toList ((key ++ '=' :: Cookies.quote value) :: attrs date o))) k =
      stored date c jar key (Cookies.quote value) o k := by
  obtain ⟨h1, h2, -, h4, h5, -, -⟩ := get_attrs date o h hss
  have hplace : place c ⟨key, Cookies.quote value, readAttrs (attrs date o)⟩ = wanted c key o := by
    unfold place wanted
    have e1 : Seen.get ⟨key, Cookies.quote value, readAttrs (attrs date o)⟩ "domain".toList = given o.domain := h1
    have e2 : Seen.get ⟨key, Cookies.quote value, readAttrs (attrs date o)⟩ "path".toList = given o.path := h5
    rw [e1, e2]
    cases hg : given o.domain with
    | none => rfl
    | some d =>
      have : d ≠ [] := fun e => given_ne o.domain (by rw [hg, e])
      simp only
      rw [if_neg this]
  have hexp : Expired c ⟨key, Cookies.quote value, readAttrs (attrs date o)⟩ ↔ Ended date c o := by
    unfold Expired Ended
    have e1 : Seen.get ⟨key, Cookies.quote value, readAttrs (attrs date o)⟩ "max-age".toList = o.maxAge.map intText := h4
    have e2 : Seen.get ⟨key, Cookies.quote value, readAttrs (attrs date o)⟩ "expires".toList =
      given (o.expires.map (expiresText date)) := h2
    rw [e1, e2]
    cases o.maxAge with
    | none => rfl
    | some n =>
      rw [Option.map_some, Option.bind_some, seconds_intText n]
  unfold receive
  rw [seen_eq date key value o hn h hss]
  simp only
  rw [hplace]
  unfold stored
  cases hw : wanted c key o with
  | none => simp
  | some k' =>
    simp only
    by_cases hk : k = k'
    · have hk2 : some k' = some k := by rw [hk]
      rw [if_pos hk, if_pos hk2]
      by_cases hx : Ended date c o
      · rw [if_pos hx, if_pos (hexp.2 hx)]
      · rw [if_neg hx, if_neg (fun h => hx (hexp.1 h))]
    · rw [if_neg hk, if_neg (fun e => hk (Option.some.inj e).symm)]

/-- The field puts the cookie, as quoted, where the caller wants it in the client's jar, or nowhere, and
every other cookie stays.  Partial as above. -/
theorem C59_set_partial (date : Int → Str) (hs : Headers) (key value : Str) (o : Opts) (hn : Name key)
    (h : CleanOpts date o) (hss : SameSite o.samesite) :
    ∃ v, setCookie date hs key value o = some (hs ++ [("set-cookie".toList, v)]) ∧
      ∀ (c : Client) (jar : Jar) (k : Key), receive c jar v k = stored date c jar key (Cookies.quote value) o k := by
  refine ⟨_, ?_, fun c jar k => receive_eq date key value o hn h hss c jar k⟩
  unfold setCookie
  rw [cookieValue_eq date key value o hn hss]
  rfl

/-- A client of one host. -/
def someone : Client := ⟨"www.example.org".toList, "/".toList, fun _ => some 0, 10⟩

example : wanted someone "k".toList full = some ("k".toList, "example.org".toList, "/a".toList) ∧
    ¬ Ended aDate someone full ∧
    wanted someone "k".toList { full with domain := some "other.org".toList } = none := by
  refine ⟨by decide +kernel, ?_, by decide +kernel⟩
  unfold Ended full
  decide

/-- Deleting removes the cookie of that name, domain and path, if the client may store it there, and no
other; whatever age and date the caller has in mind.  Partial as above. -/
theorem C59_delete_partial (date : Int → Str) (hs : Headers) (key : Str) (o : Opts) (hn : Name key)
    (h : CleanOpts date { o with expires := some (.seconds 0) }) (hss : SameSite o.samesite) :
    ∃ v, deleteCookie date hs key o = some (hs ++ [("set-cookie".toList, v)]) ∧
      ∀ (c : Client) (jar : Jar) (k : Key),
        receive c jar v k = if wanted c key o = some k then none else jar k := by
  obtain ⟨v, h1, h2⟩ := C59_set_partial date hs key [] { o with maxAge := some 0, expires := some (.seconds 0) } hn
    ⟨h.1, h.2.1, h.2.2⟩ hss
  refine ⟨v, h1, ?_⟩
  intro c jar k
  rw [h2 c jar k]
  unfold stored
  have : Ended date c { o with maxAge := some 0, expires := some (.seconds 0) } := Int.le_refl 0
  rw [if_pos this]
  rfl

example : (deleteCookie aDate [] "k".toList { bare with path := some "/".toList }) =
    some [("set-cookie".toList, "k=\"\"; expires=Thu, 01 Jan 1970; Max-Age=0; Path=/".toList)] := by
  decide +kernel

/-- Setting a cookie and then deleting it with the same path and domain leaves the client without it and
with its other cookies.  Partial as above. -/
theorem C59_set_delete_partial (date : Int → Str) (hs : Headers) (key value : Str) (o : Opts) (hn : Name key)
    (h : CleanOpts date o) (h' : CleanOpts date { o with expires := some (.seconds 0) })
    (hss : SameSite o.samesite) :
    ∃ v w, (setCookie date hs key value o).bind (fun hs => deleteCookie date hs key o) =
        some (hs ++ [("set-cookie".toList, v), ("set-cookie".toList, w)]) ∧
      ∀ (c : Client) (jar : Jar) (k : Key), receive c (receive c jar v) w k =
        if wanted c key o = some k then none else jar k := by
  obtain ⟨v, h1, h2⟩ := C59_set_partial date hs key value o hn h hss
  obtain ⟨w, h3, h4⟩ := C59_delete_partial date (hs ++ [("set-cookie".toList, v)]) key o hn h' hss
  refine ⟨v, w, ?_, ?_⟩
  · rw [h1, Option.bind_some, h3, List.append_assoc]
    rfl
  · intro c jar k
    rw [h4]
    by_cases hk : wanted c key o = some k
    · rw [if_pos hk, if_pos hk]
    · rw [if_neg hk, if_neg hk, h2]
      unfold stored
      rw [if_neg hk]

/-- Every cookie has its own field: those set before are kept, in order. -/
theorem C59_many (date : Int → Str) (hs hs' : Headers) (key value : Str) (o : Opts)
    (h : setCookie date hs key value o = some hs') :
    ∃ v, cookieValue date key value o = some v ∧
      fields hs' "set-cookie".toList = fields hs "set-cookie".toList ++ [v] ∧
      ∀ n, n ≠ "set-cookie".toList → fields hs' n = fields hs n := by
  unfold setCookie at h
  cases hv : cookieValue date key value o with
  | none => rw [hv] at h; cases h
  | some v =>
    rw [hv] at h
    refine ⟨v, rfl, ?_, ?_⟩
    · rw [← Option.some.inj h]
      show fields (hs ++ [("set-cookie".toList, v)]) "set-cookie".toList = _
      rw [fields_append, fields_single _ _ (by decide)]
    · intro n hn
      rw [← Option.some.inj h]
      show fields (hs ++ [("set-cookie".toList, v)]) n = _
      rw [fields_append, fields_nil_of [("set-cookie".toList, v)] n (by
        intro kv hkv
        rw [List.mem_singleton.mp hkv]
        exact fun e => hn (e.symm.trans (by decide : lower "set-cookie".toList = "set-cookie".toList))), List.append_nil]

example : (setCookie aDate [("set-cookie".toList, "a=1".toList)] "k".toList "v".toList bare) =
    some [("set-cookie".toList, "a=1".toList), ("set-cookie".toList, "k=v".toList)] := by decide +kernel

/-- A cookie that the client stores and sends back is read as it was set.  Partial as above, and the value
has no percent sign. -/
theorem C59_round_partial (date : Int → Str) (hs : Headers) (key value : Str) (o : Opts) (hn : Name key)
    (h : CleanOpts date o) (hss : SameSite o.samesite) (hp : '%' ∉ value) :
    ∃ (v : Str) (s : Seen), setCookie date hs key value o = some (hs ++ [("set-cookie".toList, v)]) ∧
      seen v = some s ∧ aget (Cookies.parse (s.name ++ '=' :: s.value)) key = some value := by
  obtain ⟨v, s, h1, h2, h3, h4, -⟩ := C59_seen_partial date hs key value o hn h hss
  refine ⟨v, s, h1, h2, ?_⟩
  rw [h3, h4]
  have := (Cookies.C48_set_cookie_partial [(key, value)] (by simp)
    (by intro kv hkv; rw [List.mem_singleton.mp hkv]; exact hn.1) [] (fun c hc => by cases hc) key).2
    (by intro kv hkv; rw [List.mem_singleton.mp hkv]; exact hp)
  have e : joinWith [';'] ([(key, value)].map fun kv => [] ++ kv.1 ++ '=' :: Cookies.quote kv.2) =
      key ++ '=' :: Cookies.quote value := rfl
  rw [e] at this
  rw [this]
  simp [Cookies.Spec.lookup]

example : Cookies.parse "k=\"a b\"".toList = [("k".toList, "a b".toList)] := by decide +kernel

/-- False in general: a semicolon in the path gives the cookie attributes the caller did not give. -/
theorem C59_inject_false :
    ¬ ∀ (date : Int → Str) (key value : Str) (o : Opts) (v : Str) (s : Seen), Name key →
      cookieValue date key value o = some v → seen v = some s → s.get "domain".toList = given o.domain := by
  intro h
  have := h aDate "k".toList "v".toList { bare with path := some "/;domain=example.org".toList }
    "k=v; Path=/;domain=example.org".toList
    ⟨"k".toList, "v".toList, [("path".toList, "/".toList), ("domain".toList, "example.org".toList)]⟩
    ⟨⟨by decide, by decide⟩, by decide⟩ (by decide +kernel) (by decide +kernel)
  exact absurd this (by decide +kernel)

/-- False in general: line breaks in the path or domain reach the field. -/
theorem C59_line_false :
    ¬ ∀ (date : Int → Str) (key value : Str) (o : Opts) (v : Str), Name key →
      cookieValue date key value o = some v → '\n' ∉ v ∧ '\r' ∉ v := by
  intro h
  have := h aDate "k".toList "v".toList { bare with path := some "/\r\nx: y".toList }
    "k=v; Path=/\r\nx: y".toList ⟨⟨by decide, by decide⟩, by decide⟩ (by decide +kernel)
  exact absurd this (by decide +kernel)

end Verif.SetCookie
