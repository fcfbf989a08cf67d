import Verif.CookieLife.Lemmas

/-!
# C165: cookies from answer to request
-/

namespace Verif.CookieLife.Props

open Verif Verif.CookieLife.Spec Verif.Responses Verif.SetCookie Verif.SetCookie.Spec

/-- **C165**, all values: after any history of answers, a handler reads in each cookie of the site the value that was
set last, with percent escapes decoded, and nothing where it was deleted since, never was set, or had ended at once. -/
theorem C165_read_partial (date : Int → Str) (host path : Str) (history : List (Client × List Op)) (jar : Jar)
    (h : Lives date (fun _ => none) history jar) (hh : ∀ x ∈ history, x.1.host = host)
    (hg : ∀ x ∈ history, ∀ op ∈ x.2, Good date op) (sent : List (Key × Str))
    (hs : Sends host ('/' :: path) jar sent) (name : Str) :
    reads (header sent) name = (lastWord date (calls history) name).map Url.unquote := by
  have hj := lives_good date host h hh hg
  obtain ⟨l1, l2⟩ := effects_last date host (calls history)
  rw [← hj] at l1 l2
  have good : ∀ x ∈ calls history, Good date x.2 := by
    intro x hx
    obtain ⟨y, hy, hx⟩ := List.mem_flatMap.1 hx
    obtain ⟨op, hop, e⟩ := List.mem_map.1 hx
    rw [← e]
    exact hg y hy op hop
  have word : ∀ n w, lastWord date (calls history) n = some w → Name n := by
    intro n w hw
    unfold lastWord at hw
    split at hw
    · rename_i c k v o hl
      have hm := List.mem_filter.1 (List.mem_of_getLast? hl)
      have hg := good _ hm.1
      have hk : k = n := of_decide_eq_true hm.2
      split at hw
      · cases hw
      · rw [← hk]
        exact hg.1
    · cases hw
  have entry : ∀ k v, (k, v) ∈ sent ↔ ∃ n w, k = spot host n ∧ v = Cookies.quote w ∧
      lastWord date (calls history) n = some w := by
    intro k v
    rw [hs.1 k v]
    constructor
    · rintro ⟨hv, _⟩
      by_cases hk : ∃ n, k = spot host n
      · obtain ⟨n, e⟩ := hk
        rw [e, l1 n] at hv
        cases hw : lastWord date (calls history) n with
        | none => rw [hw] at hv; cases hv
        | some w => rw [hw] at hv; exact ⟨n, w, e, (Option.some.inj hv).symm, hw⟩
      · rw [l2 k fun n e => hk ⟨n, e⟩] at hv
        cases hv
    · rintro ⟨n, w, e1, e2, e3⟩
      subst e1
      refine ⟨by rw [l1 n, e3, e2]; rfl, .inl rfl, .inr ⟨path, rfl, .inl rfl⟩⟩
  let f : Key × Str → Str × Str := fun kv => (kv.1.1, (lastWord date (calls history) kv.1.1).getD [])
  have hf : ∀ kv ∈ sent, lastWord date (calls history) kv.1.1 = some (f kv).2 ∧ kv.2 = Cookies.quote (f kv).2 := by
    intro kv hkv
    obtain ⟨n, w, e1, e2, e3⟩ := (entry kv.1 kv.2).1 hkv
    have : kv.1.1 = n := by rw [e1]; rfl
    simp only [f, this, e3, Option.getD_some]
    exact ⟨trivial, e2⟩
  have hread : reads (header sent) name =
      Cookies.Spec.lookup ((sent.map f).map fun kv => (kv.1, Url.unquote kv.2)) name := by
    cases hsent : sent with
    | nil => rfl
    | cons x xs =>
      have e : header (x :: xs) = some (joinWith "; ".toList
          ((f x :: xs.map f).map fun kv => kv.1 ++ '=' :: Cookies.quote kv.2)) := by
        unfold header
        rw [if_neg (List.cons_ne_nil _ _), ← List.map_cons, List.map_map]
        refine congrArg some (congrArg _ (List.map_congr_left fun kv hkv => ?_))
        show kv.1.1 ++ '=' :: kv.2 = (f kv).1 ++ '=' :: Cookies.quote (f kv).2
        rw [(hf kv (hsent ▸ hkv)).2]
      have hall : ∀ kv ∈ f x :: xs.map f, Name kv.1 := by
        intro kv hkv
        rw [← List.map_cons] at hkv
        obtain ⟨y, hy, e⟩ := List.mem_map.1 hkv
        rw [← e]
        exact word _ _ (hf y (hsent ▸ hy)).1
      have hp := parse_sent (f x) (xs.map f) (fun kv hkv => (hall kv hkv).1) name
      unfold reads
      rw [e, Option.toList_some, cookies_one, hp]
      rfl
  rw [hread, List.map_map]
  cases hw : lastWord date (calls history) name with
  | none =>
    refine lookup_none _ _ fun kv hkv e => ?_
    obtain ⟨y, hy, e'⟩ := List.mem_map.1 hkv
    have : y.1.1 = name := by rw [← e, ← e']; rfl
    have h1 := (hf y hy).1
    rw [this, hw] at h1
    cases h1
  | some w =>
    refine lookup_one _ _ _ (fun kv hkv e => ?_) ?_
    · obtain ⟨y, hy, e'⟩ := List.mem_map.1 hkv
      have hy1 : y.1.1 = name := by rw [← e, ← e']; rfl
      have h1 := (hf y hy).1
      rw [hy1, hw] at h1
      rw [← e', Option.some.inj h1]
      rfl
    · refine List.mem_map.2 ⟨(spot host name, Cookies.quote w), (entry _ _).2 ⟨name, w, rfl, rfl, hw⟩, ?_⟩
      show (name, Url.unquote ((lastWord date (calls history) name).getD [])) = _
      rw [hw]
      rfl

/-- **C165**: after any history of answers, a handler reads in each cookie of the site the value that was set last, and
nothing where it was deleted since, never was set, or had ended at once.

The full statement has all options and values; other paths and percent signs make a difference (`C165_path_false`,
`C165_delete_false`, `C165_percent_false`). -/
theorem C165_last_partial (date : Int → Str) (host path : Str) (history : List (Client × List Op)) (jar : Jar)
    (h : Lives date (fun _ => none) history jar) (hh : ∀ x ∈ history, x.1.host = host)
    (hg : ∀ x ∈ history, ∀ op ∈ x.2, Good date op) (hp : ∀ x ∈ history, ∀ op ∈ x.2, Plain op)
    (sent : List (Key × Str)) (hs : Sends host ('/' :: path) jar sent) (name : Str) :
    reads (header sent) name = lastWord date (calls history) name := by
  rw [C165_read_partial date host path history jar h hh hg sent hs name]
  cases hw : lastWord date (calls history) name with
  | none => rfl
  | some w =>
    have : '%' ∉ w := by
      unfold lastWord at hw
      split at hw
      · rename_i c k v o hl
        obtain ⟨y, hy, hx⟩ := List.mem_flatMap.1 (List.mem_filter.1 (List.mem_of_getLast? hl)).1
        obtain ⟨op, hop, e⟩ := List.mem_map.1 hx
        injection e with _ e
        have h1 := hp y hy op hop
        rw [e] at h1
        split at hw
        · cases hw
        · rw [← Option.some.inj hw]
          exact h1
      · cases hw
    rw [Option.map_some, Cookies.unquote_no_percent w this]

/-- **C165**, several fields: if the browser splits the header between cookies (RFC 9113, 8.2.3), handlers read the
same. -/
theorem C165_split_partial (groups : List (List (Str × Str))) (hg : groups ≠ []) (hne : ∀ g ∈ groups, g ≠ [])
    (hn : ∀ g ∈ groups, ∀ kv ∈ g, Cookies.Spec.Legal kv.1 ∧ '%' ∉ kv.2) (name : Str) :
    aget (Cookies.cookies (groups.map fun g =>
      joinWith "; ".toList (g.map fun kv => kv.1 ++ '=' :: Cookies.quote kv.2))) name =
    aget (Cookies.cookies [joinWith "; ".toList (groups.flatten.map fun kv => kv.1 ++ '=' :: Cookies.quote kv.2)])
      name := by
  have one : ∀ g : List (Str × Str), g ≠ [] → (∀ kv ∈ g, Cookies.Spec.Legal kv.1 ∧ '%' ∉ kv.2) →
      Cookies.Spec.lookup (Cookies.parse (joinWith "; ".toList (g.map fun kv => kv.1 ++ '=' :: Cookies.quote kv.2)))
        name = Cookies.Spec.lookup g name := by
    intro g h0 h
    obtain ⟨c, cs, e⟩ := List.exists_cons_of_ne_nil h0
    subst e
    rw [lookup_parse]
    rw [parse_sent c cs (fun kv hkv => (h kv hkv).1) name]
    have : (c :: cs).map (fun kv => (kv.1, Url.unquote kv.2)) = (c :: cs).map id :=
      List.map_congr_left fun kv hkv => by rw [Cookies.unquote_no_percent _ (h kv hkv).2]; rfl
    rw [this, List.map_id]
  have hflat : groups.flatten ≠ [] := by
    obtain ⟨g, gs, e⟩ := List.exists_cons_of_ne_nil hg
    subst e
    rw [List.flatten_cons]
    exact List.append_ne_nil_of_left_ne_nil (hne g List.mem_cons_self) _
  have hall : ∀ kv ∈ groups.flatten, Cookies.Spec.Legal kv.1 ∧ '%' ∉ kv.2 := by
    intro kv hkv
    obtain ⟨g, hg, hk⟩ := List.mem_flatten.1 hkv
    exact hn g hg kv hk
  rw [Cookies.C48_headers, Cookies.C48_headers, List.flatMap_cons, List.flatMap_nil, List.append_nil, one _ hflat hall]
  clear hflat hall hg
  induction groups with
  | nil => rfl
  | cons g gs ih =>
    rw [List.map_cons, List.flatMap_cons, lookup_append, one g (hne g List.mem_cons_self) (hn g List.mem_cons_self),
      ih (fun x hx => hne x (List.mem_cons_of_mem _ hx)) (fun x hx => hn x (List.mem_cons_of_mem _ hx)),
      List.flatten_cons, lookup_append]

example : aget (Cookies.cookies ["j=1".toList, "k=2; l=3".toList]) "k".toList = some "2".toList := by decide +kernel

/-! ## Examples -/

/-- The defaults of `set_cookie`. -/
def defaults : Opts := ⟨some "/".toList, none, false, false, none, none, some "lax".toList⟩

/-- A client of one host. -/
def client : Client := ⟨"ex.org".toList, "/".toList, fun _ => none, 0⟩

/-- A writer of dates. -/
def someDate : Int → Str := fun _ => "Thu, 01 Jan 1970 00:00:00 GMT".toList

theorem good_set : Good someDate (.set "k".toList "a b".toList defaults) := by
  refine ⟨⟨⟨by decide, by decide⟩, by decide⟩, ⟨?_, ?_, ?_⟩, ?_, ⟨rfl, rfl⟩⟩
  · intro s hs
    rw [← Option.some.inj hs]
    refine ⟨by decide, ?_, ?_⟩ <;> (intro c hc; rw [← Option.some.inj hc]; decide)
  · intro s hs; cases hs
  · intro e he; cases he
  · intro v hv
    rw [← Option.some.inj hv]
    decide

example : Plain (.set "k".toList "a b".toList defaults) := by unfold Plain; decide

example : ∃ hs, respond someDate [.set "k".toList "a b".toList defaults] [] = some hs ∧
    Lives someDate (fun _ => none) [(client, [.set "k".toList "a b".toList defaults])]
      (answered client (fun _ => none) hs) := by
  obtain ⟨fs, h, _⟩ := respond_good someDate [.set "k".toList "a b".toList defaults] [] (by
    intro op hop; rw [List.mem_singleton.1 hop]; exact good_set)
  exact ⟨_, h, .cons _ _ _ _ _ _ h (.nil _)⟩

example : lastWord someDate [(client, .set "k".toList "1".toList defaults), (client, .set "k".toList "2".toList
    defaults),
      (client, .delete "j".toList defaults)] "k".toList = some "2".toList ∧
    lastWord someDate [(client, .set "k".toList "1".toList defaults), (client, .delete "k".toList defaults)]
      "k".toList = none := by decide +kernel

example : reads (some "j=1; k=\"a b\"".toList) "k".toList = some "a b".toList := by decide +kernel

/-! ## Where it fails -/

/-- The place of the cookie of the site. -/
def siteKey : Key := ("k".toList, "ex.org".toList, "/".toList)

/-- The place of the cookie of a part. -/
def partKey : Key := ("k".toList, "ex.org".toList, "/part".toList)

/-- The cookie of a part of the site. -/
def part : Op := .set "k".toList "part".toList { defaults with path := some "/part".toList }

/-- A field that a client understands. -/
theorem receive_seen (jar : Jar) (field : Str) (s : Seen) (k : Key) (h1 : seen field = some s)
    (h2 : place client s = some k) :
    receive client jar field = fun k' => if k' = k then (if Expired client s then none else some s.value) else jar k'
        := by
  unfold receive
  rw [h1]
  simp only [h2]

theorem receive_part (jar : Jar) : receive client jar "k=part; Path=/part; SameSite=lax".toList =
    fun k => if k = partKey then some "part".toList else jar k := by
  rw [receive_seen jar _ ⟨"k".toList, "part".toList, [("path".toList, "/part".toList), ("samesite".toList,
      "lax".toList)]⟩
    partKey (by decide +kernel) (by decide +kernel)]
  funext k
  rw [if_neg (show ¬ Expired client ⟨"k".toList, "part".toList,
    [("path".toList, "/part".toList), ("samesite".toList, "lax".toList)]⟩ by decide +kernel)]

theorem receive_site (jar : Jar) : receive client jar "k=site; Path=/; SameSite=lax".toList =
    fun k => if k = siteKey then some "site".toList else jar k := by
  rw [receive_seen jar _ ⟨"k".toList, "site".toList, [("path".toList, "/".toList), ("samesite".toList, "lax".toList)]⟩
    siteKey (by decide +kernel) (by decide +kernel)]
  funext k
  rw [if_neg (show ¬ Expired client ⟨"k".toList, "site".toList,
    [("path".toList, "/".toList), ("samesite".toList, "lax".toList)]⟩ by decide +kernel)]

theorem receive_delete (jar : Jar) : receive client jar
    "k=\"\"; expires=Thu, 01 Jan 1970 00:00:00 GMT; Max-Age=0; Path=/; SameSite=lax".toList =
    fun k => if k = siteKey then none else jar k := by
  rw [receive_seen jar _ ⟨"k".toList, "\"\"".toList, [("expires".toList, "Thu, 01 Jan 1970 00:00:00 GMT".toList),
    ("max-age".toList, "0".toList), ("path".toList, "/".toList), ("samesite".toList, "lax".toList)]⟩
    siteKey (by decide +kernel) (by decide +kernel)]
  funext k
  rw [if_pos (show Expired client ⟨"k".toList, "\"\"".toList, [("expires".toList,
    "Thu, 01 Jan 1970 00:00:00 GMT".toList), ("max-age".toList, "0".toList), ("path".toList, "/".toList),
    ("samesite".toList, "lax".toList)]⟩ by decide +kernel)]

theorem part_matches : PathMatch "/part/x".toList partKey.2.2 := .inr ⟨"/x".toList, by decide, .inr (by decide)⟩

theorem site_matches : PathMatch "/part/x".toList siteKey.2.2 := .inr ⟨"part/x".toList, by decide, .inl (by decide)⟩

/-- Of two cookies of a name the browser sends that of the longer path first, and a handler reads the other one: what is
set for a part of the site has no effect there. -/
theorem C165_path_false : ∃ hs sent,
    respond someDate [.set "k".toList "site".toList defaults, part] [] = some hs ∧
    Sends "ex.org".toList "/part/x".toList (answered client (fun _ => none) hs) sent ∧
    (partKey, "part".toList) ∈ sent ∧ reads (header sent) "k".toList = some "site".toList := by
  have hf : Responses.Spec.fields [("set-cookie".toList, "k=site; Path=/; SameSite=lax".toList),
      ("set-cookie".toList, "k=part; Path=/part; SameSite=lax".toList)] "set-cookie".toList =
      ["k=site; Path=/; SameSite=lax".toList, "k=part; Path=/part; SameSite=lax".toList] := by decide +kernel
  refine ⟨[("set-cookie".toList, "k=site; Path=/; SameSite=lax".toList),
    ("set-cookie".toList, "k=part; Path=/part; SameSite=lax".toList)],
    [(partKey, "part".toList), (siteKey, "site".toList)], by decide +kernel, ⟨?_, ?_⟩, List.mem_cons_self,
    by decide +kernel⟩
  · intro k v
    unfold answered
    rw [hf, List.foldl_cons, List.foldl_cons, List.foldl_nil, receive_site, receive_part]
    constructor
    · intro h
      rcases List.mem_cons.1 h with e | e
      · injection e with e1 e2
        subst e1; subst e2
        exact ⟨if_pos rfl, .inl rfl, part_matches⟩
      · injection List.mem_singleton.1 e with e1 e2
        subst e1; subst e2
        exact ⟨by decide +kernel, .inl rfl, site_matches⟩
    · rintro ⟨h, _⟩
      simp only at h
      by_cases e1 : k = partKey
      · rw [if_pos e1] at h
        rw [e1, ← Option.some.inj h]
        exact List.mem_cons_self
      · rw [if_neg e1] at h
        by_cases e2 : k = siteKey
        · rw [if_pos e2] at h
          rw [e2, ← Option.some.inj h]
          exact List.mem_cons_of_mem _ List.mem_cons_self
        · rw [if_neg e2] at h
          cases h
  · decide +kernel

/-- Deleting a cookie without the path with which it was set leaves it in the browser. -/
theorem C165_delete_false : ∃ hs sent,
    respond someDate [part, .delete "k".toList defaults] [] = some hs ∧
    Sends "ex.org".toList "/part/x".toList (answered client (fun _ => none) hs) sent ∧
    reads (header sent) "k".toList = some "part".toList := by
  have hf : Responses.Spec.fields [("set-cookie".toList, "k=part; Path=/part; SameSite=lax".toList),
      ("set-cookie".toList, "k=\"\"; expires=Thu, 01 Jan 1970 00:00:00 GMT; Max-Age=0; Path=/; SameSite=lax".toList)]
      "set-cookie".toList = ["k=part; Path=/part; SameSite=lax".toList,
      "k=\"\"; expires=Thu, 01 Jan 1970 00:00:00 GMT; Max-Age=0; Path=/; SameSite=lax".toList] := by decide +kernel
  refine ⟨[("set-cookie".toList, "k=part; Path=/part; SameSite=lax".toList), ("set-cookie".toList,
    "k=\"\"; expires=Thu, 01 Jan 1970 00:00:00 GMT; Max-Age=0; Path=/; SameSite=lax".toList)],
    [(partKey, "part".toList)], by decide +kernel, ⟨?_, ?_⟩, by decide +kernel⟩
  · intro k v
    unfold answered
    rw [hf, List.foldl_cons, List.foldl_cons, List.foldl_nil, receive_part, receive_delete]
    constructor
    · intro h
      injection List.mem_singleton.1 h with e1 e2
      subst e1; subst e2
      exact ⟨by decide +kernel, .inl rfl, part_matches⟩
    · rintro ⟨h, _⟩
      simp only at h
      by_cases e2 : k = siteKey
      · rw [if_pos e2] at h
        cases h
      · rw [if_neg e2] at h
        by_cases e1 : k = partKey
        · rw [if_pos e1] at h
          rw [e1, ← Option.some.inj h]
          exact List.mem_cons_self
        · rw [if_neg e1] at h
          cases h
  · decide +kernel

/-- A percent sign in a value does not come back: it is written as it is and read as an escape. -/
theorem C165_percent_false :
    cookieValue someDate "k".toList "a%41".toList defaults = some "k=a%41; Path=/; SameSite=lax".toList ∧
    reads (some "k=a%41".toList) "k".toList = some "aA".toList := by decide +kernel

end Verif.CookieLife.Props
