import Verif.SecurityHeaders.Lemmas

/-!
# C65: responses carry the configured security headers, and the policy means what was configured

Full statement: under `SecurityMiddleware` every response carries each of the seven fields exactly once, with the
configured value, beside the unchanged fields of the application; the Content-Security-Policy has for a browser the
same directives as the configured one.  Under `XFrameOptionsMiddleware` every response has exactly one
X-Frame-Options field: the application's, or the configured one.
-/

namespace Verif.SecurityHeaders

open Verif Spec

/-- **C65, policy text.**  With different names for the directives, a browser reads the written policy as it would
read the configured one.  White space must mean the same to Python and to browsers. -/
theorem C65_policy_partial (policy : Str) (hs : ∀ c ∈ policy, isSpace c = white c)
    (hn : ((directives policy).map (·.headD [])).Nodup) :
    directives (contentPolicy policy) = directives policy := by
  have hsub : ∀ p ∈ splitOn ';' policy, Same p := by
    intro p hp c hc
    refine hs c ?_
    have hj := joinWith_splitOn ';' policy
    have : ∀ (ps : List Str), p ∈ ps → c ∈ joinWith [';'] ps := by
      intro ps
      induction ps with
      | nil => intro h; cases h
      | cons q ps ih =>
        intro h
        cases ps with
        | nil =>
          rw [joinWith]
          rcases List.mem_cons.mp h with rfl | h
          · exact hc
          · cases h
        | cons r ps =>
          rw [joinWith]
          rcases List.mem_cons.mp h with rfl | h
          · exact List.mem_append_left _ (List.mem_append_left _ hc)
          · exact List.mem_append_right _ (ih h)
    rw [← hj]
    exact this _ hp
  unfold contentPolicy renderPolicy parseText
  have hparse := foldl_addPart (splitOn ';' policy) hsub [] (by simpa [directives] using hn)
  rw [hparse, List.nil_append]
  have hgood : ∀ ws ∈ directives policy, ws ≠ [] ∧ ∀ w ∈ ws, w ≠ [] ∧ ∀ c ∈ w, white c = false ∧ c ≠ ';' := by
    intro ws hws
    unfold directives at hws
    obtain ⟨h1, h2⟩ := List.mem_filter.mp hws
    obtain ⟨p, hp, rfl⟩ := List.mem_map.mp h1
    refine ⟨by simpa using h2, fun w hw => ?_⟩
    obtain ⟨h3, h4⟩ := tokens_good p w hw
    exact ⟨h3, fun c hc => ⟨(h4 c hc).1, fun e => splitOn_no_sep ';' policy p hp (e ▸ (h4 c hc).2)⟩⟩
  change directives (joinWith "; ".toList (((directives policy).map _).map _ |>.map _)) = _
  generalize directives policy = ds at hgood
  rw [List.map_map, List.map_map, directives_join]
  · rw [List.map_map]
    have : ∀ ws ∈ ds, tokens (ws.headD [] ++ ' ' :: joinWith [' '] ws.tail) = ws := by
      intro ws hws
      obtain ⟨h1, h2⟩ := hgood ws hws
      cases ws with
      | nil => exact absurd rfl h1
      | cons w ws =>
        have hw := h2 w List.mem_cons_self
        rw [List.headD_cons, List.tail_cons, tokens_append _ _ _ (by decide),
          tokens_word w hw.1 (fun c hc => (hw.2 c hc).1),
          tokens_join ws (fun x hx => ⟨(h2 x (List.mem_cons_of_mem _ hx)).1,
            fun c hc => ((h2 x (List.mem_cons_of_mem _ hx)).2 c hc).1⟩)]
        rfl
    have hmap : ds.map (tokens ∘ ((fun kv => kv.1 ++ ' ' :: kv.2.render) ∘ (fun kv => (kv.1, Value.text kv.2))) ∘
        fun ws => (ws.headD [], joinWith [' '] ws.tail)) = ds := by
      conv => rhs; rw [← List.map_id ds]
      exact List.map_congr_left fun ws hws => this ws hws
    rw [hmap]
    exact List.filter_eq_self.mpr fun ws hws => by simpa using (hgood ws hws).1
  · intro x hx
    obtain ⟨ws, hws, rfl⟩ := List.mem_map.mp hx
    obtain ⟨h1, h2⟩ := hgood ws hws
    show ';' ∉ ws.headD [] ++ ' ' :: joinWith [' '] ws.tail
    intro hm
    cases ws with
    | nil => exact absurd rfl h1
    | cons w ws =>
      rcases List.mem_append.mp hm with hm | hm
      · exact ((h2 w List.mem_cons_self).2 _ hm).2 rfl
      · rcases List.mem_cons.mp hm with hm | hm
        · revert hm; decide
        · exact joinWith_not_mem ws (fun v hv hm => ((h2 v (List.mem_cons_of_mem _ hv)).2 _ hm).2 rfl) hm

example : directives " default-src  'self' ;;img-src a  b; upgrade-insecure-requests".toList =
      [["default-src".toList, "'self'".toList], ["img-src".toList, "a".toList, "b".toList],
       ["upgrade-insecure-requests".toList]] ∧
    contentPolicy " default-src  'self' ;;img-src a  b; upgrade-insecure-requests".toList =
      "default-src 'self'; img-src a b; upgrade-insecure-requests ".toList := by decide +kernel

/-- **C65, policy dictionary.**  A browser reads the directives of the dictionary, in order. -/
theorem C65_dict (d : List (Str × List Str)) (h : ∀ kv ∈ d, Word kv.1 ∧ ∀ v ∈ kv.2, Word v) :
    directives (renderPolicy (d.map fun kv => (kv.1, .list kv.2))) = d.map fun kv => kv.1 :: kv.2 := by
  unfold renderPolicy
  rw [List.map_map, directives_join]
  · rw [List.map_map]
    have hmap : d.map (tokens ∘ (fun kv => kv.1 ++ ' ' :: kv.2.render) ∘ fun kv => (kv.1, Value.list kv.2)) =
        d.map fun kv => kv.1 :: kv.2 := by
      refine List.map_congr_left fun kv hkv => ?_
      obtain ⟨h1, h2⟩ := h kv hkv
      show tokens (kv.1 ++ ' ' :: joinWith [' '] kv.2) = _
      rw [tokens_append _ _ _ (by decide), tokens_word kv.1 h1.1 (fun c hc => (h1.2 c hc).1),
        tokens_join kv.2 (fun v hv => ⟨(h2 v hv).1, fun c hc => ((h2 v hv).2 c hc).1⟩)]
      rfl
    rw [hmap]
    refine List.filter_eq_self.mpr fun ws hws => ?_
    obtain ⟨kv, _, rfl⟩ := List.mem_map.mp hws
    simp
  · intro x hx
    obtain ⟨kv, hkv, rfl⟩ := List.mem_map.mp hx
    obtain ⟨h1, h2⟩ := h kv hkv
    show ';' ∉ kv.1 ++ ' ' :: joinWith [' '] kv.2
    intro hm
    rcases List.mem_append.mp hm with hm | hm
    · exact (h1.2 _ hm).2 rfl
    · rcases List.mem_cons.mp hm with hm | hm
      · revert hm; decide
      · exact joinWith_not_mem kv.2 (fun v hv hm => ((h2 v hv).2 _ hm).2 rfl) hm

example : renderPolicy [("default-src".toList, .list ["'self'".toList]), ("img-src".toList, .list ["a".toList, "b".toList])] =
    "default-src 'self'; img-src a b".toList := by decide +kernel

/-- **C65, headers.**  The fields of the application stay as they are, in order; seven fields follow, with the
configured values.  Hence each of them has this one value when the application did not send it. -/
theorem C65_headers_partial (c : Config) (hs : List (Str × Str)) :
    ∃ added, c.process (.start "http.response.start".toList hs) = .start "http.response.start".toList (hs ++ added) ∧
      added.length = 7 ∧
      values added "content-security-policy".toList = [c.policy] ∧
      values added "cross-origin-opener-policy".toList = [c.opener] ∧
      values added "referrer-policy".toList = [c.referrer] ∧
      values added "strict-transport-security".toList = [c.transport] ∧
      values added "x-content-type-options".toList = [c.typeOptions] ∧
      values added "x-frame-options".toList = [c.frame] ∧
      values added "x-xss-protection".toList = [c.xss] := by
  refine ⟨c.fields, ?_, rfl, rfl, rfl, rfl, rfl, rfl, rfl, rfl⟩
  unfold Config.process
  simp only
  rw [if_pos trivial, foldl_add]

example (c : Config) : c.process (.start "http.response.start".toList []) =
    .start "http.response.start".toList c.fields := rfl

/-- Other messages pass unchanged. -/
theorem C65_others (c : Config) (setting : Option Str) (m : Msg)
    (h : ∀ hs, m ≠ .start "http.response.start".toList hs) : c.process m = m ∧ frameProcess setting m = m := by
  cases m with
  | other n => exact ⟨rfl, rfl⟩
  | start t hs =>
    have ht : t ≠ "http.response.start".toList := fun e => h hs (by rw [e])
    constructor
    · unfold Config.process
      simp only
      rw [if_neg ht]
    · unfold frameProcess
      simp only
      rw [if_neg (fun hh => ht hh.1)]

example (c : Config) : c.process (.other 3) = .other 3 := rfl

/-- **C65, frames.**  The response has the application's X-Frame-Options when it sent some, else the configured one
alone; nothing else changes. -/
theorem C65_frame (setting : Option Str) (hs : List (Str × Str)) :
    ∃ out, frameProcess setting (.start "http.response.start".toList hs) = .start "http.response.start".toList out ∧
      values out "x-frame-options".toList =
        (if values hs "x-frame-options".toList = [] then [frameOption setting]
         else values hs "x-frame-options".toList) ∧
      ∀ n, lower n ≠ "x-frame-options".toList → values out n = values hs n := by
  rw [frameProcess_start]
  have hval : values hs "X-Frame-Options".toList = values hs "x-frame-options".toList :=
    values_congr hs _ _ (by decide)
  by_cases h : MultiDict.get lower hs "X-Frame-Options".toList = none
  · have hv := (get_none_values hs _).mp h
    rw [if_pos ⟨rfl, h⟩]
    refine ⟨_, rfl, ?_, ?_⟩
    · rw [← hval, if_pos hv]
      unfold MultiDict.add
      rw [values_append, ← hval, hv, values_single_eq _ _ _ (by decide)]
      rfl
    · intro n hn
      unfold MultiDict.add
      rw [values_append]
      have : values [("X-Frame-Options".toList, frameOption setting)] n = [] :=
        values_single_ne _ _ _ (fun e => hn (e.symm.trans (by decide)))
      rw [this, List.append_nil]
  · have hv : values hs "X-Frame-Options".toList ≠ [] := fun e => h ((get_none_values hs _).mpr e)
    rw [if_neg (fun hh => h hh.2)]
    refine ⟨hs, rfl, ?_, fun n _ => rfl⟩
    rw [← hval, if_neg hv]

example : frameProcess (some "sameorigin".toList) (.start "http.response.start".toList [("a".toList, "b".toList)]) =
    .start "http.response.start".toList [("a".toList, "b".toList), ("X-Frame-Options".toList, "SAMEORIGIN".toList)] := by
  decide +kernel

/-- **False of repeated directives**: the first one counts for a browser, the last one is written. -/
theorem C65_repeat_false :
    effective "script-src 'none'; script-src *".toList "script-src".toList = some ["'none'".toList] ∧
    effective (contentPolicy "script-src 'none'; script-src *".toList) "script-src".toList = some ["*".toList] := by
  decide +kernel

/-- **False of fields the application sends**: the response has two, which may contradict each other. -/
theorem C65_twice_false (c : Config) (v : Str) :
    ∃ out, c.process (.start "http.response.start".toList [("X-Frame-Options".toList, v)]) =
      .start "http.response.start".toList out ∧ values out "X-Frame-Options".toList = [v, c.frame] :=
  ⟨_, rfl, rfl⟩

/-- **False of refused websockets**: their start message has another type and gets no fields. -/
theorem C65_websocket_false (c : Config) :
    c.process (.start "websocket.http.response.start".toList []) = .start "websocket.http.response.start".toList [] :=
  rfl

end Verif.SecurityHeaders
