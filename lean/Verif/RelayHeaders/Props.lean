import Verif.RelayHeaders.Lemmas

/-!
# C37: the reverse proxy never forwards hop-by-hop or disallowed headers
-/

namespace Verif.RelayHeaders

open Spec

/-- **C37, requests: nothing forbidden from the client.**  Every header sent upstream is one the
proxy writes itself, or one of the configured extra headers, or a header of the client's
request, with the client's value, that is neither a hop-by-hop header nor on the drop list,
whatever its letter case. -/
theorem C37_request_partial (cfg : Config) (c : Client) (headers : List (Str × Str))
    (k v : Str) (h : (k, v) ∈ prepareRequest cfg c headers) :
    k ∈ ownHeaders ∨ (k, v) ∈ cfg.extra ∨
    ((k, v) ∈ headers ∧ ¬ OneHop k ∧ ¬ Listed k cfg.dropRequest) := by
  unfold prepareRequest at h
  rcases mem_withForwarding c _ _ h with h | h
  · exact Or.inl (List.mem_cons_of_mem _ h)
  · rcases mem_withHost cfg _ _ h with h | h
    · refine Or.inl ?_
      rw [show k = "host".toList from h.1]
      exact List.mem_cons_self
    · rcases mem_collected cfg headers _ h with h | h
      · exact Or.inr (Or.inr h)
      · exact Or.inr (Or.inl h)

/-- A configuration for the examples. -/
def exampleConfig : Config :=
  { dropRequest := ["X-Internal".toList], dropResponse := ["Server".toList],
    allowRequest := some ["accept".toList], allowResponse := some ["content-type".toList],
    baseHost := "up.example".toList }

example :
    prepareRequest exampleConfig ⟨"10.0.0.1".toList, true⟩
        [("Keep-alive".toList, "5".toList), ("x-INTERNAL".toList, "1".toList),
         ("accept".toList, "*/*".toList), ("host".toList, "front.example".toList)]
      = [("accept".toList, "*/*".toList), ("host".toList, "up.example".toList),
         ("x-forwarded-for".toList, "10.0.0.1".toList), ("x-forwarded-proto".toList, "https".toList),
         ("x-forwarded-host".toList, "up.example".toList)] := by decide

/-- **C37, requests: everything else arrives.**  The last header of a name that is neither
forbidden, nor written by the proxy, nor overridden by an extra header is sent upstream with
the client's value. -/
theorem C37_request_kept (cfg : Config) (c : Client) (pre post : List (Str × Str)) (k v : Str)
    (hlast : ∀ kv ∈ post, kv.1 ≠ k) (hown : k ∉ ownHeaders)
    (hextra : ∀ kv ∈ cfg.extra, kv.1 ≠ k) (hhop : ¬ OneHop k) (hdrop : ¬ Listed k cfg.dropRequest) :
    aget (prepareRequest cfg c (pre ++ (k, v) :: post)) k = some v := by
  unfold prepareRequest
  rw [aget_withForwarding c _ k hown,
    aget_withHost cfg _ k (fun e => hown (by rw [e]; exact List.mem_cons_self))]
  unfold collected
  have hnone : aget cfg.extra k = none := by
    rw [Verif.Environ.aget_none_iff]
    intro hm
    obtain ⟨kv, h1, h2⟩ := List.mem_map.mp hm
    exact hextra kv h1 h2
  rw [aget_aupdate_of_notmem _ _ _ hnone]
  have hsk : skipRequest cfg k = false := by
    rw [← Bool.not_eq_true, skip_iff]
    rintro (h | h)
    · exact hhop h
    · exact hdrop h
  refine aget_aupdate_last_mem _ k v (pre.filter (fun kv => !skipRequest cfg kv.1))
    (post.filter (fun kv => !skipRequest cfg kv.1)) ?_ ?_ []
  · rw [List.filter_append, List.filter_cons, if_pos (by rw [hsk]; rfl)]
  · intro kv hkv
    exact hlast kv (List.mem_filter.mp hkv).1

example :
    aget (prepareRequest exampleConfig ⟨[], false⟩
      ([("accept".toList, "text/html".toList)] ++ ("accept".toList, "*/*".toList) :: []))
      "accept".toList = some "*/*".toList := by decide

/-- **C37, responses.**  The headers passed back are exactly the upstream's headers without the
hop-by-hop ones and those on the drop list, whatever their letter case, in their order and with
all repetitions. -/
theorem C37_response (cfg : Config) (headers : List (Str × Str)) :
    (sanitizeResponse cfg headers).Sublist headers ∧
    (∀ k v, (k, v) ∈ sanitizeResponse cfg headers ↔
      ((k, v) ∈ headers ∧ ¬ OneHop k ∧ ¬ Listed k cfg.dropResponse)) ∧
    (∀ k v, ¬ OneHop k → ¬ Listed k cfg.dropResponse →
      (sanitizeResponse cfg headers).count (k, v) = headers.count (k, v)) := by
  have htest : ∀ kv : Str × Str,
      ((!(lower kv.1 ∈ hopByHop || lower kv.1 ∈ cfg.dropResponse.map lower)
        && !(lower kv.1 = "transfer-encoding".toList)) = true)
      ↔ (¬ OneHop kv.1 ∧ ¬ Listed kv.1 cfg.dropResponse) := by
    intro kv
    rw [oneHop_iff, listed_iff]
    have hte : lower kv.1 = "transfer-encoding".toList → lower kv.1 ∈ hopByHop := by
      intro h; rw [h]; decide
    constructor
    · intro h
      rw [Bool.and_eq_true, Bool.not_eq_true', Bool.or_eq_false_iff, decide_eq_false_iff_not,
        decide_eq_false_iff_not] at h
      exact h.1
    · intro h
      rw [Bool.and_eq_true, Bool.not_eq_true', Bool.or_eq_false_iff, decide_eq_false_iff_not,
        decide_eq_false_iff_not, Bool.not_eq_true', decide_eq_false_iff_not]
      exact ⟨h, fun e => h.1 (hte e)⟩
  refine ⟨List.filter_sublist, ?_, ?_⟩
  · intro k v
    unfold sanitizeResponse
    rw [List.mem_filter, htest]
  · intro k v h1 h2
    unfold sanitizeResponse
    exact List.count_filter ((htest (k, v)).mpr ⟨h1, h2⟩)

example :
    sanitizeResponse exampleConfig
        [("Set-Cookie".toList, "a=1".toList), ("SERVER".toList, "x".toList),
         ("Transfer-Encoding".toList, "chunked".toList), ("Set-Cookie".toList, "b=2".toList)]
      = [("Set-Cookie".toList, "a=1".toList), ("Set-Cookie".toList, "b=2".toList)] := by decide

/-- **C37 is false of the allow lists**: they are stored and never consulted.  With
`allow_request_headers=["accept"]` a cookie is sent upstream, and with
`allow_response_headers=["content-type"]` any other response header is passed back. -/
theorem C37_allow_false :
    exampleConfig.allowRequest = some ["accept".toList] ∧
    ("cookie".toList, "s=1".toList) ∈ prepareRequest exampleConfig ⟨[], false⟩
      [("cookie".toList, "s=1".toList)] ∧
    exampleConfig.allowResponse = some ["content-type".toList] ∧
    ("x-debug".toList, "1".toList) ∈ sanitizeResponse exampleConfig
      [("x-debug".toList, "1".toList)] := by decide

/-- The result of neither function depends on the allow lists. -/
theorem C37_allow_ignored (cfg : Config) (a b : Option (List Str)) (c : Client)
    (headers : List (Str × Str)) :
    prepareRequest { cfg with allowRequest := a, allowResponse := b } c headers
      = prepareRequest cfg c headers ∧
    sanitizeResponse { cfg with allowRequest := a, allowResponse := b } headers
      = sanitizeResponse cfg headers := ⟨rfl, rfl⟩

/-- **C37 is false of headers the proxy writes itself**: a dropped `host` or `x-forwarded-for` is
sent all the same — the client's `x-forwarded-for` is removed, a new one is added. -/
theorem C37_drop_own_false :
    aget (prepareRequest { dropRequest := ["x-forwarded-for".toList], baseHost := "up".toList }
        ⟨"10.0.0.1".toList, false⟩ [("x-forwarded-for".toList, "1.2.3.4".toList)])
      "x-forwarded-for".toList = some "10.0.0.1".toList := by decide

/-- **C37 is false of headers named by `Connection`**: RFC 9110, 7.6.1 makes them hop-by-hop too;
they are forwarded. -/
theorem C37_connection_named_false :
    ("x-hop".toList, "1".toList) ∈ prepareRequest { baseHost := "up".toList } ⟨[], false⟩
      [("connection".toList, "x-hop".toList), ("x-hop".toList, "1".toList)] := by decide

/-- A repeated request header reaches the upstream only with its last value. -/
theorem C37_repeated_lost :
    (prepareRequest { baseHost := "up".toList, preserveHost := true } ⟨[], false⟩
      [("cookie".toList, "a=1".toList), ("cookie".toList, "b=2".toList)]).filter
        (fun kv => kv.1 = "cookie".toList)
      = [("cookie".toList, "b=2".toList)] := by decide

end Verif.RelayHeaders
