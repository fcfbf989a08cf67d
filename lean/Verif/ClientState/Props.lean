import Verif.ClientState.Lemmas

/-!
# C133: what test clients keep from request to request

Full statement (refuted below): after any history of requests, overlapping or not, the cookies of a test client are
those it had and those of the responses (`Spec.jarAfter`), and each request was sent the cookies of the client at
that time with those given for it (`Spec.logOf`); redirects are followed as the argument says, or else the client
(`Spec.follow`); dictionaries of the caller are left alone; and both clients send the same headers.
-/

namespace Verif.ClientState.Props

open Verif Verif.ClientState Verif.ClientState.Spec

/-- C133 for clients that are given no cookies with requests: after any history, however requests overlap. -/
theorem C133_partial (j : Jar) (as : List Act) (h : NoneGiven as) :
    (run (State.new j) as).jar = jarAfter j as ∧ (run (State.new j) as).log = logOf j [] as := by
  have := run_none j as [] (State.new j) (fun _ _ _ _ hm => nomatch hm) h rfl rfl
  exact this

/-- C133 for requests one after the other, with or without cookies of their own, from a client whose cookies are for
everywhere and have different names, as long as no response sets a cookie: each request sends its own cookies over
those of the client, also to redirects, and the client is left as it was. -/
theorem C133_sequence_partial (j : Jar) (hd : Distinct j) (hp : Plain j) (xs : List Exchange) :
    (run (State.new j) (sequence 0 xs)).jar = j ∧
    (run (State.new j) (sequence 0 xs)).log = sequenceLog j 0 xs :=
  run_sequence j hd hp xs 0 (State.new j) rfl rfl

/-- A request with cookies of its own makes the cookies of the client cookies for everywhere: names and values are
as they were, domains and paths are gone. -/
theorem C133_places_false (j : Jar) (hd : Distinct j) (g : Given) (host path : Str) :
    (run (State.new j) [.begin 0 (some g) host path, .finish 0]).jar =
      j.map (fun c => ⟨[], ['/'], c.name, c.value⟩) := by
  have := run_exchange 0 ⟨some g, host, path, []⟩ (State.new j) rfl hd
  have e : (run (State.new j) [.begin 0 (some g) host path, .finish 0]) = _ := this
  rw [e]
  rfl

/-- A client with a cookie for `/admin`. -/
def admin : Jar := [⟨"testserver.local".toList, "/admin".toList, "s".toList, "1".toList⟩]

/-- Two requests to `/`, the first with a cookie of its own. -/
def visits : List Act :=
  [.begin 0 (some [("x".toList, "2".toList)]) "testserver.local".toList "/".toList, .finish 0,
    .begin 1 none "testserver.local".toList "/".toList]

/-- C133 fails for cookies with a place: the cookie of `/admin` is sent to `/` after a request with cookies. -/
theorem C133_place_false :
    (run (State.new admin) visits).log =
      [(0, some [("x".toList, "2".toList)]), (1, some [("s".toList, "1".toList)])] ∧
    logOf admin [] visits = [(0, some [("x".toList, "2".toList)]), (1, some [])] := by
  refine ⟨?_, ?_⟩ <;> decide +kernel

/-- C133 fails for cookies of responses: if the request had cookies of its own, whatever the response sets is
forgotten. -/
theorem C133_login_false (j : Jar) (hd : Distinct j) (g : Given) (host path : Str) (cs : List Cookie) :
    (run (State.new j) [.begin 0 (some g) host path, .receive 0 cs, .finish 0]).jar =
      (run (State.new j) [.begin 0 (some g) host path, .finish 0]).jar := by
  rw [run_received 0 g host path cs j hd, C133_places_false j hd g host path]
  rfl

/-- The cookie of a login should be kept, and is not. -/
example : jarAfter [] [.begin 0 (some []) [] ['/'], .receive 0 [⟨['h'], ['/'], ['s'], ['1']⟩], .finish 0] =
      [⟨['h'], ['/'], ['s'], ['1']⟩] ∧
    (run (State.new []) [.begin 0 (some []) [] ['/'], .receive 0 [⟨['h'], ['/'], ['s'], ['1']⟩], .finish 0]).jar =
      [] := by
  decide +kernel

/-- C133 fails for clients with two cookies of a name (for two paths, say): every request with cookies of its own
raises an error, and none is sent. -/
theorem C133_conflict_false (j : Jar) (hd : ¬ Distinct j) (g : Given) (i : Nat) (host path : Str) :
    (run (State.new j) [.begin i (some g) host path]).log = [(i, none)] ∧
    (run (State.new j) [.begin i (some g) host path]).jar = j := by
  show (step (State.new j) (.begin i (some g) host path)).log = _ ∧ _ = _
  have hf : flat j = none := if_neg hd
  have : step (State.new j) (.begin i (some g) host path) = ⟨j, [], [(i, none)]⟩ := by
    show (match flat j with
      | none => _
      | some d => _) = _
    rw [hf]
    rfl
  refine ⟨by rw [this], ?_⟩
  show (step (State.new j) (.begin i (some g) host path)).jar = j
  rw [this]

/-- C133 fails for requests that overlap: a request begun while another runs is sent the cookies given for that. -/
theorem C133_leak_false (j : Jar) (hd : Distinct j) (g : Given) (host path host' path' : Str) :
    (run (State.new j) [.begin 0 (some g) host path, .begin 1 none host' path']).log =
      [(0, some (sends (update j g) host path)), (1, some (sends (update j g) host' path'))] := by
  have : step (State.new j) (.begin 0 (some g) host path) =
      { jar := update j g
        saved := aset [] 0 (j.map fun c => (c.name, c.value))
        log := [(0, some (sends (update j g) host path))] } := by
    show (match flat j with
      | none => _
      | some d => _) = _
    rw [flat_distinct hd]
    rfl
  show (step (step (State.new j) (.begin 0 (some g) host path)) (.begin 1 none host' path')).log = _
  rw [this]
  rfl

/-- Two requests that overlap: the cookie of the first stays with the client for good; and the cookie that a request
without cookies of its own got is thrown away at the end of another. -/
theorem C133_overlap_false :
    (run (State.new []) [.begin 0 (some [(['a'], ['1'])]) ['h'] ['/'], .begin 1 (some [(['b'], ['2'])]) ['h'] ['/'],
      .finish 0, .finish 1]).jar = [⟨[], ['/'], ['a'], ['1']⟩] ∧
    jarAfter [] [.begin 0 (some [(['a'], ['1'])]) ['h'] ['/'], .begin 1 (some [(['b'], ['2'])]) ['h'] ['/'],
      .finish 0, .finish 1] = [] ∧
    (run (State.new []) [.begin 0 (some [(['a'], ['1'])]) ['h'] ['/'], .begin 1 none ['h'] ['/'],
      .receive 1 [⟨['h'], ['/'], ['s'], ['9']⟩], .finish 1, .finish 0]).jar = [] ∧
    jarAfter [] [.begin 0 (some [(['a'], ['1'])]) ['h'] ['/'], .begin 1 none ['h'] ['/'],
      .receive 1 [⟨['h'], ['/'], ['s'], ['9']⟩], .finish 1, .finish 0] = [⟨['h'], ['/'], ['s'], ['9']⟩] := by
  decide +kernel

/-! ### Redirects -/

/-- C133 for redirects: without `stream` both clients do as told; with it the sync client if it is told, and the
async client unless it is told not to. -/
theorem C133_follow_partial (d stream : Bool) (arg : Option Bool) :
    (stream = false ∨ arg ≠ none → followSync d stream arg = follow d arg) ∧
    (stream = false ∨ arg ≠ some false → followAsync d stream arg = follow d arg) := by
  cases d <;> cases stream <;> cases arg with
    | none => decide
    | some b => cases b <;> decide

/-- C133 fails for streams: the sync client follows no redirect by default, and the async client follows them though
it is told not to. -/
theorem C133_follow_false :
    followSync true true none ≠ follow true none ∧ followAsync true true (some false) ≠ follow true (some false) := by
  decide

/-! ### Headers -/

/-- C133 for subprotocols: those given with `websocket_connect` are sent if the headers of the caller say nothing
about them in any case. -/
theorem C133_protocols_partial (h : Headers) (ps : List Str)
    (hn : aget h "sec-websocket-protocol".toList = none) :
    aget (prepare h (some ps)) "sec-websocket-protocol".toList = some (joinWith ", ".toList ps) := by
  unfold prepare
  dsimp only
  rw [aget_setdefault_self, aget_setdefault_ne _ _ (by decide), aget_setdefault_ne _ _ (by decide),
    aget_setdefault_ne _ _ (by decide), hn]
  rfl

/-- C133 for the handshake: the fields that ask for a WebSocket are sent, with the values of the caller where there are
some, and every other field of the caller is sent as it is. -/
theorem C133_handshake (h : Headers) (ps : Option (List Str)) :
    aget (prepare h ps) "connection".toList = some ((aget h "connection".toList).getD "upgrade".toList) ∧
    aget (prepare h ps) "sec-websocket-key".toList =
      some ((aget h "sec-websocket-key".toList).getD "testserver==".toList) ∧
    aget (prepare h ps) "sec-websocket-version".toList =
      some ((aget h "sec-websocket-version".toList).getD "13".toList) ∧
    ∀ k, k ≠ "connection".toList → k ≠ "sec-websocket-key".toList → k ≠ "sec-websocket-version".toList →
      k ≠ "sec-websocket-protocol".toList → aget (prepare h ps) k = aget h k := by
  have drop : ∀ k, k ≠ "sec-websocket-protocol".toList → aget (prepare h ps) k =
      aget (setdefault (setdefault (setdefault h "connection".toList "upgrade".toList) "sec-websocket-key".toList
        "testserver==".toList) "sec-websocket-version".toList "13".toList) k := by
    intro k hk
    unfold prepare
    cases ps with
    | none => rfl
    | some ps => exact aget_setdefault_ne _ _ hk
  refine ⟨?_, ?_, ?_, fun k h1 h2 h3 h4 => ?_⟩
  · rw [drop _ (by decide), aget_setdefault_ne _ _ (by decide), aget_setdefault_ne _ _ (by decide),
      aget_setdefault_self]
  · rw [drop _ (by decide), aget_setdefault_ne _ _ (by decide), aget_setdefault_self,
      aget_setdefault_ne _ _ (by decide)]
  · rw [drop _ (by decide), aget_setdefault_self, aget_setdefault_ne _ _ (by decide),
      aget_setdefault_ne _ _ (by decide)]
  · rw [drop _ h4, aget_setdefault_ne _ _ h3, aget_setdefault_ne _ _ h2, aget_setdefault_ne _ _ h1]

example : aget (prepare [("connection".toList, "close".toList)] none) "connection".toList = some "close".toList := by
  decide +kernel

/-- C133 fails for a dictionary that is used twice with the sync client: the second connection asks for the
subprotocols of the first, and requests made with it ask for an upgrade.  With the async client it is left alone. -/
theorem C133_reuse_false (h : Headers) (ps qs : List Str) (hn : aget h "sec-websocket-protocol".toList = none)
    (hc : aget h "connection".toList = none) :
    aget (prepare (after false h (some ps)) (some qs)) "sec-websocket-protocol".toList =
      some (joinWith ", ".toList ps) ∧
    aget (after false h (some ps)) "connection".toList = some "upgrade".toList ∧
    aget (prepare (after true h (some ps)) (some qs)) "sec-websocket-protocol".toList =
      some (joinWith ", ".toList qs) ∧
    after true h (some ps) = h := by
  refine ⟨?_, ?_, C133_protocols_partial h qs hn, rfl⟩
  · have := C133_protocols_partial h ps hn
    show aget (prepare (prepare h (some ps)) (some qs)) _ = _
    unfold prepare at this ⊢
    dsimp only at this ⊢
    rw [aget_setdefault_self, aget_setdefault_ne _ _ (by decide), aget_setdefault_ne _ _ (by decide),
      aget_setdefault_ne _ _ (by decide), this]
    rfl
  · show aget (prepare h (some ps)) _ = _
    unfold prepare
    dsimp only
    rw [aget_setdefault_ne _ _ (by decide), aget_setdefault_ne _ _ (by decide),
      aget_setdefault_ne _ _ (by decide), aget_setdefault_self, hc]
    rfl

/-- C133 fails for the user agent, whatever the headers: unless they have one the sync client says `testclient`, and
the async client what httpx says. -/
theorem C133_agent_false (httpx h : Headers) (hn : ∀ p ∈ h, lower p.1 ≠ lower "user-agent".toList) :
    valuesOf (clientHeaders false httpx h) "user-agent".toList = ["testclient".toList] ∧
    valuesOf (clientHeaders true httpx h) "user-agent".toList = valuesOf httpx "user-agent".toList := by
  refine ⟨?_, valuesOf_merge_other hn⟩
  have hs : setdefault h "user-agent".toList "testclient".toList =
      h ++ [("user-agent".toList, "testclient".toList)] := by
    unfold setdefault
    rw [aget_none hn]
    exact aset_fresh _ (aget_none hn)
  show valuesOf (merge httpx (setdefault h "user-agent".toList "testclient".toList)) _ = _
  rw [hs, valuesOf_merge_given ⟨_, List.mem_append_right _ (List.mem_singleton.mpr rfl), rfl⟩, valuesOf_append,
    valuesOf_none hn, valuesOf_one]
  rfl

/-- C133 fails for names in capitals: the sync client sends two user agents, and both clients two lists of
subprotocols. -/
theorem C133_case_false :
    valuesOf (clientHeaders false [("user-agent".toList, "python-httpx".toList)] [("User-Agent".toList, "me".toList)])
      "user-agent".toList = ["me".toList, "testclient".toList] ∧
    valuesOf (clientHeaders true [("user-agent".toList, "python-httpx".toList)] [("User-Agent".toList, "me".toList)])
      "user-agent".toList = ["me".toList] ∧
    valuesOf (prepare [("Sec-WebSocket-Protocol".toList, "chat".toList)] (some ["news".toList]))
      "sec-websocket-protocol".toList = ["chat".toList, "news".toList] := by
  decide +kernel

/-! ### Instances -/

/-- The hypotheses can be met: a history of two overlapping requests without cookies, one of which logs in; and a
client with two cookies, with requests of which the second has its own and is redirected. -/
example : NoneGiven [.begin 0 none ['h'] ['/'], .begin 1 none ['h'] ['/'],
      .receive 0 [⟨['h'], ['/'], ['s'], ['9']⟩], .redirect 1 ['h'] ['/'], .finish 1, .finish 0] ∧
    (run (State.new []) [.begin 0 none ['h'] ['/'], .begin 1 none ['h'] ['/'],
      .receive 0 [⟨['h'], ['/'], ['s'], ['9']⟩], .redirect 1 ['h'] ['/'], .finish 1, .finish 0]).log =
      [(0, some []), (1, some []), (1, some [(['s'], ['9'])])] :=
  ⟨fun i g h p hm => by simp at hm, by decide +kernel⟩

example : Distinct [⟨[], ['/'], ['a'], ['1']⟩, ⟨[], ['/'], ['b'], ['2']⟩] ∧
    Plain [⟨[], ['/'], ['a'], ['1']⟩, ⟨[], ['/'], ['b'], ['2']⟩] ∧
    sequenceLog [⟨[], ['/'], ['a'], ['1']⟩, ⟨[], ['/'], ['b'], ['2']⟩] 0
      [⟨none, ['h'], ['/'], []⟩, ⟨some [(['b'], ['3'])], ['h'], ['/'], [(['k'], ['/', 'x'])]⟩] =
      [(0, some [(['a'], ['1']), (['b'], ['2'])]), (1, some [(['a'], ['1']), (['b'], ['3'])]),
        (1, some [(['a'], ['1']), (['b'], ['3'])])] ∧
    ¬ Distinct [⟨['h'], ['/'], ['a'], ['1']⟩, ⟨['h'], ['/', 'x'], ['a'], ['2']⟩] := by
  unfold Distinct Plain
  decide +kernel

end Verif.ClientState.Props
