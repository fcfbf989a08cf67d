import Verif.TestClient.Lemmas

/-!
# C95: the test client is a faithful server and client

Full statement: for every request the application gets the scope and the body that a server would give it, and for every
application the client gets the status, the headers and the body that were sent, while an application that breaks the
protocol makes an error; with `authenticated` and `subprotocols` requests have the user and the subprotocols of the
caller.  Shown for paths that have no `%` after decoding, for hosts that are not IPv6 addresses and for responses that
are
complete.  The rest is false.
-/

namespace Verif.TestClient

open Verif

/-! ## The scope -/

/-- **C95** (partial): the scope of a request is the one that a server makes, when the decoded path has no `%` and
there is
no query (with a query only `raw_path` differs). -/
theorem C95_scope_partial (method : Str) (u : Url) (given : List (Str × Str)) (host : Str) (port default : Nat)
    (hd : defaultPort u.scheme = some (default : Int)) (hc : ':' ∉ host) (hha : Spec.Ascii host)
    (hn : u.netloc = host ∧ port = default ∨
      u.netloc = host ++ ':' :: Path.natToDec port ∧ (Path.natToDec port).length ≤ 4300)
    (ha : Spec.Ascii u.path) (hp : '%' ∉ Spec.servedPath u)
    (hq : ∀ q, u.query = some q → Spec.Ascii q)
    (hg : ∀ kv ∈ given, Spec.Ascii kv.1 ∧ Spec.Ascii kv.2) :
    ∃ s, scope method u given = some s ∧ s.method = method ∧ s.path = Spec.servedPath u ∧ s.scheme = u.scheme ∧
      s.query = u.query.getD [] ∧ s.server = (host, (port : Int)) ∧
      s.headers = Spec.hostHeader given host port default ++ given.map (fun kv => (lower kv.1, kv.2)) ∧
      (u.query = none → s.rawPath = u.path) := by
  have hh : hostPort u = some (host, (port : Int), (default : Int)) := by
    unfold hostPort
    rw [hd, Option.bind_some]
    rcases hn with ⟨hn, rfl⟩ | ⟨hn, hl⟩
    · rw [hn, Url.partition_of_not_mem _ _ hc]
    · rw [hn, Url.partition_append _ _ _ hc]
      dsimp only
      rw [Ranges.pyInt_natToDec port hl]
      rfl
  refine ⟨_, by unfold scope; rw [hh]; rfl, rfl, ?_, rfl, ?_, rfl, headers_eq given hg host hha port default, ?_⟩
  · show ExtValue.unquoteText (ExtValue.unquoteText u.path) = _
    rw [unquoteText_ascii u.path ha]
    exact unquoteText_plain _ hp
  · show ExtValue.utf8 (u.query.getD []) = _
    cases hu : u.query with
    | none => rfl
    | some q => exact ExtValue.utf8_ascii q (hq q hu)
  · intro hu
    show u.rawPath = _
    unfold Url.rawPath
    rw [hu]
    exact List.append_nil _

/-- A path with an escaped letter outside ASCII, and a port. -/
example : scope "GET".toList ⟨"http".toList, "testserver:8000".toList, "/caf%C3%A9".toList, some "a=1".toList⟩
      [("Accept".toList, "*/*".toList)] =
    some ⟨"GET".toList, "/café".toList, "/caf%C3%A9?a=1".toList, "http".toList, "a=1".toList,
      [("host".toList, "testserver:8000".toList), ("accept".toList, "*/*".toList)],
      ("testserver".toList, 8000)⟩ := by decide +kernel

example : '%' ∉ Spec.servedPath ⟨"http".toList, "testserver:8000".toList, "/caf%C3%A9".toList, none⟩ ∧
    defaultPort "http".toList = some ((80 : Nat) : Int) := by decide +kernel

/-- **C95** is false for an escaped `%`: the path is decoded twice, so that `/a%2520b`, which a server gives as
`/a%20b`,
is `/a b`. -/
theorem C95_path_false : ∃ u s, scope "GET".toList u [] = some s ∧ s.path = "/a b".toList ∧
    Spec.servedPath u = "/a%20b".toList :=
  ⟨⟨"http".toList, "testserver".toList, "/a%2520b".toList, none⟩, _, rfl, by decide +kernel, by decide +kernel⟩

/-- **C95** is false for `raw_path`, which has the query in it. -/
theorem C95_raw_path_false (method : Str) (p q : Str) (given : List (Str × Str)) :
    ∃ s, scope method ⟨"http".toList, "testserver".toList, p, some q⟩ given = some s ∧ s.rawPath = p ++ '?' :: q :=
  ⟨_, rfl, rfl⟩

/-- **C95** is false for IPv6 hosts: the port is looked for after the first colon, and `int` raises. -/
theorem C95_ipv6_false (method : Str) (given : List (Str × Str)) :
    scope method ⟨"http".toList, "[::1]:8000".toList, "/".toList, none⟩ given = none ∧
      scope method ⟨"http".toList, "[::1]".toList, "/".toList, none⟩ given = none := by
  have h1 : hostPort ⟨"http".toList, "[::1]:8000".toList, "/".toList, none⟩ = none := by decide +kernel
  have h2 : hostPort ⟨"http".toList, "[::1]".toList, "/".toList, none⟩ = none := by decide +kernel
  unfold scope
  rw [h1, h2]
  exact ⟨rfl, rfl⟩

/-! ## The response -/

/-- The response of an application that sends a whole response, with other acts before, between and after, and then
ends;
the body is left out for `HEAD`. -/
theorem C95_response (c : Conf) (method : Str) (acts : List Act) (st : Nat) (hs : List (Str × Str))
    (chunks : List Str) (last : Str) (h : acts.filterMap Spec.wire = Spec.whole st (Spec.bytes hs) chunks last)
    (hg : Spec.GoodHeaders hs) :
    exchange c method acts false =
      .ok ⟨st, hs, if method = "HEAD".toList then [] else chunks.flatten ++ last, Spec.lastTemplate acts⟩ := by
  unfold exchange
  rw [play_ok c method acts .init _ (by rw [h]; exact sendAll_whole c method st _ chunks last)]
  have hb : (Spec.bytes hs).any badHeader = false := by
    rw [List.any_eq_false]
    intro x hx
    obtain ⟨kv, hkv, rfl⟩ := List.mem_map.1 hx
    simp [badHeader, hg kv hkv]
  have hm : (Spec.bytes hs).map (fun h => (h.1.2, h.2.2)) = hs := by
    unfold Spec.bytes
    rw [List.map_map]
    exact List.map_id'' (fun _ => rfl) hs
  have ht : (Spec.lastTemplate acts).or none = Spec.lastTemplate acts := by cases Spec.lastTemplate acts <;> rfl
  unfold finish
  simp only [Option.isSome_none, Bool.false_eq_true, if_false]
  show (if (c.check && (Spec.bytes hs).any badHeader) = true then _ else _) = _
  rw [hb, Bool.and_false, if_neg (by decide)]
  show Except.ok (Resp.mk st ((Spec.bytes hs).map fun h => (h.1.2, h.2.2)) (shown method (chunks.flatten ++ last))
    ((Spec.lastTemplate acts).or none)) = _
  rw [hm, ht]
  unfold shown isHead
  by_cases hd : method = "HEAD".toList
  · rw [if_pos hd, if_pos (by rw [hd]; rfl)]
  · rw [if_neg hd, if_neg (by rw [decide_eq_false hd]; decide)]

example : [Act.receive, .send (.start 200 (Spec.bytes [("a".toList, "b".toList)])), .send (.body true "x".toList true),
      .send (.debug "t".toList), .send (.body true "y".toList false), .receive].filterMap Spec.wire =
    Spec.whole 200 (Spec.bytes [("a".toList, "b".toList)]) ["x".toList] "y".toList := by decide

example : Spec.GoodHeaders [("a".toList, "b".toList)] := by unfold Spec.GoodHeaders; decide

/-- The exception of an application is raised, or, when this is switched off, the response is that of an application
that
ends without it. -/
theorem C95_exception (c : Conf) (method : Str) (acts : List Act) (h : (play c method .init acts).2 = none) :
    exchange c method acts true = if c.raises then .error .app else exchange c method acts false := by
  obtain ⟨ra, ch, mo⟩ := c
  unfold exchange
  dsimp only
  rw [h]
  cases ra <;> rfl

example : (play ⟨true, true, .sync⟩ "GET".toList .init [.send (.start 200 []), .send (.body true [] false)]).2 = none
    := by
  decide

/-- An application that sends nothing of a response makes an error, or the response 500 when both checks are off. -/
theorem C95_no_response (c : Conf) (method : Str) (acts : List Act) (h : acts.filterMap Spec.wire = []) :
    ∃ b, exchange c method acts false =
      if c.raises || c.check then .error .violation else .ok ⟨500, [], b, Spec.lastTemplate acts⟩ := by
  refine ⟨if c.mode = .sync then [] else "Internal Server Error".toList, ?_⟩
  have ht : (Spec.lastTemplate acts).or none = Spec.lastTemplate acts := by cases Spec.lastTemplate acts <;> rfl
  obtain ⟨ra, ch, mo⟩ := c
  unfold exchange
  rw [play_ok _ method acts .init .init (by rw [h]; rfl)]
  show finish _ ((St.mark .init _ ((Spec.lastTemplate acts).or none)), none) = _
  rw [ht]
  cases ra <;> cases ch <;> rfl

example : [Act.receive, .send .other, .receive].filterMap Spec.wire = [] := by decide

/-- In the first transport the messages of bytes that are accepted are exactly the beginnings of a response; the others
make an `AssertionError`. -/
theorem C95_protocol (c : Conf) (hc : c.mode = .sync) (method : Str) (acts : List Act)
    (hb : ∀ b d more, .send (.body b d more) ∈ acts → b = true) :
    ((play c method .init acts).2 = none ↔ Spec.Beginning (acts.filterMap Spec.wire)) ∧
      ((play c method .init acts).2 = some .assertion ↔ ¬ Spec.Beginning (acts.filterMap Spec.wire)) := by
  have hb' : ∀ b d more, Msg.body b d more ∈ acts.filterMap Spec.wire → b = true := by
    intro b d more hm
    obtain ⟨a, ha, he⟩ := List.mem_filterMap.1 hm
    unfold Spec.wire at he
    split at he
    · cases he
    · injection he with he
      injection he with h1 h2 h3
      subst h1 h2 h3
      exact hb _ _ _ ha
    · cases he
  by_cases hB : Spec.Beginning (acts.filterMap Spec.wire)
  · obtain ⟨s, hs⟩ := sendAll_beginning c method _ hB
    rw [play_ok c method acts .init s hs]
    simp [hB]
  · have hs := (sendAll_any c method hc _ (wires acts) hb').resolve_left hB
    rw [play_error c method acts .init _ hs]
    simp [hB]

example : ¬ Spec.Beginning [.body true "x".toList false] := by
  rintro (h | ⟨st, hs, chunks, h | ⟨last, h⟩⟩)
  · cases h
  · cases h
  · cases h

/-- A header that is not bytes, or has a line end in it, makes an error when conformance is checked. -/
theorem C95_headers (c : Conf) (hc : c.check = true) (method : Str) (acts : List Act) (st : Nat)
    (hs : List ((Bool × Str) × (Bool × Str))) (chunks : List Str) (last : Str)
    (h : acts.filterMap Spec.wire = Spec.whole st hs chunks last) (x : (Bool × Str) × (Bool × Str)) (hx : x ∈ hs)
    (hbad : x.1.1 = false ∨ '\n' ∈ x.1.2 ∨ x.2.1 = false ∨ '\n' ∈ x.2.2) :
    exchange c method acts false = .error .violation := by
  unfold exchange
  rw [play_ok c method acts .init _ (by rw [h]; exact sendAll_whole c method st _ chunks last)]
  have hb : hs.any badHeader = true := by
    rw [List.any_eq_true]
    refine ⟨x, hx, ?_⟩
    unfold badHeader
    simp only [Bool.or_eq_true, Bool.not_eq_true', List.contains_iff_mem]
    rcases hbad with h | h | h | h
    · exact Or.inl (Or.inl (Or.inl h))
    · exact Or.inl (Or.inl (Or.inr h))
    · exact Or.inl (Or.inr h)
    · exact Or.inr h
  unfold finish
  simp only [Option.isSome_none, Bool.false_eq_true, if_false]
  show (if (c.check && hs.any badHeader) = true then _ else _) = _
  rw [hb, hc]
  rfl

example : exchange ⟨true, true, .async⟩ "GET".toList [.send (.start 200 [((true, "a".toList), (true, "b\nc".toList))]),
    .send (.body true [] false)] false = .error .violation := by rfl

/-- **C95** is false for the second transport: bodies after the last one are accepted and overwrite the beginning of the
response. -/
theorem C95_async_false :
    exchange ⟨true, true, .async⟩ "GET".toList [.send (.start 200 []), .send (.body true "hello".toList false),
        .send (.body true "XY".toList false)] false = .ok ⟨200, [], "XYllo".toList, none⟩ ∧
      ¬ Spec.Beginning [.start 200 [], .body true "hello".toList false, .body true "XY".toList false] := by
  refine ⟨by rfl, ?_⟩
  rintro (h | ⟨st, hs, chunks, h | ⟨last, h⟩⟩)
  · cases h
  · unfold Spec.begun at h
    injection h with _ h
    cases chunks with
    | nil => cases h
    | cons d chunks => cases h
  · unfold Spec.whole Spec.begun at h
    injection h with _ h
    cases chunks with
    | nil => cases h
    | cons d chunks => cases h

/-- **C95** is false for a response that is not complete: it makes no error, and what was sent of the body is lost. -/
theorem C95_incomplete_false (mode : Mode) (raised : Bool) :
    exchange ⟨true, true, mode⟩ "GET".toList [.send (.start 200 []), .send (.body true "abc".toList true)] false =
        .ok ⟨200, [], [], none⟩ ∧
      exchange ⟨false, true, mode⟩ "GET".toList [.send (.start 200 []), .send (.body true "abc".toList true)] raised =
        .ok ⟨200, [], [], none⟩ := by
  cases mode <;> cases raised <;> exact ⟨rfl, rfl⟩

/-! ## What the application receives -/

/-- The first thing that is received is the whole body; after that there is nothing until the response is complete, and
then the disconnect. -/
theorem C95_receive (c : Conf) (method body : Str) (acts : List Act) (h : (play c method .init acts).2 = none) :
    (.receive ∉ acts → (play c method .init acts).1.answer body = some (.request body)) ∧
      (.receive ∈ acts → (∃ b d, .send (.body b d false) ∈ acts) →
        (play c method .init acts).1.answer body = some .disconnect) ∧
      (.receive ∈ acts → (¬ ∃ b d, .send (.body b d false) ∈ acts) →
        (play c method .init acts).1.answer body = none) := by
  obtain ⟨h1, h2⟩ := play_complete c method acts .init h
  have e1 : (St.init.complete = true) = False := by simp [St.init]
  have e2 : (St.init.received = true) = False := by simp [St.init]
  rw [e1, false_or] at h1
  rw [e2, false_or] at h2
  unfold St.answer
  refine ⟨fun hr => ?_, fun hr hb => ?_, fun hr hb => ?_⟩
  · rw [if_neg (fun e => hr (h2.1 e))]
  · rw [if_pos (h2.2 hr), if_pos (h1.2 hb)]
  · rw [if_pos (h2.2 hr), if_neg (fun e => hb (h1.1 e))]

example : (play ⟨true, true, .sync⟩ "GET".toList .init [.receive, .send (.start 200 [])]).2 = none := by decide

/-! ## Subprotocols -/

/-- **C95** (partial): the subprotocols of the caller are those of the scope, when there is at least one and the caller
gives no headers. -/
theorem C95_subprotocols_partial (l : List Str) (hne : l ≠ []) (h : ∀ p ∈ l, Spec.GoodProtocol p) :
    scopeSubprotocols (prepare [] (some l)) = l := by
  have e : prepare [] (some l) = [("connection".toList, "upgrade".toList),
      ("sec-websocket-key".toList, "testserver==".toList), ("sec-websocket-version".toList, "13".toList),
      ("sec-websocket-protocol".toList, joinWith ", ".toList l)] := rfl
  have ha : aget [("connection".toList, "upgrade".toList),
      ("sec-websocket-key".toList, "testserver==".toList), ("sec-websocket-version".toList, "13".toList),
      ("sec-websocket-protocol".toList, joinWith ", ".toList l)] "sec-websocket-protocol".toList =
        some (joinWith ", ".toList l) := rfl
  unfold scopeSubprotocols
  rw [e, ha]
  dsimp only
  clear e ha
  induction l with
  | nil => exact absurd rfl hne
  | cons p l ih =>
    obtain ⟨hp1, hp2⟩ := h p (by simp)
    cases l with
    | nil =>
      rw [joinWith, splitOn_of_not_mem _ _ hp1]
      simp [hp2]
    | cons q l =>
      have hj : joinWith ", ".toList (p :: q :: l) = p ++ ',' :: ' ' :: joinWith ", ".toList (q :: l) := by
        rw [joinWith]
        simp
      have ih' := ih (by simp) (fun x hx => h x (by simp [hx]))
      rw [hj, splitOn_append_sep _ _ _ hp1, List.map_cons, hp2]
      congr 1
      refine Eq.trans ?_ ih'
      obtain ⟨x, xs, hx⟩ : ∃ x xs, splitOn ',' (joinWith ", ".toList (q :: l)) = x :: xs := by
        cases hs : splitOn ',' (joinWith ", ".toList (q :: l)) with
        | nil => rw [hs] at ih'; cases ih'
        | cons x xs => exact ⟨x, xs, rfl⟩
      rw [splitOn, hx]
      rfl

example : ∀ p ∈ ["chat".toList, "v2 x".toList], Spec.GoodProtocol p := by unfold Spec.GoodProtocol; decide

/-- **C95** is false for an empty list of subprotocols: the scope has the empty subprotocol. -/
theorem C95_empty_false : scopeSubprotocols (prepare [] (some [])) = [[]] := by decide +kernel

/-- **C95** is false when a dictionary of headers is used twice: it is changed by the first connection, and the second
has
the subprotocols of the first. -/
theorem C95_reuse_false :
    scopeSubprotocols (prepare (prepare [("x".toList, "y".toList)] (some ["a".toList])) (some ["b".toList])) =
      ["a".toList] := by decide +kernel

/-! ## The authenticated user -/

/-- After a block of `authenticated` the user of requests is the one before it, whatever was done in the block. -/
theorem C95_authenticated {U : Type} (before now : Stored U) : current (leave before now) = current before := by
  cases before with
  | none => rfl
  | some o => cases o <;> rfl

example : current (leave (some (some 1)) (some (some 2))) = some 1 := rfl

/-- The ports that the schemes have by convention. -/
def wellKnown : List (Str × Int) :=
  [("http".toList, 80), ("https".toList, 443), ("ws".toList, 80), ("wss".toList, 443)]

/-- **C95**: without a port in the URL, the scope has the port of the scheme; a URL of another scheme is refused. -/
theorem C95_port (method : Str) (u : Url) (given : List (Str × Str)) (hc : ':' ∉ u.netloc) :
    (∀ d, (u.scheme, d) ∈ wellKnown → ∃ s, scope method u given = some s ∧ s.server = (u.netloc, d)) ∧
    ((∀ d, (u.scheme, d) ∉ wellKnown) → scope method u given = none) := by
  have key : ∀ sch : Str, (∀ d, (sch, d) ∈ wellKnown → defaultPort sch = some d) ∧
      ((∀ d, (sch, d) ∉ wellKnown) → defaultPort sch = none) := by
    intro sch
    constructor
    · intro d hd
      simp only [wellKnown, List.mem_cons, Prod.mk.injEq, List.not_mem_nil, or_false] at hd
      rcases hd with ⟨rfl, rfl⟩ | ⟨rfl, rfl⟩ | ⟨rfl, rfl⟩ | ⟨rfl, rfl⟩ <;> decide
    · intro hn
      unfold defaultPort
      rw [if_neg, if_neg]
      · rintro (rfl | rfl)
        · exact hn 443 (by decide)
        · exact hn 443 (by decide)
      · rintro (rfl | rfl)
        · exact hn 80 (by decide)
        · exact hn 80 (by decide)
  constructor
  · intro d hd
    refine ⟨_, by unfold scope hostPort; rw [(key _).1 d hd, Option.bind_some,
      Url.partition_of_not_mem _ _ hc]; rfl, rfl⟩
  · intro hn
    unfold scope hostPort
    rw [(key _).2 hn]
    rfl

example : ':' ∉ "testserver".toList ∧ ("wss".toList, (443 : Int)) ∈ wellKnown ∧
    ∀ d, ("ftp".toList, d) ∉ wellKnown := by
  refine ⟨by decide, by decide, ?_⟩
  intro d hd
  simp only [wellKnown, List.mem_cons, Prod.mk.injEq, List.not_mem_nil, or_false] at hd
  rcases hd with h | h | h | h <;> exact absurd h.1 (by decide)


/-- **C95**: a body that is text, when the client does not check for it: without a response body (`HEAD`) it is
ignored, otherwise it is an exception. -/
theorem C95_text (c : Conf) (hc : c.check = false) (method d : Str) (more : Bool) (s : St) (hs : s.started = true)
    (hn : s.complete = false) :
    (method = "HEAD".toList → ∃ s', s.send c method (.body false d more) = .ok s' ∧ s'.content = s.content) ∧
    (method ≠ "HEAD".toList → s.send c method (.body false d more) = .error .type) := by
  have hb : s.send c method (.body false d more) = if !isHead method then .error .type else
      .ok (if more then (if isHead method then s else s.write d) else
        { (if isHead method then s else s.write d) with pos := 0, complete := true }) := by
    simp [St.send, hs, hn, hc]
  rw [hb]
  constructor
  · intro h
    have : isHead method = true := decide_eq_true h
    rw [this]
    cases more <;> exact ⟨_, rfl, rfl⟩
  · intro h
    have : isHead method = false := decide_eq_false h
    rw [this]
    rfl

example : ∃ s : St, s.started = true ∧ s.complete = false := ⟨{ St.init with started := true }, rfl, rfl⟩

end Verif.TestClient
