import Verif.Tracing.Lemmas

/-!
# C115: a trace says what was asked and what was answered
-/

namespace Verif.Tracing.Props

open Verif Spec

variable {E C : Type}

/-- **C115, nothing is changed.**  Every message of the application reaches the client as it was sent, whatever the
request is, if its URL can be made. -/
theorem C115_forwarded_partial (parent : Option C) (r : Req) (u : Url) (hu : r.url = some u) (app : Run E) (ms : Int) :
    (serve parent r app ms).sent = app.messages ∧ (serve parent r app ms).called = true := by
  unfold serve
  dsimp only
  rw [hu]
  cases serverHost r.server <;> cases app.raised <;> exact ⟨rfl, rfl⟩

/-- The URL of the examples. -/
def url : Url := ⟨some "a.org".toList, some 8000, "/items/7".toList, "q=1".toList⟩

/-- The request of the examples. -/
def req : Req :=
  ⟨"GET".toList, some url, some "/items/7".toList, some ("10.0.0.9".toList, 5555), .at "127.0.0.1".toList, none⟩

example : (serve (E := Unit) (C := Unit) none req ⟨[.start (some 201), .body []], none, none⟩ 3).sent =
    [.start (some 201), .body []] := rfl

/-- **C115, the span.**  It is named after the method, and continues the trace of the headers, however the request
ends. -/
theorem C115_named (parent : Option C) (r : Req) (app : Run E) (ms : Int) :
    (serve parent r app ms).span.name = "HTTP ".toList ++ r.method ∧ (serve parent r app ms).span.parent = parent := by
  unfold serve
  dsimp only
  cases hu : r.url with
  | none => exact ⟨rfl, rfl⟩
  | some u =>
    dsimp only
    have h1 := observe_rest app.messages (opening ((⟨"HTTP ".toList ++ r.method, parent, [], .unset, []⟩ :
      Span E C).set .method (.text r.method)) r u) 500
    rw [opening_rest] at h1
    simp only [rest, Prod.mk.injEq] at h1
    cases hs : serverHost r.server with
    | none => cases app.raised <;> exact ⟨h1.1, h1.2.1⟩
    | some h =>
      cases app.raised with
      | none =>
        dsimp only
        generalize hz : (Span.set _ Attr.address _) = z
        have h2 := closing_rest z r.path app.route
        simp only [rest, Prod.mk.injEq] at h2
        rw [h2.1, h2.2.1, ← hz]
        exact ⟨h1.1, h1.2.1⟩
      | some e =>
        dsimp only
        generalize hz : (Span.set _ Attr.address _) = z
        have h2 := closing_rest z r.path app.route
        simp only [rest, Prod.mk.injEq] at h2
        refine ⟨h2.1.trans ?_, h2.2.1.trans ?_⟩ <;> rw [← hz]
        · exact h1.1
        · exact h1.2.1

example : (serve (E := Unit) (C := Nat) (some 4) req ⟨[], none, none⟩ 3).span.name = "HTTP GET".toList ∧
    (serve (E := Unit) (C := Nat) (some 4) req ⟨[], none, none⟩ 3).span.parent = some 4 := ⟨rfl, rfl⟩

/-- **C115, the status (partial).**  When the application ends without an exception, and the URL and the server are
known, the span is an error exactly if the last answer that was started is of the classes 4xx and 5xx, counted as 500
where none was started, and it is OK otherwise; nothing is recorded and nothing is raised. -/
theorem C115_status_partial (parent : Option C) (r : Req) (u : Url) (hu : r.url = some u) (hs : r.server ≠ .null)
    (app : Run E) (ha : app.raised = none) (ms : Int) :
    ((serve parent r app ms).span.status = .error ↔ Failure ((codes app.messages).getLastD 500)) ∧
    ((serve parent r app ms).span.status = .ok ↔ ¬ Failure ((codes app.messages).getLastD 500)) ∧
    (serve parent r app ms).span.recorded = [] ∧ (serve parent r app ms).raised = none := by
  have hh : ∃ h, serverHost r.server = some h := by
    cases hr : r.server with
    | absent => exact ⟨_, rfl⟩
    | null => exact absurd hr hs
    | «at» h => exact ⟨_, rfl⟩
  obtain ⟨h, hh⟩ := hh
  have h0 := observe_rest app.messages (opening ((⟨"HTTP ".toList ++ r.method, parent, [], .unset, []⟩ :
    Span E C).set .method (.text r.method)) r u) 500
  rw [opening_rest] at h0
  simp only [rest, Prod.mk.injEq] at h0
  have hc := observe_code app.messages (opening ((⟨"HTTP ".toList ++ r.method, parent, [], .unset, []⟩ :
    Span E C).set .method (.text r.method)) r u) 500
  unfold serve
  dsimp only
  rw [hu]; dsimp only; rw [hh, ha]; dsimp only
  rw [hc]
  refine ⟨statusOf_error _, statusOf_ok _, ?_, rfl⟩
  generalize hz : (Span.set _ Attr.address _) = z
  have h2 := closing_rest z r.path app.route
  simp only [rest, Prod.mk.injEq] at h2
  rw [h2.2.2.2, ← hz]
  exact h0.2.2.2

example : (serve (E := Unit) (C := Unit) none req ⟨[.start (some 404), .body []], none, none⟩ 3).span.status = .error ∧
    (serve (E := Unit) (C := Unit) none req ⟨[.start (some 302), .body []], none, none⟩ 3).span.status = .ok ∧
    (serve (E := Unit) (C := Unit) none req ⟨[], none, none⟩ 3).span.status = .error := ⟨rfl, rfl, rfl⟩

/-- **C115, exceptions (partial).**  An exception of the application leaves the middleware as it is, is recorded, and
makes the span an error whatever the answer was, when the URL and the server are known. -/
theorem C115_exception_partial (parent : Option C) (r : Req) (u : Url) (hu : r.url = some u) (hs : r.server ≠ .null)
    (app : Run E) (e : E) (ha : app.raised = some e) (ms : Int) :
    (serve parent r app ms).raised = some (.app e) ∧ (serve parent r app ms).span.status = .error ∧
    Exc.app e ∈ (serve parent r app ms).span.recorded := by
  have hh : ∃ h, serverHost r.server = some h := by
    cases hr : r.server with
    | absent => exact ⟨_, rfl⟩
    | null => exact absurd hr hs
    | «at» h => exact ⟨_, rfl⟩
  obtain ⟨h, hh⟩ := hh
  unfold serve
  dsimp only
  rw [hu]; dsimp only; rw [hh, ha]; dsimp only
  exact ⟨rfl, rfl, List.mem_append_right _ List.mem_cons_self⟩

example : (serve (C := Unit) none req ⟨[.start (some 200)], some 7, none⟩ 3).raised = some (.app 7) := rfl

/-- **C115, exceptions are recorded twice.**  The middleware records the exception, and so does the block of the library
that it leaves. -/
theorem C115_recorded_false (parent : Option C) (r : Req) (u : Url) (hu : r.url = some u) (hs : r.server ≠ .null)
    (app : Run E) (e : E) (ha : app.raised = some e) (ms : Int) :
    (serve parent r app ms).span.recorded = [.app e, .app e] := by
  have hh : ∃ h, serverHost r.server = some h := by
    cases hr : r.server with
    | absent => exact ⟨_, rfl⟩
    | null => exact absurd hr hs
    | «at» h => exact ⟨_, rfl⟩
  obtain ⟨h, hh⟩ := hh
  have h0 := observe_rest app.messages (opening ((⟨"HTTP ".toList ++ r.method, parent, [], .unset, []⟩ :
    Span E C).set .method (.text r.method)) r u) 500
  rw [opening_rest] at h0
  simp only [rest, Prod.mk.injEq] at h0
  unfold serve
  dsimp only
  rw [hu]; dsimp only; rw [hh, ha]; dsimp only
  generalize hz : (Span.set _ Attr.address _) = z
  have h2 := closing_rest z r.path app.route
  simp only [rest, Prod.mk.injEq] at h2
  show (closing z r.path app.route).recorded ++ [Exc.app e] = _
  rw [h2.2.2.2, ← hz]
  show (_ ++ [Exc.app e]) ++ [Exc.app e] = _
  rw [h0.2.2.2]
  rfl

example : (serve (C := Unit) none req ⟨[.start (some 200)], some 7, none⟩ 3).span.recorded = [.app 7, .app 7] := rfl

/-- **C115, the attributes (partial).**  When the URL and the server are known: the method, the code of the last answer
that was started and no code where none was, the query, the client where there is one, the port where the URL has one
that is not zero, and the duration. -/
theorem C115_attributes_partial (parent : Option C) (r : Req) (u : Url) (hu : r.url = some u) (hs : r.server ≠ .null)
    (app : Run E) (ms : Int) :
    says (serve parent r app ms).span .method = some (.text r.method) ∧
    says (serve parent r app ms).span .statusCode = (codes app.messages).getLast?.map .num ∧
    says (serve parent r app ms).span .query = some (.text u.query) ∧
    says (serve parent r app ms).span .clientAddress = r.client.map (fun c => .text c.1) ∧
    says (serve parent r app ms).span .clientPort = r.client.map (fun c => .num c.2) ∧
    says (serve parent r app ms).span .port = (u.port.filter (· ≠ 0)).map (fun n => .num n) ∧
    says (serve parent r app ms).span .duration = some (.num ms) := by
  have hh : ∃ h, serverHost r.server = some h := by
    cases hr : r.server with
    | absent => exact ⟨_, rfl⟩
    | null => exact absurd hr hs
    | «at» h => exact ⟨_, rfl⟩
  obtain ⟨h, hh⟩ := hh
  have key := serve_span parent r u app ms h hu hh
  simp only [key, closing, says_route, says_path, says_set]
  have ho : ∀ k, k ≠ Attr.statusCode → _ := fun k hk => observe_says app.messages k hk (opening
      ((⟨"HTTP ".toList ++ r.method, parent, [], .unset, []⟩ : Span E C).set .method (.text r.method)) r u) 500
  have hb : ∀ k, says (⟨"HTTP ".toList ++ r.method, parent, [], .unset, []⟩ : Span E C) k = none := fun _ => rfl
  refine ⟨?_, ?_, ?_, ?_, ?_, ?_, ?_⟩
  · cases app.route.or r.path <;> cases r.path <;> rfl
  · rw [observe_says_code]
    have hn : says (opening ((⟨"HTTP ".toList ++ r.method, parent, [], .unset, []⟩ :
        Span E C).set .method (.text r.method)) r u) .statusCode = none := by
      simp only [opening, says_http, says_route, says_client, says_port, says_set, hb]
      cases r.route <;> cases r.path <;> cases r.client <;> simp [Option.or]
    rw [hn]
    cases (codes app.messages).getLast? <;> cases app.route.or r.path <;> cases r.path <;> simp
  · rw [ho .query (by decide)]
    simp only [opening, says_http, says_route, says_client, says_port, says_set, hb]
    cases r.route <;> cases app.route <;> cases r.path <;> cases r.client <;> simp [Option.or]
  · rw [ho .clientAddress (by decide)]
    simp only [opening, says_http, says_route, says_client, says_port, says_set, hb]
    cases r.route <;> cases app.route <;> cases r.path <;> cases r.client <;> simp [Option.or]
  · rw [ho .clientPort (by decide)]
    simp only [opening, says_http, says_route, says_client, says_port, says_set, hb]
    cases r.route <;> cases app.route <;> cases r.path <;> cases r.client <;> simp [Option.or]
  · rw [ho .port (by decide)]
    simp only [opening, says_http, says_route, says_client, says_port, says_set, hb]
    cases hp : u.port with
    | none => cases r.route <;> cases app.route <;> cases r.path <;> cases r.client <;> simp [Option.or]
    | some n =>
      by_cases hn : n = 0 <;> cases r.route <;> cases app.route <;> cases r.path <;> cases r.client <;>
        simp [Option.or, Option.filter, hn]
  · cases app.route.or r.path <;> cases r.path <;> simp

example : says (serve (E := Unit) (C := Unit) none req ⟨[.start (some 201)], none, none⟩ 3).span .statusCode =
    some (.num 201) ∧
    says (serve (E := Unit) (C := Unit) none req ⟨[.start (some 201)], none, none⟩ 3).span .port = some (.num 8000) ∧
    says (serve (E := Unit) (C := Unit) none req ⟨[], none, none⟩ 3).span .statusCode = none := ⟨rfl, rfl, rfl⟩

/-- **C115, the address and the route that remain.**  The address is that of the server and not the name in the URL; the
path is the path of the scope; `lilya.route` is the route that the scope names at the end, else the path. -/
theorem C115_final (parent : Option C) (r : Req) (u : Url) (hu : r.url = some u) (h p : Str)
    (hs : r.server = .at h) (hp : r.path = some p) (app : Run E) (ms : Int) :
    says (serve parent r app ms).span .address = some (.text h) ∧
    says (serve parent r app ms).span .urlPath = some (.text p) ∧
    says (serve parent r app ms).span .lilyaRoute = some (.text (app.route.getD p)) := by
  have key := serve_span parent r u app ms h hu (by rw [hs]; rfl)
  simp only [key, closing, says_route, says_path, says_set, hp]
  cases app.route <;> simp [Option.or]

example : says (serve (E := Unit) (C := Unit) none req ⟨[], none, some "/items/{id}".toList⟩ 3).span .lilyaRoute =
    some (.text "/items/{id}".toList) := rfl

/-- **C115, a server that is left out.**  The address is `testserver`, whatever the URL says. -/
theorem C115_absent_false (parent : Option C) (r : Req) (u : Url) (hu : r.url = some u) (hs : r.server = .absent)
    (app : Run E) (ms : Int) : says (serve parent r app ms).span .address = some (.text "testserver".toList) := by
  have key := serve_span parent r u app ms "testserver".toList hu (by rw [hs]; rfl)
  simp only [key, closing, says_route, says_path, says_set]
  cases r.path <;> cases app.route <;> simp [Option.or]

example : says (serve (E := Unit) (C := Unit) none { req with server := .absent } ⟨[], none, none⟩ 3).span .address =
    some (.text "testserver".toList) := rfl

/-- **C115, `http.route`.**  It is what the scope named before the application was called: a route that is only found
by the application, as every route is when the middleware is one of the application, does not appear. -/
theorem C115_http_route_false (parent : Option C) (r : Req) (u : Url) (hu : r.url = some u) (hs : r.server ≠ .null)
    (app : Run E) (ms : Int) :
    says (serve parent r app ms).span .httpRoute = r.route.map .text := by
  have hh : ∃ h, serverHost r.server = some h := by
    cases hr : r.server with
    | absent => exact ⟨_, rfl⟩
    | null => exact absurd hr hs
    | «at» h => exact ⟨_, rfl⟩
  obtain ⟨h, hh⟩ := hh
  have hb : ∀ k, says (⟨"HTTP ".toList ++ r.method, parent, [], .unset, []⟩ : Span E C) k = none := fun _ => rfl
  rw [serve_span parent r u app ms h hu hh]
  simp only [closing, says_route, says_path, says_set]
  rw [observe_says app.messages .httpRoute (by decide)]
  simp only [opening, says_http, says_route, says_client, says_port, says_set, hb]
  cases r.route <;> cases app.route <;> cases r.path <;> cases r.client <;> simp [Option.or]

example : says (serve (E := Unit) (C := Unit) none req ⟨[], none, some "/items/{id}".toList⟩ 3).span .httpRoute =
    none := rfl

/-- **C115 is false where the server is `None`**, which the protocol allows: the answer is sent in full, and `TypeError`
is raised after it, in place of whatever the application raised. -/
theorem C115_server_false (parent : Option C) (r : Req) (u : Url) (hu : r.url = some u) (hs : r.server = .null)
    (app : Run E) (ms : Int) :
    (serve parent r app ms).sent = app.messages ∧ (serve parent r app ms).raised = some .typeError ∧
    (serve parent r app ms).span.status = .error := by
  unfold serve
  dsimp only
  rw [hu]; dsimp only; rw [hs]
  exact ⟨rfl, rfl, rfl⟩

example : (serve (E := Unit) (C := Unit) none { req with server := .null } ⟨[.start (some 200)], none, none⟩ 3).raised =
    some .typeError := rfl

/-- **C115 is false where the URL cannot be made**, as for `Host: a.org:x`: the application is not called, nothing is
sent, and `ValueError` is raised. -/
theorem C115_url_false (parent : Option C) (r : Req) (hu : r.url = none) (app : Run E) (ms : Int) :
    (serve parent r app ms).called = false ∧ (serve parent r app ms).sent = [] ∧
    (serve parent r app ms).raised = some .valueError ∧ (serve parent r app ms).span.status = .error ∧
    (serve parent r app ms).span.recorded = [.valueError] := by
  unfold serve
  dsimp only
  rw [hu]
  exact ⟨rfl, rfl, rfl, rfl, rfl⟩

example : (serve (E := Unit) (C := Unit) none { req with url := none } ⟨[.start (some 200)], none, none⟩ 3).called =
    false := rfl

/-- **C115, the matched route (partial).**  In a table without includes, the route that the scope names at the end is
the one whose handler answered. -/
theorem C115_matched_partial (beh : Nat → Router.Behave) (redirect : Bool) (rs : List Router.Route) (hf : Flat rs) (c
    : Router.Ctx)
    (id : Nat) (ps : List (Str × Path.Val)) (h : Router.dispatchSlow beh redirect rs c = .ran id ps)
    (acc : Option Router.Route) :
    ∃ r, seenRoute beh rs c acc = some r ∧ r ∈ rs ∧ IsHandler r id := by
  unfold Router.dispatchSlow at h
  cases hr : Router.runRoutes beh rs c false [] with
  | stop o =>
    rw [hr] at h
    dsimp only at h
    subst h
    exact seen_stop beh rs c acc false [] id ps hf hr
  | done had partials =>
    rw [hr] at h
    dsimp only at h
    split at h
    · cases h
    · cases partials <;> simp [Router.finish] at h

/-- A route of the examples. -/
def items : Router.Leaf := ⟨7, ⟨"/items".toList, []⟩, []⟩

/-- A request for a path. -/
def get (p : Str) : Router.Ctx := ⟨[], p, "GET".toList, []⟩

example : Router.dispatchSlow (fun _ => .respond) true [.leaf ⟨3, ⟨"/a".toList, []⟩, []⟩, .leaf items]
    (get "/items".toList) = .ran 7 [] := by decide +kernel

/-- The include of `/items` under `/api`. -/
def api : Router.Route := .incl ⟨"/api/".toList, [⟨"path".toList, .path, []⟩]⟩ true [.leaf items]

/-- **C115, what is named.**  An entry that stands alone in a table is named if it is the whole path of the request and
serves its method, or is an include that leads to the path; else nothing new is named. -/
theorem C115_seen (beh : Nat → Router.Behave) (r : Router.Route) (c : Router.Ctx) (acc : Option Router.Route) :
    (∀ l, r = .leaf l → (∀ ps, l.search c ≠ .full ps) → seenRoute beh [r] c acc = acc) ∧
    (∀ l ps, r = .leaf l → l.search c = .full ps → seenRoute beh [r] c acc = some r) ∧
    (∀ t b rs, r = .incl t b rs → (seenRoute beh [r] c acc =
      if (Include.search t c.root c.path).isSome = true then some r else acc)) := by
  have h1 : seenRoute beh [r] c acc = if fully r c = true then some r else acc := by
    unfold seenRoute
    rcases Router.runRoute beh r c with ⟨_ | o, a, b, d⟩
    · unfold seenRoute; rfl
    · rfl
  rw [h1]
  refine ⟨?_, ?_, ?_⟩
  · intro l hl hn
    rw [if_neg]
    subst hl
    unfold fully
    dsimp only
    cases hs : l.search c with
    | full ps => exact absurd hs (hn ps)
    | _ => exact Bool.false_ne_true
  · intro l ps hl hs
    rw [if_pos]
    subst hl
    unfold fully
    dsimp only
    rw [hs]
  · intro t b rs hr
    subst hr
    rfl

example : items.search (get "/items".toList) = .full [] ∧ items.search (get "/other".toList) = .none := by
  decide +kernel

/-- **C115 is false of routes under an include**: the handler of `/items` under `/api` answers, and the scope names the
include, whose path is no pattern of the request. -/
theorem C115_include_false : ∃ (beh : Nat → Router.Behave) (rs : List Router.Route) (c : Router.Ctx) (id : Nat)
    (r : Router.Route), Router.dispatchSlow beh true rs c = .ran id [] ∧ seenRoute beh rs c none = some r ∧
    ¬ IsHandler r id := by
  refine ⟨fun _ => .respond, [api], get "/api/items".toList, 7, api, by decide +kernel, ?_, ?_⟩
  · have h1 : fully api (get "/api/items".toList) = true := by decide +kernel
    have h2 : (Router.runRoute (fun _ => .respond) api (get "/api/items".toList)).1 = some (.ran 7 []) := by
      decide +kernel
    unfold seenRoute
    rw [if_pos h1]
    rcases hr : Router.runRoute (fun _ => Router.Behave.respond) api (get "/api/items".toList) with ⟨o, a, b, d⟩
    rw [hr] at h2
    dsimp only at h2
    subst h2
    rfl
  · rintro ⟨l, h, _⟩
    cases h

/-- **C115, the first set-up counts.**  Later calls change nothing, whatever they ask for. -/
theorem C115_setup (c : Option Config) (cs : List (Option Config)) :
    (c :: cs).foldl setup none = setup none c := by
  have : ∀ (cs : List (Option Config)) (p : Provider), cs.foldl setup (some p) = some p := by
    intro cs
    induction cs with
    | nil => intro p; rfl
    | cons d ds ih => intro p; exact ih p
  exact this cs _

example : [none, some { exporter := "console".toList }].foldl setup none =
    some ⟨"lilya-service".toList, .parentBased, .grpc "http://localhost:4317".toList true⟩ := by decide +kernel

/-- **C115, the exporter.**  The console where it is asked for; else by the end of the endpoint. -/
theorem C115_exporter (c : Config) (p : Provider) (h : setup none (some c) = some p) :
    p.service = c.service ∧ (p.exporter = .console ↔ c.exporter = "console".toList) ∧
    (∀ e, c.exporter ≠ "console".toList → c.endpoint = some e → e ≠ [] →
      (p.exporter = .grpc e c.insecure ↔ ∃ a, e = a ++ ":4317".toList) ∧
      (p.exporter = .http e ↔ ¬ ∃ a, e = a ++ ":4317".toList)) := by
  have hp : p = ⟨c.service, sampler c.sampler, exporter c⟩ := by
    injection h with h; exact h.symm
  subst hp
  refine ⟨rfl, ?_, ?_⟩
  · show exporter c = .console ↔ _
    unfold exporter
    split
    · exact ⟨fun _ => ‹_›, fun _ => rfl⟩
    · rename_i hn
      split <;> exact ⟨fun h => (nomatch h), fun h => absurd h hn⟩
  · intro e hc he hn
    have hE : endpointOf c = e := by
      unfold endpointOf
      rw [he]
      cases e with
      | nil => exact absurd rfl hn
      | cons x xs => rfl
    have hw : endsWith e ":4317".toList = true ↔ ∃ a, e = a ++ ":4317".toList := by
      unfold endsWith
      rw [List.isSuffixOf_iff_suffix]
      exact ⟨fun ⟨a, h⟩ => ⟨a, h.symm⟩, fun ⟨a, h⟩ => ⟨a, h.symm⟩⟩
    show (exporter c = _ ↔ _) ∧ (exporter c = _ ↔ _)
    unfold exporter
    rw [if_neg hc, hE, ← hw]
    by_cases hk : endsWith e ":4317".toList = true
    · rw [if_pos hk]
      exact ⟨⟨fun _ => hk, fun _ => rfl⟩, ⟨fun h => (nomatch h), fun h => absurd hk h⟩⟩
    · rw [if_neg hk]
      exact ⟨⟨fun h => (nomatch h), fun h => absurd h hk⟩, ⟨fun _ => hk, fun _ => rfl⟩⟩

example : exporter { endpoint := some "http://c:4318".toList } = .http "http://c:4318".toList ∧
    exporter {} = .grpc "http://localhost:4317".toList true ∧
    exporter { exporter := "console".toList } = .console := by decide +kernel

/-- **C115, the sampler**, and the endpoint that is left out or empty. -/
theorem C115_defaults (c : Config) :
    (sampler c.sampler = .off ↔ c.sampler = "always_off".toList) ∧
    (sampler c.sampler = .on ↔ c.sampler = "always_on".toList) ∧
    (c.exporter ≠ "console".toList → (c.endpoint = none ∨ c.endpoint = some []) →
      exporter c = .grpc "http://localhost:4317".toList c.insecure) := by
  have hd : ¬ "always_off".toList = "always_on".toList := by decide +kernel
  refine ⟨?_, ?_, ?_⟩
  · unfold sampler
    split
    · exact ⟨fun _ => ‹_›, fun _ => rfl⟩
    · rename_i hn
      split <;> exact ⟨fun h => (nomatch h), fun h => absurd h hn⟩
  · unfold sampler
    split
    · rename_i h
      exact ⟨fun h => (nomatch h), fun h' => absurd (h.symm.trans h') hd⟩
    · split
      · exact ⟨fun _ => ‹_›, fun _ => rfl⟩
      · rename_i hn
        exact ⟨fun h => (nomatch h), fun h => absurd h hn⟩
  · intro hc he
    have hE : endpointOf c = "http://localhost:4317".toList := by
      unfold endpointOf
      rcases he with he | he <;> rw [he]
    unfold exporter
    rw [if_neg hc, hE, if_pos (by decide +kernel)]

example : exporter { endpoint := none } = .grpc "http://localhost:4317".toList true ∧
    sampler "always_on".toList = .on := by decide +kernel

end Verif.Tracing.Props
