import Verif.CorsPlaces.Lemmas

/-!
# C150: CORS on a part of an application
-/

namespace Verif.CorsPlaces.Props

open Verif Verif.MultiDict Spec
open Verif.Cors (Config Request Resp)
open Verif.Cors.Spec

variable {E : Type}

theorem every_and (P Q R : Route E → Prop) (h : ∀ q, P q → Q q → R q) (t : Tree E) (h1 : Every P t) (h2 : Every Q t) :
    Every R t := by
  induction t with
  | none => trivial
  | route q rest ih => exact ⟨h q h1.1 h2.1, ih h1.2 h2.2⟩
  | incl c own sub rest ih1 ih2 => exact ⟨ih1 h1.1 h2.1, ih2 h1.2 h2.2⟩

/-- **C150** (the application, preflight requests).  With the middleware on the application a preflight request succeeds
exactly if the configuration allows the wanted request, whatever routes there are. -/
theorem C150_app_preflight (a : App E) (c : Config) (hc : a.cors = some c) (w : Wanted) (ht : Tokens c w)
    (hs : List (Str × Str)) (h : Sent (a.answer (preflightRequest w)) hs) :
    PreflightOk (a.answer (preflightRequest w)).status hs w ↔ Configured c w := by
  have : a.answer (preflightRequest w) = Cors.serve c (preflightRequest w) ⟨0, [], []⟩ := by
    unfold App.answer stack
    rw [hc, around_asks c _ (preflight_asks w)]
    rfl
  rw [this] at h ⊢
  exact serve_lets c w _ ht hs h

/-- **C150** (part that holds; the application, answers).  Full statement: a page can read every answer, errors
included, if its origin is allowed.  With the middleware on the application this holds of all answers of handlers and
all answers
of exception handlers, of 404 and of 405.  Missing: exceptions without a handler (`C150_error_false`). -/
theorem C150_app_reads_partial (a : App E) (c : Config) (hc : a.cors = some c) (hu : Calm a.rules) (r : Request)
    (o : Str) (hr : Made r o) (hn : NoCors a.tree) (hq : Every (Quiet r) a.tree) (h1 : Every (Answered a.rules r)
        a.tree)
    (h2 : Every (Safe a.rules r) a.tree) (cred : Bool) (hk : Cookied c r cred) (hs : List (Str × Str))
    (h : Sent (a.answer r) hs) :
    CorsCheck hs o cred ↔ OriginAllowed c o ∧ (cred = true → c.credentials = true) := by
  have hf := search_fine a.rules hu r (fun e => ∃ x, a.rules.handlers e = some x) a.tree hn hq h1
    (every_and _ _ _ (fun q (g : Safe a.rules r q) (_ : Safe a.rules r q) e he _ => g e he) a.tree h2 h2)
  obtain ⟨y, hy, hfy, hp⟩ := conclude_fine a.rules _ hu.missing hu.method _ hf
  have : ∃ x, Bare x ∧ a.answer r = Cors.serve c r x := by
    cases y with
    | passed qs => exact absurd rfl (hp qs)
    | answered x =>
      refine ⟨x, hfy, ?_⟩
      unfold App.answer stack
      simp only [hy, excepting, hc]
      rw [around_answered c r (made_asks r o hr)]
      rfl
    | raised e =>
      obtain ⟨x, hx⟩ := hfy
      refine ⟨x, hu.handled e x hx, ?_⟩
      unfold App.answer stack
      simp only [hy, excepting, hc, hx]
      rw [around_answered c r (made_asks r o hr)]
      rfl
  obtain ⟨x, hx, he⟩ := this
  rw [he] at h
  exact serve_reads c r x o cred hr hx hk hs h

/-- **C150** fails for exceptions without a handler: no page of another origin can read the answer, wherever the
middleware was declared. -/
theorem C150_error_false (a : App E) (hu : Calm a.rules) (r : Request) (o : Str) (hr : Made r o) (q : Route E)
    (rest : Tree E) (ht : a.tree = .route q rest) (hm : q.methods = [] ∨ r.method ∈ q.methods) (hd : Admits r q) (e : E)
    (he : q.handler r = .error e) (hx : a.rules.handlers e = none) (cred : Bool) (hs : List (Str × Str))
    (h : Sent (a.answer r) hs) : ¬ CorsCheck hs o cred := by
  have hk := made_asks r o hr
  have h1 : search a.rules r a.tree = .raised e := by
    rw [ht]
    simp only [search]
    rw [if_neg (by rw [other_false q r hm]; decide)]
    unfold Route.call
    rw [hd, he]
    simp only [hx]
    exact around_raised _ r hk e
  have : a.answer r = a.rules.failure e := by
    unfold App.answer stack
    simp only [h1, conclude, excepting, hx]
    rw [around_raised _ r hk]
    rfl
  rw [this] at h
  exact bare_check _ (hu.failed e) hs h o cred

/-- **C150** (an include, preflight requests).  The preflight requests for every path below the include are answered
with its configuration, even for paths that are in a later include or not there at all. -/
theorem C150_include_preflight (a : App E) (ha : a.cors = none) (c : Config) (own : Bool) (sub rest : Tree E)
    (ht : a.tree = .incl (some c) own sub rest) (w : Wanted) (hw : Tokens c w) (hs : List (Str × Str))
    (h : Sent (a.answer (preflightRequest w)) hs) :
    PreflightOk (a.answer (preflightRequest w)).status hs w ↔ Configured c w := by
  have : a.answer (preflightRequest w) = Cors.serve c (preflightRequest w) ⟨0, [], []⟩ := by
    unfold App.answer stack
    rw [ht, ha]
    simp only [search]
    rw [around_asks c _ (preflight_asks w)]
    rfl
  rw [this] at h ⊢
  exact serve_lets c w _ hw hs h

/-- **C150** fails for includes that overlap: the preflight requests for the paths of the second one are answered with
the configuration of the first, although the requests themselves go on to the second. -/
theorem C150_overlap_false (a : App E) (ha : a.cors = none) (c d : Config) (sub other rest : Tree E) (q : Route E)
    (ht : a.tree = .incl (some c) false sub (.incl (some d) false (.route q other) rest)) (hn : NoCors sub) (w : Wanted)
    (hw : Tokens c w) (r : Request) (hr : Made r w.origin) (hm : ¬ Takes r.method sub)
    (hq : r.method ∈ q.methods) (hd : Admits r q) (x : Resp) (hx : q.handler r = .ok x) (hc : q.cors = none)
    (hno : ¬ Configured c w) (hs : List (Str × Str)) (h : Sent (a.answer (preflightRequest w)) hs) :
    ¬ PreflightOk (a.answer (preflightRequest w)).status hs w ∧ a.answer r = Cors.serve d r x := by
  refine ⟨fun hp => hno ((C150_include_preflight a ha c false sub _ ht w hw hs h).1 hp), ?_⟩
  have hk := made_asks r _ hr
  obtain ⟨qs, h1⟩ := search_not a.rules r sub hm hn
  have h2 : q.call a.rules r = .answered x := by
    unfold Route.call
    rw [hd, hx, hc]
    rfl
  unfold App.answer stack
  simp only [ht, ha, search, Bool.false_eq_true, if_false, h1]
  rw [around_passed _ r hk, if_neg (by rw [other_false q r (.inr hq)]; decide), h2, around_answered d r hk]
  rfl

/-- **C150** (part that holds; an include, answers).  If a path in the include takes the request and its permissions let
it pass, the page can read the answer exactly if the configuration allows it.  Missing: what the router answers, what
permissions answer and errors (`C150_missing_false`, `C150_denied_false`, `C150_error_false`). -/
theorem C150_include_reads_partial (a : App E) (ha : a.cors = none) (hu : Calm a.rules) (c : Config)
    (sub rest : Tree E) (ht : a.tree = .incl (some c) false sub rest) (r : Request) (o : Str) (hr : Made r o)
    (hn : NoCors sub) (hq : Every (Quiet r) sub) (h1 : Every (Admits r) sub) (h2 : Every (Safe a.rules r) sub)
    (hm : Takes r.method sub) (cred : Bool) (hk : Cookied c r cred) (hs : List (Str × Str))
    (h : Sent (a.answer r) hs) :
    CorsCheck hs o cred ↔ OriginAllowed c o ∧ (cred = true → c.credentials = true) := by
  have hf := search_fine a.rules hu r (fun _ => False) sub hn hq
    (every_and _ _ _ (fun q (g : Admits r q) (_ : Admits r q) e he => by rw [g] at he; cases he) sub h1 h1)
    (every_and _ _ _ (fun q (g : Safe a.rules r q) (_ : Safe a.rules r q) e he hx => by
      obtain ⟨x, hx'⟩ := g e he
      rw [hx] at hx'
      cases hx') sub h2 h2)
  have hp := search_takes a.rules r sub hm hn (every_and _ _ _ (fun q (g : Quiet r q) (_ : Quiet r q) => g.1) sub hq hq)
  cases hx : search a.rules r sub with
  | raised e => rw [hx] at hf; exact hf.elim
  | passed qs => exact absurd hx (hp qs)
  | answered x =>
    rw [hx] at hf
    have : a.answer r = Cors.serve c r x := by
      unfold App.answer stack
      simp only [ht, ha, search, hx, Bool.false_eq_true, if_false]
      rw [around_answered c r (made_asks r o hr)]
      rfl
    rw [this] at h
    exact serve_reads c r x o cred hr hf hk hs h

/-- **C150** (an include with its own application).  If the include has an application of its own, all answers can be
read, also those to exceptions without a handler. -/
theorem C150_own_reads (a : App E) (ha : a.cors = none) (hu : Calm a.rules) (c : Config)
    (sub rest : Tree E) (ht : a.tree = .incl (some c) true sub rest) (r : Request) (o : Str) (hr : Made r o)
    (hn : NoCors sub) (hq : Every (Quiet r) sub) (cred : Bool) (hk : Cookied c r cred) (hs : List (Str × Str))
    (h : Sent (a.answer r) hs) :
    CorsCheck hs o cred ↔ OriginAllowed c o ∧ (cred = true → c.credentials = true) := by
  have triv : ∀ t : Tree E, Every (Quiet r) t → Every (fun _ => True) t :=
    fun t h => every_and _ _ _ (fun _ (_ : Quiet r _) (_ : Quiet r _) => trivial) t h h
  have hf := search_fine a.rules hu r (fun _ => True) sub hn hq
    (every_and _ _ _ (fun q (_ : True) (_ : True) _ _ => trivial) sub (triv sub hq) (triv sub hq))
    (every_and _ _ _ (fun q (_ : True) (_ : True) _ _ _ => trivial) sub (triv sub hq) (triv sub hq))
  obtain ⟨x, hx, hb⟩ := stack_fine a.rules hu r _ hf
  have : a.answer r = Cors.serve c r x := by
    unfold App.answer
    rw [ht, ha]
    simp only [search, if_true, hx]
    rw [around_answered c r (made_asks r o hr)]
    rfl
  rw [this] at h
  exact serve_reads c r x o cred hr hb hk hs h

/-- **C150** fails for what the router answers below an include: a request for a path or method that is not there is
answered outside the middleware of the include, and no page can read that it was 404 or 405. -/
theorem C150_missing_false (a : App E) (ha : a.cors = none) (hu : Calm a.rules) (c : Config) (sub : Tree E)
    (ht : a.tree = .incl (some c) false sub .none) (r : Request) (o : Str) (hr : Made r o) (hn : NoCors sub)
    (hm : ¬ Takes r.method sub) (cred : Bool) (hs : List (Str × Str)) (h : Sent (a.answer r) hs) :
    ¬ CorsCheck hs o cred := by
  obtain ⟨qs, hq⟩ := search_not a.rules r sub hm hn
  have h1 : search a.rules r a.tree = .passed qs := by
    rw [ht]
    simp only [search, Bool.false_eq_true, if_false, hq]
    rw [around_passed _ r (made_asks r o hr)]
    simp only [List.append_nil]
  obtain ⟨x, hx, hb⟩ := passed_bare a.rules hu qs
  have : a.answer r = x := by
    unfold App.answer stack
    rw [h1, ha, hx]
    rfl
  rw [this] at h
  exact bare_check x hb hs h o cred

/-- **C150** fails for what permissions answer: their exceptions pass the middlewares of paths and includes. -/
theorem C150_denied_false (a : App E) (ha : a.cors = none) (hu : Calm a.rules) (c : Config) (q : Route E)
    (more rest : Tree E) (ht : a.tree = .incl (some c) false (.route q more) rest) (r : Request) (o : Str)
    (hr : Made r o) (hm : q.methods = [] ∨ r.method ∈ q.methods) (e : E) (hd : q.denied r = some e)
    (cred : Bool) (hs : List (Str × Str)) (h : Sent (a.answer r) hs) : ¬ CorsCheck hs o cred := by
  have hk := made_asks r o hr
  have h1 : search a.rules r a.tree = .raised e := by
    rw [ht]
    simp only [search, Bool.false_eq_true, if_false]
    rw [if_neg (by rw [other_false q r hm]; decide)]
    unfold Route.call
    rw [hd]
    simp only
    rw [around_raised _ r hk, around_raised _ r hk]
  cases hx : a.rules.handlers e with
  | some x =>
    have : a.answer r = x := by
      unfold App.answer stack
      simp only [h1, conclude, excepting, hx, ha, around, guarding]
    rw [this] at h
    exact bare_check x (hu.handled e x hx) hs h o cred
  | none =>
    have : a.answer r = a.rules.failure e := by
      unfold App.answer stack
      simp only [h1, conclude, excepting, hx, ha, around, guarding]
    rw [this] at h
    exact bare_check _ (hu.failed e) hs h o cred

/-- **C150** (part that holds; a path, answers).  With the middleware on a path the page can read the answers of its
handler exactly if the configuration allows it. -/
theorem C150_path_reads_partial (a : App E) (ha : a.cors = none) (hu : Calm a.rules) (c : Config) (q : Route E)
    (rest : Tree E) (ht : a.tree = .route q rest) (hc : q.cors = some c) (r : Request) (o : Str) (hr : Made r o)
    (hm : q.methods = [] ∨ r.method ∈ q.methods) (hb : ∀ x, q.handler r = .ok x → Bare x) (h1 : Admits r q)
    (h2 : Safe a.rules r q) (cred : Bool) (hk : Cookied c r cred) (hs : List (Str × Str)) (h : Sent (a.answer r) hs) :
    CorsCheck hs o cred ↔ OriginAllowed c o ∧ (cred = true → c.credentials = true) := by
  have hka := made_asks r o hr
  have : ∃ x, Bare x ∧ a.answer r = Cors.serve c r x := by
    unfold App.answer stack
    simp only [ht, ha, search]
    rw [if_neg (by rw [other_false q r hm]; decide)]
    unfold Route.call
    rw [h1, hc]
    cases hh : q.handler r with
    | ok x =>
      refine ⟨x, hb x hh, ?_⟩
      simp only
      rw [around_answered c r hka]
      rfl
    | error e =>
      obtain ⟨x, hx⟩ := h2 e hh
      refine ⟨x, hu.handled e x hx, ?_⟩
      simp only [hx]
      rw [around_answered c r hka]
      rfl
  obtain ⟨x, hx, he⟩ := this
  rw [he] at h
  exact serve_reads c r x o cred hr hx hk hs h

/-- **C150** (part that holds; a path, preflight requests).  They succeed exactly as configured if the first path takes
`OPTIONS`, as one without methods does.  Missing: all other paths (`C150_path_false`). -/
theorem C150_path_preflight_partial (a : App E) (ha : a.cors = none) (c : Config) (q : Route E)
    (rest : Tree E) (ht : a.tree = .route q rest) (hc : q.cors = some c)
    (hm : q.methods = [] ∨ "OPTIONS".toList ∈ q.methods) (w : Wanted) (hw : Tokens c w) (hs : List (Str × Str))
    (h : Sent (a.answer (preflightRequest w)) hs) :
    PreflightOk (a.answer (preflightRequest w)).status hs w ↔ Configured c w := by
  have : a.answer (preflightRequest w) = Cors.serve c (preflightRequest w) ⟨0, [], []⟩ := by
    unfold App.answer stack
    simp only [ht, ha, search]
    rw [if_neg (by rw [other_false q (preflightRequest w) hm]; decide)]
    unfold Route.call
    rw [hc, around_asks c _ (preflight_asks w)]
    rfl
  rw [this] at h ⊢
  exact serve_lets c w _ hw hs h

/-- **C150** fails for the preflight requests to paths with the middleware that do not take `OPTIONS`, as handlers for
`GET` or `POST` do not: the router answers 405 before the middleware is reached, and the browser never makes the
request, however the middlewares of the paths are configured. -/
theorem C150_path_false (a : App E) (ha : a.cors = none) (hu : Calm a.rules) (hn : NoCors a.tree)
    (hm : ¬ Takes "OPTIONS".toList a.tree) (w : Wanted) (hs : List (Str × Str))
    (h : Sent (a.answer (preflightRequest w)) hs) :
    ¬ PreflightOk (a.answer (preflightRequest w)).status hs w := by
  obtain ⟨qs, hq⟩ := search_not a.rules (preflightRequest w) a.tree hm hn
  obtain ⟨x, hx, hb⟩ := passed_bare a.rules hu qs
  have : a.answer (preflightRequest w) = x := by
    unfold App.answer stack
    rw [hq, ha, hx]
    rfl
  rw [this] at h ⊢
  rintro ⟨-, -, hc, -⟩
  exact bare_check x hb hs h _ _ hc

/-- **C150** is false of middlewares in middlewares: the page can read the answer if either of them allows its origin,
and with credentials if either of them, perhaps the other one, allows credentials. -/
theorem C150_nested_false (a : App E) (c d : Config) (hc : a.cors = some c) (own : Bool) (sub rest : Tree E)
    (ht : a.tree = .incl (some d) own sub rest) (r : Request) (o : Str) (hr : Made r o)
    (x : Resp) (hx : Bare x) (hx' : (if own then stack a.rules none r (search a.rules r sub) else search a.rules r sub)
      = .answered x) (h1 : "*".toList ∉ c.origins) (h2 : "*".toList ∉ d.origins) (cred : Bool)
    (hs : List (Str × Str)) (h : Sent (a.answer r) hs) :
    CorsCheck hs o cred ↔
      (OriginAllowed c o ∨ OriginAllowed d o) ∧ (cred = true → c.credentials = true ∨ d.credentials = true) := by
  have hk := made_asks r o hr
  have : a.answer r = Cors.serve c r (Cors.serve d r x) := by
    unfold App.answer stack
    simp only [ht, hc, search, hx']
    rw [around_answered d r hk]
    simp only [conclude, excepting]
    rw [around_answered c r hk]
    rfl
  rw [this, Cors.served_ordinary c r _ o hr, Cors.served_ordinary d r _ o hr] at h
  obtain ⟨ks, hks, rfl⟩ := h
  dsimp only at hks ⊢
  generalize (get lower r.headers "cookie".toList).isSome = b at hks ⊢
  have hac : c.allOrigins = false := by unfold Config.allOrigins; exact decide_eq_false h1
  have had : d.allOrigins = false := by unfold Config.allOrigins; exact decide_eq_false h2
  have hcred : field (multiItems lower ks (Cors.sendHeaders c o b (Cors.sendHeaders d o b x.headers)))
      "Access-Control-Allow-Credentials".toList
        = if c.credentials = true ∨ d.credentials = true then some "true".toList else none := by
    apply Cors.field_opt _ _ hks
    rw [Cors.sendHeaders_other _ _ _ _ _ (by decide) (by decide), Cors.sh_credentials,
      Cors.sendHeaders_other _ _ _ _ _ (by decide) (by decide), Cors.sh_credentials, hx.2]
    cases c.credentials <;> cases d.credentials <;> rfl
  have horig : field (multiItems lower ks (Cors.sendHeaders c o b (Cors.sendHeaders d o b x.headers)))
      "Access-Control-Allow-Origin".toList
        = if Cors.validateOrigin c o = true ∨ Cors.validateOrigin d o = true then some o else none := by
    apply Cors.field_opt _ _ hks
    rw [show "Access-Control-Allow-Origin".toList = Cors.acao from rfl, send_listed _ _ _ _ hac,
      send_listed _ _ _ _ had, show getall lower x.headers Cors.acao = [] from hx.1]
    cases Cors.validateOrigin c o <;> cases Cors.validateOrigin d o <;> rfl
  rw [← Cors.validateOrigin_iff, ← Cors.validateOrigin_iff]
  unfold CorsCheck
  rw [horig, hcred]
  by_cases hv : Cors.validateOrigin c o = true ∨ Cors.validateOrigin d o = true
  · rw [if_pos hv]
    constructor
    · rintro (⟨h, _⟩ | ⟨_, h⟩)
      · exact ⟨hv, fun e => by rw [h] at e; cases e⟩
      · refine ⟨hv, fun e => ?_⟩
        have := h e
        by_cases hcc : c.credentials = true ∨ d.credentials = true
        · exact hcc
        · rw [if_neg hcc] at this; cases this
    · rintro ⟨_, h⟩
      refine .inr ⟨rfl, fun e => ?_⟩
      rw [if_pos (h e)]
  · rw [if_neg hv]
    constructor
    · rintro (⟨_, h⟩ | ⟨h, _⟩) <;> cases h
    · rintro ⟨h, _⟩; exact absurd h hv

/-! ## Examples -/

/-- Exceptions of the examples: `0` has no handler, the others have. -/
def rules : Rules Nat :=
  ⟨fun e => if e = 0 then none else some ⟨e, [("content-type".toList, "text/plain".toList)], []⟩,
    fun _ => ⟨500, [], "Internal Server Error".toList⟩, 404, fun _ => 405⟩

theorem rules_calm : Calm rules where
  handled := by
    intro e a h
    unfold rules at h
    simp only at h
    by_cases he : e = 0
    · rw [if_pos he] at h; cases h
    · rw [if_neg he] at h
      rw [← Option.some.inj h]
      exact ⟨show getall lower [("content-type".toList, "text/plain".toList)] _ = [] by decide,
        show getall lower [("content-type".toList, "text/plain".toList)] _ = [] by decide⟩
  failed := fun _ => ⟨rfl, rfl⟩
  missing := ⟨_, rfl⟩
  method := fun _ => ⟨_, rfl⟩

/-- A configuration for one origin. -/
def only (origin : Str) (credentials : Bool) : Config :=
  ⟨[origin], ["POST".toList], ["x-token".toList], credentials, none, false, [], 600⟩

/-- A path of the examples. -/
def path (methods : List Str) (c : Option Config) (denied : Option Nat) (x : Except Nat Resp) : Route Nat :=
  ⟨methods, c, fun _ => denied, fun _ => x⟩

/-- The request of a page. -/
def asked (method origin : Str) : Request := ⟨method, [("origin".toList, origin), ("cookie".toList, "k=v".toList)]⟩

/-- A request that a page wants to make. -/
def wish : Wanted := ⟨"https://a".toList, "POST".toList, ["x-token".toList], true, false⟩

/-- The answer of a handler. -/
def hello : Resp := ⟨200, [("x".toList, "y".toList)], "hello".toList⟩

example : Made (asked "POST".toList "https://a".toList) "https://a".toList ∧ Bare hello
    ∧ Tokens (only "https://a".toList true) wish ∧ Configured (only "https://a".toList true) wish := by
  refine ⟨?_, ?_, ⟨?_, ?_, ?_⟩, ⟨?_, ?_, ?_, ?_, ?_⟩⟩
  · refine ⟨?_, ?_, ?_⟩ <;> decide +kernel
  · constructor <;> decide +kernel
  · intro m hm; rw [List.mem_singleton.1 hm]; exact ⟨by decide, by decide⟩
  · intro m hm; rw [List.mem_singleton.1 hm]; exact ⟨by decide, by decide⟩
  · intro m hm; rw [List.mem_singleton.1 hm]; exact ⟨by decide, by decide⟩
  · exact .inr (.inr (by decide))
  · unfold MethodAllowed; decide
  · intro m hm; rw [List.mem_singleton.1 hm]; exact .inr (.inr ⟨_, List.mem_singleton.2 rfl, by decide⟩)
  · exact fun _ => rfl
  · exact fun h => by cases h

/-- The middleware on the application: answers, 404 and 405 have the header, errors do not. -/
example :
    let app (t : Tree Nat) : App Nat := ⟨rules, some (only "https://a".toList true), t⟩
    let shown (t : Tree Nat) : Nat × Option Str :=
      (((app t).answer (asked "POST".toList "https://a".toList)).status,
        field ((app t).answer (asked "POST".toList "https://a".toList)).headers "Access-Control-Allow-Origin".toList)
    shown (.route (path ["POST".toList] none none (.ok hello)) .none) = (200, some "https://a".toList)
    ∧ shown .none = (404, some "https://a".toList)
    ∧ shown (.route (path ["GET".toList] none none (.ok hello)) .none) = (405, some "https://a".toList)
    ∧ shown (.route (path [] none (some 403) (.ok hello)) .none) = (403, some "https://a".toList)
    ∧ shown (.route (path [] none none (.error 409)) .none) = (409, some "https://a".toList)
    ∧ shown (.route (path [] none none (.error 0)) .none) = (500, none) := by
  decide +kernel

/-- The middleware on an include of routes: only what handlers answer has the header; on an include of an application
everything has. -/
example :
    let app (own : Bool) (t : Tree Nat) : App Nat :=
      ⟨rules, none, .incl (some (only "https://a".toList true)) own t .none⟩
    let shown (own : Bool) (t : Tree Nat) : Nat × Option Str :=
      (((app own t).answer (asked "POST".toList "https://a".toList)).status,
        field ((app own t).answer (asked "POST".toList "https://a".toList)).headers
          "Access-Control-Allow-Origin".toList)
    shown false (.route (path ["POST".toList] none none (.ok hello)) .none) = (200, some "https://a".toList)
    ∧ shown false .none = (404, none)
    ∧ shown false (.route (path ["GET".toList] none none (.ok hello)) .none) = (405, none)
    ∧ shown false (.route (path [] none (some 403) (.ok hello)) .none) = (403, none)
    ∧ shown false (.route (path [] none none (.error 409)) .none) = (409, some "https://a".toList)
    ∧ shown true .none = (404, some "https://a".toList)
    ∧ shown true (.route (path ["GET".toList] none none (.ok hello)) .none) = (405, some "https://a".toList)
    ∧ shown true (.route (path [] none none (.error 0)) .none) = (500, some "https://a".toList) := by
  decide +kernel

/-- The middleware on a path: the preflight request for the very method of the path is answered 405. -/
example :
    let app (ms : List Str) : App Nat :=
      ⟨rules, none, .route (path ms (some (only "https://a".toList true)) none (.ok hello)) .none⟩
    ((app ["POST".toList]).answer (preflightRequest wish)).status = 405
    ∧ ((app ["POST".toList, "OPTIONS".toList]).answer (preflightRequest wish)).status = 200
    ∧ ¬ Takes "OPTIONS".toList (app ["POST".toList]).tree := by
  refine ⟨by decide +kernel, by decide +kernel, ?_⟩
  intro h
  rcases h with (h | h) | h
  · cases h
  · exact absurd h (by decide)
  · exact h

/-- **C150** is false of credentials with two middlewares: the application allows `https://a` without credentials, an
include allows `https://b` with them.  Neither allows `https://a` with credentials, and its pages can read the answers
to requests with cookies. -/
theorem C150_mixed_false :
    ∃ (a : App Nat) (c d : Config) (sub : Tree Nat) (r : Request) (o : Str),
      a.cors = some c ∧ a.tree = .incl (some d) false sub .none ∧ Made r o
      ∧ ¬ (OriginAllowed c o ∧ c.credentials = true) ∧ ¬ (OriginAllowed d o ∧ d.credentials = true)
      ∧ CorsCheck (a.answer r).headers o true := by
  refine ⟨⟨rules, some (only "https://a".toList false),
      .incl (some (only "https://b".toList true)) false (.route (path [] none none (.ok hello)) .none) .none⟩,
    only "https://a".toList false, only "https://b".toList true, .route (path [] none none (.ok hello)) .none,
    asked "POST".toList "https://a".toList, "https://a".toList, rfl, rfl, ⟨?_, ?_, ?_⟩, ?_, ?_, .inr ⟨?_, fun _ => ?_⟩⟩
  · decide +kernel
  · decide +kernel
  · decide +kernel
  · rintro ⟨-, h⟩; cases h
  · rintro ⟨h | ⟨x, h, -⟩ | h, -⟩
    · exact absurd h (by decide)
    · cases h
    · exact absurd h (by decide)
  · decide +kernel
  · decide +kernel

end Verif.CorsPlaces.Props
