import Verif.Auth.Lemmas

/-!
# C46: authentication takes the first backend with an answer

Full statement: the authenticated user is the result of the first backend that returns one; later backends are not
consulted, an authentication error stops the request before the application runs, and with no answer the user is
anonymous.

# C49: a handler guarded by `requires` runs only with the required scopes

Full statement: a function decorated with `requires` is called by the framework only when the credentials of the
connection contain every required scope.
-/

namespace Verif.Auth

open Verif Spec

/-- The first backend with an answer decides; exactly the backends up to it are consulted. -/
theorem C46_first_answer {C : Type} (bs : List (C → Answer)) (c : C) (b : C → Answer) (n : Nat)
    (h : FirstAnswer bs c b n) : authenticate bs c = (b c, n + 1) := by
  obtain ⟨before, after, e, h1, h2, h3⟩ := h
  subst e; subst h3
  exact authenticate_first before b after c h1 h2

example : FirstAnswer [fun _ : Unit => .none, fun _ => .identity ⟨["a".toList], some "bob".toList⟩,
    fun _ => .error []] () (fun _ => .identity ⟨["a".toList], some "bob".toList⟩) 1 :=
  ⟨[fun _ => .none], [fun _ => .error []], rfl, by simp, by unfold Answers; simp, rfl⟩

/-- With no answer all were consulted and the user is anonymous, without scopes. -/
theorem C46_anonymous {C : Type} (bs : List (C → Answer)) (c : C) (k : Kind) (hk : k ≠ .lifespan)
    (h : ∀ b ∈ bs, b c = .none) :
    authenticate bs c = (.none, bs.length) ∧ middleware bs k c = .app ⟨[], none⟩ := by
  have e := authenticate_none bs c h
  refine ⟨e, ?_⟩
  cases k with
  | lifespan => exact absurd rfl hk
  | http => show settle _ (authenticate bs c).1 = _; rw [e]; rfl
  | websocket => show settle _ (authenticate bs c).1 = _; rw [e]; rfl

example : ∀ b ∈ ([fun _ => .none, fun _ => .none] : List (Unit → Answer)), b () = .none := by simp

/-- The application runs exactly when nobody answers or the first answer is an identity, and then with that
identity in its scope. -/
theorem C46_app_runs_iff {C : Type} (bs : List (C → Answer)) (c : C) (k : Kind) (hk : k ≠ .lifespan)
    (i : Identity) :
    middleware bs k c = .app i ↔
      ((∀ b ∈ bs, b c = .none) ∧ i = ⟨[], none⟩) ∨ ∃ b n, FirstAnswer bs c b n ∧ b c = .identity i := by
  have hm : middleware bs k c = settle k (authenticate bs c).1 := by
    cases k with
    | lifespan => exact absurd rfl hk
    | http => rfl
    | websocket => rfl
  rw [hm]
  constructor
  · intro h
    rcases first_or_none bs c with hn | ⟨b, n, hf⟩
    · rw [authenticate_none bs c hn] at h
      cases h
      exact .inl ⟨hn, rfl⟩
    · rw [C46_first_answer bs c b n hf] at h
      refine .inr ⟨b, n, hf, ?_⟩
      obtain ⟨_, _, _, _, ha, _⟩ := hf
      unfold Answers at ha
      revert h ha
      dsimp only
      generalize b c = a
      cases a with
      | none => intro _ ha; exact absurd rfl ha
      | identity j => intro h _; cases h; rfl
      | error t => intro h _; cases k <;> cases h
      | other n => intro h _; cases h
  · rintro (⟨hn, rfl⟩ | ⟨b, n, hf, hb⟩)
    · rw [authenticate_none bs c hn]; rfl
    · rw [C46_first_answer bs c b n hf]
      show settle k (b c) = _
      rw [hb]; rfl

/-- An authentication error: the request is answered with the error response, a websocket is closed, and the
application is not called. -/
theorem C46_error_stops {C : Type} (bs : List (C → Answer)) (c : C) (b : C → Answer) (n : Nat) (text : Str)
    (h : FirstAnswer bs c b n) (hb : b c = .error text) :
    middleware bs .http c = .response text ∧ middleware bs .websocket c = .close 1000 := by
  have e := C46_first_answer bs c b n h
  constructor
  · show settle .http (authenticate bs c).1 = _; rw [e]; show settle .http (b c) = _; rw [hb]; rfl
  · show settle .websocket (authenticate bs c).1 = _; rw [e]; show settle .websocket (b c) = _; rw [hb]; rfl

/-- Any other exception of a backend goes on, and again the application is not called. -/
theorem C46_other_raises {C : Type} (bs : List (C → Answer)) (c : C) (b : C → Answer) (n m : Nat) (k : Kind)
    (hk : k ≠ .lifespan) (h : FirstAnswer bs c b n) (hb : b c = .other m) : middleware bs k c = .raised m := by
  have e := C46_first_answer bs c b n h
  cases k with
  | lifespan => exact absurd rfl hk
  | http => show settle .http (authenticate bs c).1 = _; rw [e]; show settle .http (b c) = _; rw [hb]; rfl
  | websocket => show settle .websocket (authenticate bs c).1 = _; rw [e]; show settle .websocket (b c) = _; rw [hb]; rfl

example : FirstAnswer [fun _ : Unit => .none, fun _ => .error "bad".toList] () (fun _ => .error "bad".toList) 1 :=
  ⟨[fun _ => .none], [], rfl, by simp, by unfold Answers; simp, rfl⟩

/-- A backend order matters only up to the first answer: what follows it changes nothing. -/
theorem C46_later_ignored {C : Type} (bs extra : List (C → Answer)) (c : C) (k : Kind) (b : C → Answer) (n : Nat)
    (h : FirstAnswer bs c b n) : middleware (bs ++ extra) k c = middleware bs k c := by
  have h' : FirstAnswer (bs ++ extra) c b n := by
    obtain ⟨before, after, e, h1, h2, h3⟩ := h
    exact ⟨before, after ++ extra, by rw [e, List.append_assoc]; rfl, h1, h2, h3⟩
  have e := C46_first_answer bs c b n h
  have e' := C46_first_answer (bs ++ extra) c b n h'
  cases k with
  | lifespan => rfl
  | http => show settle .http (authenticate _ c).1 = settle .http (authenticate _ c).1; rw [e, e']
  | websocket => show settle .websocket (authenticate _ c).1 = settle .websocket (authenticate _ c).1; rw [e, e']

/-- **HTTP handlers** (the part of C49 that holds): a guarded HTTP handler whose first connection parameter is
`request` runs exactly when the request has all required scopes.  Missing for the full statement: websocket
handlers, and handlers whose connection parameter has another name. -/
theorem C49_http_partial (before after : List Str) (given : Option Str) (required : List Str) (c : Conn)
    (hc : c.kind = some true)
    (hb : ∀ x ∈ before, x ≠ "request".toList ∧ x ≠ "websocket".toList ∧ some x ≠ given) :
    guarded (before ++ "request".toList :: after) given required
        (httpKwargs (before ++ "request".toList :: after) c) = .runs ↔ Allowed c required := by
  unfold guarded
  rw [connectionParam_first before after _ given hb (.inl rfl)]
  have hk : httpKwargs (before ++ "request".toList :: after) c = [("request".toList, c)] := by
    unfold httpKwargs
    rw [if_pos]
    rw [List.contains_iff_mem]
    exact List.mem_append.2 (.inr (List.mem_cons_self ..))
  rw [hk]
  have ha : (some "request".toList).bind (fun n => aget [("request".toList, c)] n) = some c := rfl
  rw [ha]
  dsimp only
  have hr : c.isRequest = true := by unfold Conn.isRequest; rw [hc]; rfl
  rw [hr, Bool.true_or, if_pos rfl]
  exact checked_runs c required

example : ∀ x ∈ ["id".toList], x ≠ "request".toList ∧ x ≠ "websocket".toList ∧ some x ≠ none := by decide

/-- The same for a connection passed by keyword by any caller. -/
theorem C49_keyword (params : List Str) (given : Option Str) (required : List Str) (kwargs : List (Str × Conn))
    (n : Str) (c : Conn) (hn : connectionParam params given = some n) (hk : aget kwargs n = some c)
    (hc : c.kind ≠ none) :
    guarded params given required kwargs = .runs ↔ Allowed c required := by
  unfold guarded
  rw [hn]
  have : (some n).bind (fun n => aget kwargs n) = some c := hk
  rw [this]
  dsimp only
  have hb : (c.isRequest || c.isWebsocket) = true := by
    unfold Conn.isRequest Conn.isWebsocket
    rcases hk : c.kind with _ | b
    · exact absurd hk hc
    · cases b <;> rfl
  rw [hb, if_pos rfl]
  exact checked_runs c required

/-- An argument of that name that is neither a request nor a websocket is not checked. -/
theorem C49_not_a_connection (params : List Str) (given : Option Str) (required : List Str)
    (kwargs : List (Str × Conn)) (n : Str) (c : Conn) (hn : connectionParam params given = some n)
    (hk : aget kwargs n = some c) (hc : c.kind = none) : guarded params given required kwargs = .runs := by
  unfold guarded
  rw [hn]
  have : (some n).bind (fun n => aget kwargs n) = some c := hk
  rw [this]
  dsimp only
  have hb : (c.isRequest || c.isWebsocket) = false := by
    unfold Conn.isRequest Conn.isWebsocket
    rw [hc]
    rfl
  rw [hb]
  rfl

example : connectionParam ["request".toList] none = some "request".toList ∧
    aget [("request".toList, (⟨none, none⟩ : Conn))] "request".toList = some ⟨none, none⟩ := by decide

example : connectionParam ["id".toList, "websocket".toList] none = some "websocket".toList ∧
    aget [("websocket".toList, (⟨some false, some []⟩ : Conn))] "websocket".toList = some ⟨some false, some []⟩ := by
  decide

/-- **Websocket handlers are never guarded**: the framework passes the websocket by position, the decorator looks
for it among the keywords, and the handler runs whatever the credentials are. -/
theorem C49_websocket_false (params : List Str) (given : Option Str) (required : List Str) (c : Conn) :
    guarded params given required (websocketKwargs params c) = .runs := by
  unfold guarded websocketKwargs
  cases connectionParam params given <;> rfl

/-- So the property fails: a websocket handler requiring `admin` runs for an anonymous client. -/
theorem C49_false : ¬ ∀ (params : List Str) (given : Option Str) (required : List Str) (c : Conn),
    decorates params given = true → c.kind = some false →
    guarded params given required (websocketKwargs params c) = .runs → Allowed c required := by
  intro h
  have := h ["websocket".toList] none ["admin".toList] ⟨some false, some []⟩ rfl rfl rfl
  obtain ⟨s, e, hs⟩ := this
  cases e
  exact absurd (hs "admin".toList (List.mem_cons_self ..)) (by simp)

/-- An HTTP handler is not guarded either when the name of its connection parameter is given but the request is
passed under another one, or not at all. -/
theorem C49_name_false : decorates ["id".toList] (some "conn".toList) = true ∧
    guarded ["id".toList] (some "conn".toList) ["admin".toList] (httpKwargs ["id".toList] ⟨some true, some []⟩) =
      .runs ∧
    guarded ["websocket".toList, "request".toList] none ["admin".toList]
      (httpKwargs ["websocket".toList, "request".toList] ⟨some true, some []⟩) = .runs := by decide

end Verif.Auth
