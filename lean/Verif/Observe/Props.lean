import Verif.Observe.Lemmas

/-!
# Property C91: events reach their listeners

When an observable function returns, every function that is subscribed to one of its events is called once for it, with
the arguments of the call, before the result is given back; a function that raises sends nothing.
-/

namespace Verif.Observe

open Verif Verif.Observe.Spec

variable {V : Type}

/-- **C91**, who listens: after any decorations, the listeners of an event are the functions that were decorated with
it,
in order, each as often as its decorator names the event. -/
theorem C91_listeners (ds : List (List Str × Nat)) (e : Str) :
    (aget (ds.foldl (fun t d => decorate t d.1 d.2) []) e).getD [] =
      ds.flatMap fun d => List.replicate (d.1.count e) d.2 := by
  have one : ∀ (listen : List Str) (t : Table) (f : Nat), (aget (decorate t listen f) e).getD [] =
      (aget t e).getD [] ++ List.replicate (listen.count e) f := by
    intro listen
    induction listen with
    | nil => intro t f; simp [decorate]
    | cons x listen ih =>
      intro t f
      show (aget (decorate (subscribe t x f) listen f) e).getD [] = _
      rw [ih, aget_subscribe, List.count_cons]
      by_cases h : x = e
      · subst h
        simp [List.replicate_succ]
      · simp [h]
  have all : ∀ (ds : List (List Str × Nat)) (t : Table),
      (aget (ds.foldl (fun t d => decorate t d.1 d.2) t) e).getD [] =
        (aget t e).getD [] ++ ds.flatMap fun d => List.replicate (d.1.count e) d.2 := by
    intro ds
    induction ds with
    | nil => intro t; simp
    | cons d ds ih =>
      intro t
      rw [List.foldl_cons, ih, one, List.flatMap_cons, List.append_assoc]
  exact all ds []

/-- **C91**, delivery, without the keyword arguments: when a call has given back a value, its function returned that
value, and for each event of its `send` there was a moment such that every function subscribed at that moment was called
for it exactly once, with the positional arguments; and no one else was. -/
theorem C91_delivered_partial (sig : Nat → Sig) (calls : Nat → Call V) (h : List (Act V)) (i : Nat) (v : V)
    (es : List Emit) (hp : (run sig calls h).phase i = .done (.value v) es) :
    Act.ends i (.value v) ∈ h ∧ ∀ n e, (calls i).send[n]? = some e → ∃ pre post, h = pre ++ .emit i n :: post ∧
      ∀ m, delivered (run sig calls h).log i n m =
        ((subscribed e pre)[m]?.map fun f =>
          (⟨i, n, m, f, (calls i).args, reach (sig f) (calls i).kwargs⟩ : Delivery V)).toList := by
  have hc := (inv_run sig calls h).call i
  rw [hp] at hc
  obtain ⟨hl, hm, hs, hf⟩ := hc.value v es rfl
  refine ⟨hm, fun n e he => ?_⟩
  have hn : n < es.length := by rw [hl]; exact (List.getElem?_eq_some_iff.1 he).1
  have hx : es[n]? = some es[n] := List.getElem?_eq_getElem hn
  have hset := List.all_eq_true.1 hs es[n] (List.getElem_mem hn)
  generalize es[n] = x at hx hset
  cases x with
  | waiting => cases hset
  | dropped => exact absurd (hc.dropped n hx) hf
  | group ls b =>
    obtain ⟨pre, post, e', h1, h2, h3, h4⟩ := hc.origin n ls b hx
    rw [he] at h2
    cases h2
    have hb : b = false := by
      cases b with
      | false => rfl
      | true => exact absurd (Or.inl ⟨n, ls, hx⟩) hf
    rw [hb] at h4
    have hall : (subscribed e pre).all (fun f => (keywords (sig f) (calls i).kwargs).isSome) = true := by
      simpa using h4.symm
    rw [takeWhile_all _ _ hall] at h3
    refine ⟨pre, post, h1, fun m => ?_⟩
    rw [hc.logged n m, ← h3, List.getElem?_map]
    have hat : at? es n m = ls[m]? := by unfold at?; rw [hx]
    show expected _ _ _ _ _ (at? es n m) = _
    rw [hat]
    cases hlm : ls[m]? with
    | none => rfl
    | some ft =>
      obtain ⟨f, t⟩ := ft
      rw [hlm] at hat
      have hst := List.all_eq_true.1 hset (f, t) (List.mem_of_getElem? hlm)
      have hok : (keywords (sig f) (calls i).kwargs).isSome = true := by
        apply List.all_eq_true.1 hall
        rw [← h3]
        exact List.mem_map.2 ⟨(f, t), List.mem_of_getElem? hlm, rfl⟩
      have hr := keywords_reach (sig f) (calls i).kwargs hok
      cases t with
      | waiting => cases hst
      | started => cases hst
      | failed => exact absurd (Or.inr ⟨n, m, f, hat⟩) hf
      | cut b => exact absurd (hc.cut n m f b hat) hf
      | returned => simp [expected, Task.began, hr]

/-- **C91**, nothing is delivered twice or to anyone else, at any time and however calls end: what was delivered for an
event to a place is one call of the function that had this place when the event was sent, and the function of the call
had returned. -/
theorem C91_once (sig : Nat → Sig) (calls : Nat → Call V) (h : List (Act V)) (i n m : Nat) (d : Delivery V)
    (hd : d ∈ delivered (run sig calls h).log i n m) :
    delivered (run sig calls h).log i n m = [d] ∧ (∃ v, Act.ends i (.value v) ∈ h) ∧
      ∃ pre post e f, h = pre ++ .emit i n :: post ∧ (calls i).send[n]? = some e ∧ (subscribed e pre)[m]? = some f ∧
        d = ⟨i, n, m, f, (calls i).args, reach (sig f) (calls i).kwargs⟩ := by
  have hc := (inv_run sig calls h).call i
  have hlog := hc.logged n m
  rw [hlog] at hd ⊢
  cases hat : at? ((run sig calls h).phase i).emits n m with
  | none => rw [hat] at hd; cases hd
  | some ft =>
    obtain ⟨f, t⟩ := ft
    rw [hat] at hd
    unfold expected at hd ⊢
    simp only at hd ⊢
    split at hd
    · rename_i hb
      rw [if_pos hb]
      rw [List.mem_singleton] at hd
      have hat' := hat
      unfold at? at hat'
      split at hat'
      · rename_i ls b hx
        obtain ⟨pre, post, e, h1, h2, h3, _⟩ := hc.origin n ls b hx
        have hg : (ls.map (·.1))[m]? = some f := by rw [List.getElem?_map, hat']; rfl
        rw [h3] at hg
        obtain ⟨g1, g2⟩ := takeWhile_get _ _ _ _ hg
        refine ⟨by rw [hd], ?_, pre, post, e, f, h1, h2, g1, ?_⟩
        · apply returned_foldl sig calls h [] start (fun i hi => absurd rfl hi) i
          intro h0
          change ((run sig calls h).phase i).emits = [] at h0
          rw [h0] at hx
          cases hx
        · rw [hd, keywords_reach _ _ g2]
      · cases hat'
    · cases hd

/-- **C91**, the function itself is called at most once for a call, and it was called, with the arguments, when the call
gave back a value. -/
theorem C91_ran (sig : Nat → Sig) (calls : Nat → Call V) (h : List (Act V)) (i : Nat) :
    ((run sig calls h).ran.filter fun r => r.1 = i).length ≤ 1 ∧
    ∀ v es, (run sig calls h).phase i = .done (.value v) es → ∃ kw, ((run sig calls h).ran.filter fun r => r.1 = i) =
      [(i, (calls i).args, kw)] ∧ ((sig (calls i).fn).isAsync = true → kw = (calls i).kwargs) := by
  have hc := (inv_run sig calls h).call i
  cases ho : own (sig (calls i).fn) (calls i).kwargs with
  | none =>
    refine ⟨by rw [(hc.refused ho).1]; simp, fun v es hp => ?_⟩
    rcases (hc.refused ho).2 with x | x <;> (rw [hp] at x; cases x)
  | some kw =>
    refine ⟨?_, fun v es hp => ⟨kw, ?_, ?_⟩⟩
    · rw [hc.started kw ho]
      split <;> simp
    · have := hc.started kw ho
      rw [hp] at this
      exact this
    · intro ha
      unfold own at ho
      rw [if_pos ha] at ho
      exact (Option.some.inj ho).symm

/-! ## The hypotheses can be met -/

/-- Functions: 0 and 1 are coroutine functions, 1 accepts any keyword arguments; 2 and 3 are synchronous, 3 accepts any
keyword arguments. -/
def exSig (f : Nat) : Sig := ⟨f < 2, f % 2 = 1⟩

/-- Pay 5 euros: the coroutine function 0, which sends two events. -/
def exCalls (_ : Nat) : Call Nat := ⟨0, ["paid".toList, "seen".toList], [5], []⟩

/-- Two listeners of `paid`, one of them also of `seen`; a third subscribes to `seen` too late. -/
def exHistory : List (Act Nat) :=
  [.subscribe "paid".toList 1, .subscribe "paid".toList 2, .begin 0, .subscribe "seen".toList 1, .ends 0 (.value 7),
    .emit 0 1, .subscribe "seen".toList 3, .emit 0 0, .start 0 0 1, .start 0 1 0, .start 0 0 0, .stop 0 0 0 true,
    .stop 0 1 0 true, .stop 0 0 1 true, .over 0]

example : ∃ es, (run exSig exCalls exHistory).phase 0 = .done (.value 7) es := ⟨_, rfl⟩

example : (run exSig exCalls exHistory).log.map (fun d => (d.event, d.place, d.fn)) = [(0, 1, 2), (1, 0, 1), (0, 0,
    1)] :=
  rfl

example : (aget ([(["a".toList], 1), (["b".toList, "a".toList], 2)].foldl (fun t d => decorate t d.1 d.2) [])
    "a".toList).getD [] = [1, 2] := by decide

/-! ## Where it fails -/

/-- **C91** fails when a listener raises: the function has returned, but the call raises, and another listener is never
called. -/
theorem C91_failure_false : ∃ (h : List (Act Nat)) (es : List Emit), Act.ends 0 (.value 7) ∈ h ∧
    (run exSig exCalls h).phase 0 = .done .raised es ∧ subscribed "paid".toList h = [1, 2] ∧
    delivered (run exSig exCalls h).log 0 0 1 = [] := by
  refine ⟨[.subscribe "paid".toList 1, .subscribe "paid".toList 2, .begin 0, .ends 0 (.value 7), .emit 0 0, .emit 0 1,
    .start 0 0 0, .stop 0 0 0 false, .cut 0 0 1, .over 0], _, by simp, rfl, by decide, rfl⟩

/-- **C91** fails for the keyword arguments of a synchronous function itself: one that `run_sync` does not know is an
exception, and the function is never called. -/
theorem C91_call_false (sig : Nat → Sig) (calls : Nat → Call V) (h : List (Act V)) (i : Nat) (k : Str) (x : V)
    (hk : (k, x) ∈ (calls i).kwargs)
    (hn : k ≠ "abandon_on_cancel".toList ∧ k ≠ "cancellable".toList ∧ k ≠ "limiter".toList)
    (ha : (sig (calls i).fn).isAsync = false) :
    ((run sig calls h).ran.filter fun r => r.1 = i) = [] ∧
      ∀ v es, (run sig calls h).phase i ≠ .done (.value v) es := by
  have ho : own (sig (calls i).fn) (calls i).kwargs = none := by
    unfold own
    rw [if_neg (by rw [ha]; simp), if_neg]
    intro hall
    have := List.all_eq_true.1 hall (k, x) hk
    simp only [decide_eq_true_eq, List.mem_cons, List.not_mem_nil, or_false] at this
    rcases this with e | e | e
    · exact hn.1 e
    · exact hn.2.1 e
    · exact hn.2.2 e
  have hc := (inv_run sig calls h).call i
  refine ⟨(hc.refused ho).1, fun v es hp => ?_⟩
  rcases (hc.refused ho).2 with y | y <;> (rw [hp] at y; cases y)

example : ("user".toList, 5) ∈ [("user".toList, 5)] ∧ "user".toList ≠ "abandon_on_cancel".toList ∧
    "user".toList ≠ "cancellable".toList ∧ "user".toList ≠ "limiter".toList := by decide

/-- **C91** fails for them as well when `run_sync` knows them: the function is called without them. -/
theorem C91_options_false (sig : Nat → Sig) (f : Nat) (send : List Str) (args : List V) (k : Str) (x : V)
    (hk : k = "abandon_on_cancel".toList ∨ k = "cancellable".toList ∨ k = "limiter".toList)
    (ha : (sig f).isAsync = false) :
    (run sig (fun _ => ⟨f, send, args, [(k, x)]⟩) [.begin 0]).ran = [(0, args, [])] := by
  have ho : own (sig f) [(k, x)] = some [] := by
    unfold own
    rw [if_neg (by rw [ha]; simp), if_pos]
    rcases hk with rfl | rfl | rfl <;> rfl
  simp only [run, List.foldl_cons, List.foldl_nil, step, start]
  rw [ho]
  rfl

/-- **C91** fails for keyword arguments: a listener that does not accept any keyword arguments, like `async def
send_mail(user)`, is called without them. -/
theorem C91_keywords_false : ∃ (calls : Nat → Call Nat) (h : List (Act Nat)) (es : List Emit),
    (calls 0).kwargs = [("user".toList, 5)] ∧ (run exSig calls h).phase 0 = .done (.value 7) es ∧
    (run exSig calls h).log = [⟨0, 0, 0, 0, [], []⟩] := by
  exact ⟨fun _ => ⟨1, ["paid".toList], [], [("user".toList, 5)]⟩, [.subscribe "paid".toList 0, .begin 0,
    .ends 0 (.value 7), .emit 0 0, .start 0 0 0, .stop 0 0 0 true, .over 0], _, rfl, rfl, rfl⟩

/-- **C91** fails for synchronous listeners that accept any keyword arguments: once there is one other than `name`, none
of them is ever called, whatever happens. -/
theorem C91_refused_false (sig : Nat → Sig) (calls : Nat → Call V) (h : List (Act V)) (i n m f : Nat) (k : Str) (x : V)
    (hk : (k, x) ∈ (calls i).kwargs) (hn : k ≠ "name".toList) (hf : (sig f).isAsync = false ∧ (sig f).kw = true) :
    ∀ d ∈ delivered (run sig calls h).log i n m, d.fn ≠ f := by
  intro d hd e
  have hc := (inv_run sig calls h).call i
  rw [hc.logged n m] at hd
  cases hat : at? ((run sig calls h).phase i).emits n m with
  | none => rw [hat] at hd; cases hd
  | some ft =>
    obtain ⟨f', t⟩ := ft
    rw [hat] at hd
    unfold expected at hd
    simp only at hd
    split at hd
    · rw [List.mem_singleton] at hd
      rw [hd] at e
      simp only at e
      unfold at? at hat
      split at hat
      · rename_i ls b hx
        obtain ⟨pre, post, e', h1, h2, h3, _⟩ := hc.origin n ls b hx
        have hg : (ls.map (·.1))[m]? = some f' := by rw [List.getElem?_map, hat]; rfl
        rw [h3] at hg
        have g2 := (takeWhile_get _ _ _ _ hg).2
        rw [e] at g2
        unfold keywords at g2
        simp only [hf.1, hf.2, Bool.false_eq_true, if_false, if_true] at g2
        split at g2
        · rename_i hall
          have := List.all_eq_true.1 hall _ hk
          exact hn (by simpa using this)
        · cases g2
      · cases hat
    · cases hd

example : ("user".toList, 5) ∈ [("user".toList, 5)] ∧ "user".toList ≠ "name".toList ∧
    (exSig 3).isAsync = false ∧ (exSig 3).kw = true := by decide

/-- **C91** fails for synchronous functions: called with a keyword argument, they raise and never run. -/
theorem C91_sync_false : ∃ (calls : Nat → Call Nat), (calls 0).kwargs = [("user".toList, 5)] ∧
    (run exSig calls [.begin 0]).phase 0 = .done .raised [] ∧ (run exSig calls [.begin 0]).ran = [] := by
  exact ⟨fun _ => ⟨2, [], [], [("user".toList, 5)]⟩, rfl, rfl, rfl⟩

/-- **C91** fails for a function that both listens and sends: it is called for an event, but the events that it sends
are
not sent.  Here function 1 is decorated with `listen=["paid"], send=["shipped"]`, function 2 listens to `shipped`, and
function 0 sends `paid`; the call ends, 1 was called, and 2 was not. -/
theorem C91_chain_false : ∃ (calls : Nat → Call Nat) (h : List (Act Nat)) (es : List Emit),
    calls 0 = ⟨0, ["paid".toList], [5], []⟩ ∧ calls 1 = ⟨1, ["shipped".toList], [5], []⟩ ∧
    subscribed "paid".toList h = [1] ∧ subscribed "shipped".toList h = [2] ∧
    (run exSig calls h).phase 0 = .done (.value 7) es ∧ (run exSig calls h).log.map (·.fn) = [1] := by
  exact ⟨fun i => if i = 0 then ⟨0, ["paid".toList], [5], []⟩ else ⟨1, ["shipped".toList], [5], []⟩,
    [.subscribe "paid".toList 1, .subscribe "shipped".toList 2, .begin 0, .ends 0 (.value 7), .emit 0 0, .start 0 0 0,
      .stop 0 0 0 true, .over 0], _, rfl, rfl, by decide, by decide, rfl, rfl⟩

end Verif.Observe
