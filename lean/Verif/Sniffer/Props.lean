import Verif.Sniffer.Lemmas

/-!
# C125: routes that pass a request on leave it as it was
-/

namespace Verif.Sniffer.Props

open Verif.Sniffer Spec

variable {M : Type}

/-- The messages used in the examples. -/
abbrev body : List Char := ['a', 'b', 'c']

/-- A handler that reads one message and declines. -/
def peek : Prog Char := .recv fun _ => .decline

/-- A handler that reads two messages and declines. -/
def peek2 : Prog Char := .recv fun _ => .recv fun _ => .decline

/-- A handler that reads two messages and answers. -/
def answer : Prog Char := .recv fun _ => .recv fun _ => .send .ret

/-- The handlers used in the examples. -/
def handlers : Nat → Prog Char
  | 0 => peek
  | 1 => .ret
  | 2 => peek2
  | 3 => .send .decline
  | _ => answer

/-- **C125 (partial): reading again.**  When the routes tried before handler `h` pass the request on, and have
read at most one message of it each (within an include: none), then `h` does what it does when it is
alone with the request: it receives the same messages, and the router reports its end.  Before that nothing was
sent.

Full statement (false, see `C125_two_false` and `C125_include_false`): the same, however many messages the routes
before `h` have read. -/
theorem C125_again_partial (prog : Nat → Prog M) (d : Nat) (rs : List Route) (src : List M) (h : Nat)
    (hf : First prog src rs h) :
    (app prog d rs src).1 = outcome (play h (prog h) src) ∧
    ∃ before, (app prog d rs src).2 = before ++ (play h (prog h) src).log ∧
      (∀ e ∈ before, ∀ k, e ≠ .sent k) ∧
      received h (play h (prog h) src).log = src.take (play h (prog h) src).reads := by
  obtain ⟨t, l, e1, e2, e3, -⟩ := first_run prog src rs h hf ⟨[{}], src, []⟩ {} [] [] rfl (.inl rfl)
    (by intro x hx; simp only [List.mem_singleton] at hx; subst hx; rfl) rfl
  rw [app, e1]
  exact ⟨rfl, l, by simpa using e2, e3, play_received _ _ _⟩

/-- The first route declines after one message, an include has only idle routes, the next include has the answer
behind a route that reads one message: it reads the first two messages. -/
example : First handlers body [.full 0, .sub [.full 1, .part 7], .sub [.full 0, .full 4], .full 3] 4 ∧
    app handlers 9 [.full 0, .sub [.full 1, .part 7], .sub [.full 0, .full 4], .full 3] body =
      (.answered, [.got 0 'a', .got 0 'a', .got 4 'a', .got 4 'b', .sent 4]) := by
  refine ⟨?_, rfl⟩
  refine .later ⟨⟨rfl, .inr rfl⟩, by decide⟩ (.later ?_ (.inside (.later ⟨⟨rfl, .inr rfl⟩, by decide⟩ (.here ?_))))
  · exact ⟨⟨⟨rfl, .inl rfl⟩, rfl⟩, trivial, trivial⟩
  · intro hp; exact absurd hp.1 (by decide)

/-- **C125: exactly what is left.**  In a router without includes a path that is tried after others have passed is
alone with what these have left, where of the messages a path has read all but the last are lost. -/
theorem C125_left (prog : Nat → Prog M) (d : Nat) (hs : List Nat) (h : Nat) (rest : List Route) (src : List M)
    (hall : AllPass prog hs src) (hp : ¬ Passes (play h (prog h) (leftBy prog hs src))) :
    (app prog d (hs.map .full ++ .full h :: rest) src).1 = outcome (play h (prog h) (leftBy prog hs src)) ∧
    ∃ before, (app prog d (hs.map .full ++ .full h :: rest) src).2 =
        before ++ (play h (prog h) (leftBy prog hs src)).log ∧ ∀ e ∈ before, ∀ k, e ≠ .sent k := by
  obtain ⟨t, n, l, f1, f2, -, f4, f5, f6, f7⟩ :=
    flat_run prog hs (.full h :: rest) ⟨[{}], src, []⟩ {} [] rfl (.inl rfl) rfl hall
  have hv : visible t.sniffers t.src = leftBy prog hs src := f7
  obtain ⟨u, g1, g2, -⟩ := stop_full prog h t n [] f2 (by rw [hv]; exact hp)
  rw [hv] at g1 g2
  rw [app, f1]
  simp only [tryRoutes, f2, headSent, f4, g1]
  exact ⟨rfl, l, by simpa [f5] using g2, f6⟩

example : AllPass handlers [0, 2, 1, 0] body ∧ leftBy handlers [0, 2, 1, 0] body = ['b', 'c'] ∧
    app handlers 9 ([0, 2, 1, 0].map .full ++ [.full 4]) body =
      (.answered, [.got 0 'a', .got 2 'a', .got 2 'b', .got 0 'b', .got 4 'b', .got 4 'c', .sent 4]) :=
  ⟨⟨⟨rfl, .inr rfl⟩, ⟨rfl, .inr rfl⟩, ⟨rfl, .inl rfl⟩, ⟨rfl, .inr rfl⟩, trivial⟩, rfl, rfl⟩

/-- **C125 is false (a): two messages.**  A path which declines after it has read two messages takes the first one
from its successor. -/
theorem C125_two_false : ∃ (prog : Nat → Prog Char) (src : List Char) (h d : Nat),
    Passes (play h (prog h) src) ∧ app prog 9 [.full h, .full d] src ≠ app prog 9 [.full d] src ∧
    received d (app prog 9 [.full d] src).2 = ['a', 'b'] ∧
    received d (app prog 9 [.full h, .full d] src).2 = ['b', 'c'] :=
  ⟨handlers, body, 2, 4, ⟨rfl, .inr rfl⟩, by decide, rfl, rfl⟩

/-- **C125 is false (b): includes.**  An include whose only path declines after a single message takes this message
from the routes behind the include: the router forgets to give it again (router.py:441-443).  In place of the
include, the path itself does no harm. -/
theorem C125_include_false : ∃ (prog : Nat → Prog Char) (src : List Char) (h d : Nat),
    Passes (play h (prog h) src) ∧ (play h (prog h) src).reads = 1 ∧
    received d (app prog 9 [.full h, .full d] src).2 = ['a', 'b'] ∧
    received d (app prog 9 [.sub [.full h], .full d] src).2 = ['b', 'c'] :=
  ⟨handlers, body, 0, 4, ⟨rfl, .inr rfl⟩, rfl, rfl, rfl⟩

/-- **C125 is false (c): a handler that waits for ever.**  With a request of a single message the route behind such
an include waits for a message that does not come. -/
theorem C125_waits_false : ∃ (prog : Nat → Prog Char) (m : Char) (h d : Nat),
    app prog 9 [.full h, .full d] [m] = (.answered, [.got h m, .got d m, .sent d]) ∧
    app prog 9 [.sub [.full h], .full d] [m] = (.waits, [.got h m]) :=
  ⟨fun k => if k = 0 then peek else .recv fun _ => .send .ret, 'a', 0, 1, rfl, rfl⟩

/-- **C125 is false (d): the idle are not harmless.**  The message which was lost comes back when a route that
reads nothing passes the request on. -/
theorem C125_idle_false : ∃ (prog : Nat → Prog Char) (src : List Char) (h i d : Nat),
    Idle prog src (.full i) ∧
    received d (app prog 9 [.sub [.full h], .full d] src).2 = ['b', 'c'] ∧
    received d (app prog 9 [.sub [.full h], .full i, .full d] src).2 = ['a', 'b'] :=
  ⟨handlers, body, 0, 1, 4, ⟨⟨rfl, .inl rfl⟩, rfl⟩, rfl, rfl⟩

/-- **C125 is false (e): the default handler.**  The default handler does not get the messages again that paths
have read which declined. -/
theorem C125_default_false : ∃ (prog : Nat → Prog Char) (src : List Char) (h d : Nat),
    Light prog src (.full h) ∧
    app prog d [.part 5, .full h] src = (.notAllowed 5, [.got h 'a']) ∧
    received d (app prog d [] src).2 = ['a', 'b'] ∧
    received d (app prog d [.full h] src).2 = ['b', 'c'] :=
  ⟨handlers, body, 0, 4, ⟨⟨rfl, .inr rfl⟩, by decide⟩, rfl, rfl, rfl⟩

/-- **C125: idle routes.**  Routes of any depth which pass and read nothing are not noticed: the first path with
another method answers, wherever it is, and if there is none the default handler, which has the whole request. -/
theorem C125_idle (prog : Nat → Prog M) (d : Nat) (rs : List Route) (src : List M) (hi : IdleAll prog src rs) :
    (∀ p, (othersAll rs).head? = some p → app prog d rs src = (.notAllowed p, [])) ∧
    (othersAll rs = [] →
      app prog d rs src = (.byDefault (play d (prog d) src).fin, (play d (prog d) src).log)) := by
  obtain ⟨t, n, e1, -, -, -, e5, e6, -⟩ :=
    pass_idleAll prog rs ⟨[{}], src, []⟩ {} [] [] rfl (.inl rfl) rfl hi
  have e5' : t.src = src := e5
  have e6' : t.log = [] := e6
  rw [app, e1]
  cases hm : othersAll rs with
  | cons p ps =>
    refine ⟨?_, by simp⟩
    intro q hq
    simp only [List.head?_cons, Option.some.injEq] at hq
    simp [hq, e6']
  | nil =>
    refine ⟨by simp, fun _ => ?_⟩
    obtain ⟨u, f1, f2, -⟩ := exec_play d (prog d) ⟨[], t.src, t.log⟩
    simp only [visible, e5', e6', List.nil_append] at f1 f2
    simp only [List.append_nil, e5', e6', f1, f2]

example : IdleAll handlers body [.full 1, .sub [.full 1]] ∧
    app handlers 4 [.full 1, .sub [.full 1]] body = (.byDefault .returned, [.got 4 'a', .got 4 'b', .sent 4]) ∧
    app handlers 4 [.full 1, .sub [.part 6], .part 5] body = (.notAllowed 6, []) :=
  ⟨⟨⟨⟨rfl, .inl rfl⟩, rfl⟩, ⟨⟨⟨rfl, .inl rfl⟩, rfl⟩, trivial⟩, trivial⟩, rfl, rfl⟩

/-- **C125: one voice.**  Once a handler has sent something, no other handler receives or sends anything, whatever
the handlers do. -/
theorem C125_one_voice (prog : Nat → Prog M) (d : Nat) (rs : List Route) (src : List M) :
    OneSpeaks (app prog d rs src).2 := by
  have h := after_routes prog rs ⟨[{}], src, []⟩ []
    ⟨by simp, by intro x hx; simp only [List.mem_singleton] at hx; subst hx; rfl, by simp [Quiet]⟩
  rw [app]
  generalize tryRoutes prog rs ⟨[{}], src, []⟩ [] = res at h ⊢
  obtain ⟨r, t⟩ := res
  cases r with
  | stop o => exact h.1
  | passed parts =>
    cases parts with
    | cons p ps => exact quiet_speaks h.1.2.2
    | nil =>
      obtain ⟨u, f1, f2, -⟩ := exec_play d (prog d) ⟨[], t.src, t.log⟩
      simp only [f1]
      exact ⟨t.log, _, d, f2, h.1.2.2, play_owner d _ _⟩

/-- A handler that sends and declines: the assertion fails, and the answering route behind it is not tried. -/
example : app handlers 9 [.sub [.full 0, .full 3], .full 4] body = (.assertion, [.got 0 'a', .sent 3]) := rfl

/-- **C125 is false (f): two voices.**  In a router with a single path the default handler answers as well when the
path has sent something and declines. -/
theorem C125_two_voices_false : ∃ (prog : Nat → Prog Char) (src : List Char) (h d : Nat),
    fast prog d h src = (.byDefault .returned, [.sent h, .got d 'a', .got d 'b', .sent d]) ∧
    app prog d [.full h] src = (.assertion, [.sent h]) ∧ ¬ OneSpeaks (fast prog d h src).2 := by
  refine ⟨handlers, body, 3, 4, rfl, rfl, ?_⟩
  rintro ⟨quiet, rest, k, hl, hq, ho⟩
  have hl' : [.sent 3, .got 4 'a', .got 4 'b', .sent 4] = quiet ++ rest := hl
  cases quiet with
  | cons e q =>
    simp only [List.cons_append, List.cons.injEq] at hl'
    exact hq e (by simp) 3 hl'.1.symm
  | nil =>
    simp only [List.nil_append] at hl'
    subst hl'
    have h1 := ho (.sent 3) (by simp)
    have h2 := ho (.sent 4) (by simp)
    simp only [owner] at h1 h2
    omega

/-- **C125: the single path.**  A path that is the only route of a router, and does not decline, is alone with the
request. -/
theorem C125_single (prog : Nat → Prog M) (d h : Nat) (src : List M)
    (hd : (play h (prog h) src).fin ≠ .declined) :
    (fast prog d h src).2 = (play h (prog h) src).log ∧
    ((play h (prog h) src).sent = true → (fast prog d h src).1 = outcome (play h (prog h) src)) := by
  obtain ⟨t, e1, e2, -⟩ := exec_play h (prog h) ⟨[], src, []⟩
  simp only [visible, List.nil_append] at e1 e2
  have hany : (play h (prog h) src).sent = true → anySent (play h (prog h) src).log = true := by
    clear e1 e2 hd
    generalize prog h = p
    intro hs
    induction p generalizing src with
    | ret => simp [play] at hs
    | decline => simp [play] at hs
    | raise => simp [play] at hs
    | send q _ => simp [play, anySent]
    | recv f ih =>
      cases src with
      | nil => simp [play] at hs
      | cons m v =>
        have := ih m v (by simpa [play] using hs)
        simp only [anySent] at this
        simp [play, anySent, this]
  rw [fast, e1]
  cases hf : (play h (prog h) src).fin with
  | declined => exact absurd hf hd
  | raised => exact ⟨e2, fun _ => by simp [outcome, hf]⟩
  | waits => exact ⟨e2, fun _ => by simp [outcome, hf]⟩
  | returned => exact ⟨e2, fun hs => by simp [outcome, hf, e2, hany hs]⟩

example : (play 4 (handlers 4) body).fin ≠ .declined ∧
    fast handlers 9 4 body = (.answered, [.got 4 'a', .got 4 'b', .sent 4]) ∧
    fast handlers 9 1 body = (.nothing, []) := ⟨by decide, rfl, rfl⟩

end Verif.Sniffer.Props
