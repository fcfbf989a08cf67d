import Verif.Scheduler.Lemmas

/-!
# C137: the tasks and the lifetime of the scheduler

A configuration gives its scheduler exactly the enabled tasks of its dictionary, in order, or is refused; and the
scheduler that an application starts is the one that it shuts down.
-/

namespace Verif.Scheduler.Props

open Verif Verif.Scheduler Verif.Scheduler.Spec

/-- A scheduler for the examples: a list of the names of its tasks, which takes no name twice unless told to. -/
def exAdd (s : List (Option Str)) (t : Task) : Except Str (List (Option Str)) :=
  if t.options.id ∈ s ∧ t.options.id ≠ none ∧ t.replace = false then .error "conflict".toList
  else .ok (s.filter (fun x => decide (x ≠ t.options.id)) ++ [t.options.id])

/-- A function for the examples. -/
def exFunc : Func := ⟨fun a => a.length, false⟩

/-- Options for the examples. -/
def exOptions (id : String) : Options := ⟨some id.toList, none, none⟩

/-- Modules for the examples. -/
def exLoad (n : Str) : Except Str Obj :=
  if n = "shop.tasks.bill".toList then .ok (.task (decorate exFunc (exOptions "bill") none none))
  else if n = "shop.tasks.mail".toList then .ok (.task (decorate exFunc (exOptions "mail") none none))
  else if n = "shop.tasks.rest".toList then .ok (.task (decorate exFunc (exOptions "rest") none (some false)))
  else if n = "shop.tasks.again".toList then .ok (.task (Task.make exFunc (exOptions "bill") none none))
  else if n = "shop.tasks.twin".toList then .ok (.task (decorate exFunc (exOptions "bill") none none))
  else if n = "shop.tasks.plain".toList then .ok .plain
  else .error "no module".toList

/-- The world of the examples. -/
def exOutside : Outside (List (Option Str)) := ⟨exLoad, exAdd⟩

/-- An entry of the dictionary of the examples. -/
def exEntry (k : String) : Item × Item := (.text k.toList, .text "shop.tasks".toList)

/-- What a configuration of the examples comes to: its tasks, or what is raised. -/
def exMake (l : List (Item × Item)) : List (Option Str) ⊕ Err :=
  match make exOutside (fun _ => []) (some l) none none [] with
  | .ok s => .inl s
  | .error e => .inr e

/-- A configuration is made if and only if the dictionary is of texts that all name tasks, and the scheduler takes those
that are enabled, one after the other; then these are what it was given, and no others. -/
theorem C137_registered {S : Type} (o : Outside S) (construct : Arguments → S) (tasks : List (Item × Item))
    (tz : Option Str) (conf : Option (List (Str × Str))) (zone : Str) (s : S) :
    make o construct (some tasks) tz conf zone = .ok s ↔
      ∃ (pairs : List (Str × Str)) (ts : List Task),
        tasks = pairs.map (fun p => (.text p.1, .text p.2)) ∧ Named o.load pairs ts ∧
        Takes o.add (construct (arguments tz conf zone)) (ts.filter (·.enabled)) s := by
  show (match checked tasks with | .error e => Except.error e | .ok l => register o l _) = _ ↔ _
  cases h : checked tasks with
  | error e =>
    constructor
    · intro h'; cases h'
    · rintro ⟨ps, ts, h1, -⟩
      rw [(checked_ok tasks ps).mpr h1] at h
      cases h
  | ok l =>
    have hl := (checked_ok tasks l).mp h
    dsimp only
    rw [register_ok]
    constructor
    · rintro ⟨ts, h1, h2⟩
      exact ⟨l, ts, hl, h1, h2⟩
    · rintro ⟨ps, ts, h1, h2, h3⟩
      have := (checked_ok tasks ps).mpr h1
      rw [h] at this
      cases this
      exact ⟨ts, h2, h3⟩

example : exMake [exEntry "bill", exEntry "rest", exEntry "mail"] =
    .inl [some "bill".toList, some "mail".toList] := by decide +kernel

/-- Without a dictionary the scheduler is made and given nothing. -/
theorem C137_none {S : Type} (o : Outside S) (construct : Arguments → S) (tz : Option Str)
    (conf : Option (List (Str × Str))) (zone : Str) :
    make o construct none tz conf zone = .ok (construct (arguments tz conf zone)) := rfl

/-- What is raised is decided by the dictionary or by its first entry that cannot be used: keys and values that are not
texts are refused before anything is imported, and tasks that the scheduler refuses give `ImproperlyConfigured` with its
reason. -/
theorem C137_refused {S : Type} (o : Outside S) (construct : Arguments → S)
    (tz : Option Str) (conf : Option (List (Str × Str))) (zone : Str) :
    (∀ tasks : List (Item × Item), (∃ p ∈ tasks, p.1 = .other ∨ p.2 = .other) →
      make o construct (some tasks) tz conf zone =
        .error (.improper "The dict of tasks must be dict[str, str].".toList)) ∧
    (∀ (before after : List (Str × Str)) (k m why : Str) (s : S) (t : Task),
      make o construct (some (before.map (fun p => (.text p.1, .text p.2)))) tz conf zone = .ok s →
      o.load (m ++ ".".toList ++ k) = .ok (.task t) → t.enabled = true → o.add s t = .error why →
      make o construct (some ((before ++ (k, m) :: after).map (fun p => (.text p.1, .text p.2)))) tz conf zone =
        .error (.improper why)) := by
  constructor
  · intro tasks hp
    show (match checked tasks with | .error e => Except.error e | .ok l => register o l _) = _
    cases h : checked tasks with
    | error e => rw [(checked_error tasks e h).1]
    | ok l =>
      have hl := (checked_ok tasks l).mp h
      obtain ⟨p, hp, hq⟩ := hp
      rw [hl, List.mem_map] at hp
      obtain ⟨q, -, rfl⟩ := hp
      rcases hq with hq | hq <;> cases hq
  · intro before after k m why s t hb hl he ha
    have hb' : register o before (construct (arguments tz conf zone)) = .ok s := by
      have : (match checked (before.map (fun p => (.text p.1, .text p.2))) with
        | .error e => Except.error e | .ok l => register o l (construct (arguments tz conf zone))) = .ok s := hb
      rw [(checked_ok _ before).mpr rfl] at this
      exact this
    show (match checked ((before ++ (k, m) :: after).map (fun p => (.text p.1, .text p.2))) with
      | .error e => Except.error e | .ok l => register o l (construct (arguments tz conf zone))) = _
    rw [(checked_ok _ (before ++ (k, m) :: after)).mpr rfl]
    dsimp only
    rw [register_append o before ((k, m) :: after) _ s hb']
    have hn : fullName k m = m ++ ".".toList ++ k := by
      show m ++ '.' :: k = m ++ ['.'] ++ k
      simp
    unfold register
    rw [hn, hl]
    dsimp only
    rw [if_pos he]
    unfold addTask
    rw [ha]

example : exMake [exEntry "bill", exEntry "again"] = .inr (.improper "conflict".toList) := by decide +kernel

example : exMake [exEntry "nothing", (.text "bill".toList, .other)] =
    .inr (.improper "The dict of tasks must be dict[str, str].".toList) := by decide +kernel

/-- Names that cannot be imported, and functions without the decorator, are not reported as `ImproperlyConfigured`. -/
theorem C137_refused_false :
    exMake [exEntry "nothing"] = .inr (.importing "no module".toList) ∧
    exMake [exEntry "plain"] = .inr .attribute := by
  refine ⟨?_, ?_⟩ <;> decide +kernel

/-- Entries of disabled tasks make no difference, wherever they are. -/
theorem C137_disabled {S : Type} (o : Outside S) (construct : Arguments → S) (before after : List (Str × Str))
    (k m : Str) (t : Task) (tz : Option Str) (conf : Option (List (Str × Str))) (zone : Str) (s : S)
    (hl : o.load (m ++ ".".toList ++ k) = .ok (.task t)) (he : t.enabled = false) :
    make o construct (some ((before ++ (k, m) :: after).map (fun p => (.text p.1, .text p.2)))) tz conf zone = .ok s ↔
    make o construct (some ((before ++ after).map (fun p => (.text p.1, .text p.2)))) tz conf zone = .ok s := by
  have key : ∀ ps : List (Str × Str), make o construct (some (ps.map (fun p => (.text p.1, .text p.2)))) tz conf zone =
      register o ps (construct (arguments tz conf zone)) := by
    intro ps
    show (match checked (ps.map (fun p => (.text p.1, .text p.2))) with
      | .error e => Except.error e | .ok l => register o l (construct (arguments tz conf zone))) = _
    rw [(checked_ok _ ps).mpr rfl]
  have hn : fullName k m = m ++ ".".toList ++ k := by
    show m ++ '.' :: k = m ++ ['.'] ++ k
    simp
  rw [key, key]
  generalize construct (arguments tz conf zone) = s0
  induction before generalizing s0 with
  | nil =>
    have : register o ((k, m) :: after) s0 = register o after s0 := by
      conv => lhs; unfold register
      rw [hn, hl]
      dsimp only
      rw [if_neg (by rw [he]; exact Bool.false_ne_true)]
    rw [List.nil_append, List.nil_append, this]
  | cons p before ih =>
    obtain ⟨k', m'⟩ := p
    rw [List.cons_append, List.cons_append]
    unfold register
    cases o.load (fullName k' m') with
    | error why => exact Iff.rfl
    | ok x =>
      cases x with
      | plain => exact Iff.rfl
      | task t' =>
        dsimp only
        by_cases he' : t'.enabled = true
        · rw [if_pos he', if_pos he']
          cases addTask o s0 t' with
          | error e => exact Iff.rfl
          | ok s1 => exact ih s1
        · rw [if_neg he', if_neg he']
          exact ih s0

example : exMake [exEntry "bill", exEntry "rest"] = exMake [exEntry "bill"] := by decide +kernel

/-- The time zone of the settings is used when none is given, and the configurations are passed on when there are any.
-/
theorem C137_arguments (zone : Str) :
    arguments none none zone = ⟨zone, none⟩ ∧
    (∀ z : Str, z ≠ [] → ∀ conf, (arguments (some z) conf zone).timezone = z) ∧
    (∀ l : List (Str × Str), l ≠ [] → ∀ tz, (arguments tz (some l) zone).configurations = some l) ∧
    (∀ conf, (arguments (some []) conf zone).timezone = zone) ∧
    (∀ conf, (arguments none conf zone).timezone = zone) ∧
    (∀ tz, (arguments tz (some []) zone).configurations = none) ∧
    (∀ tz, (arguments tz none zone).configurations = none) := by
  refine ⟨rfl, ?_, ?_, fun _ => rfl, fun _ => rfl, fun _ => rfl, fun _ => rfl⟩
  · intro z hz conf
    cases z with
    | nil => exact absurd rfl hz
    | cons c z => rfl
  · intro l hl tz
    cases l with
    | nil => exact absurd rfl hl
    | cons c l => rfl

example : arguments none (some []) "UTC".toList = ⟨"UTC".toList, none⟩ := by decide +kernel

/-- A decorated function is a task that computes the same, in the same way, with the options that were given; the
function itself stays available. -/
theorem C137_decorated (f : Func) (options : Options) (replace enabled : Option Bool) :
    (∀ a, (decorate f options replace enabled).fn.call a = f.call a) ∧
    (decorate f options replace enabled).fn.isAsync = f.isAsync ∧
    (decorate f options replace enabled).original = f ∧
    (decorate f options replace enabled).options = options ∧
    (∀ b, replace = some b → (decorate f options replace enabled).replace = b) ∧
    (∀ b, enabled = some b → (decorate f options replace enabled).enabled = b) ∧
    (enabled = none → (decorate f options replace enabled).enabled = true) := by
  refine ⟨?_, ?_, rfl, rfl, ?_, ?_, ?_⟩
  · intro a
    unfold decorate
    cases f.isAsync <;> rfl
  · unfold decorate
    cases f.isAsync <;> rfl
  · rintro b rfl; rfl
  · rintro b rfl; rfl
  · rintro rfl; rfl

example : (decorate exFunc (exOptions "bill") none none).fn.call [1, 2] = 2 := rfl

/-- The decorator and the class differ in what they do by default with a task of the same id: one replaces it, the other
is refused.  A second decorated task with the id of another silently takes its place. -/
theorem C137_default_false (f : Func) (options : Options) :
    (decorate f options none none).replace = true ∧ (Task.make f options none none).replace = false ∧
    exMake [exEntry "bill", exEntry "twin"] = .inl [some "bill".toList] ∧
    exMake [exEntry "bill", exEntry "again"] = .inr (.improper "conflict".toList) := by
  refine ⟨rfl, rfl, ?_, ?_⟩ <;> decide +kernel

/-- Keys are the names of functions, so that functions of the same name in two modules cannot both be given: no
dictionary leads to both of these tasks. -/
theorem C137_same_name_false (pairs : List (Str × Str)) (hd : (pairs.map (·.1)).Nodup) :
    ¬ ("billing.cleanup".toList ∈ pairs.map (fun p => fullName p.1 p.2) ∧
       "orders.cleanup".toList ∈ pairs.map (fun p => fullName p.1 p.2)) := by
  have key : ∀ (a m k : Str), '.' ∉ a → '.' ∉ "cleanup".toList → fullName k m = a ++ '.' :: "cleanup".toList →
      k = "cleanup".toList ∧ m = a := by
    intro a
    induction a with
    | nil =>
      intro m k _ hc h
      cases m with
      | nil =>
        have h' : '.' :: k = '.' :: "cleanup".toList := h
        injection h' with _ h'
        exact ⟨h', rfl⟩
      | cons c m =>
        have h' : c :: (m ++ '.' :: k) = '.' :: "cleanup".toList := h
        injection h' with _ h'
        exact absurd (h' ▸ (by simp : '.' ∈ m ++ '.' :: k)) hc
    | cons x a ih =>
      intro m k ha hc h
      cases m with
      | nil =>
        have h' : '.' :: k = x :: (a ++ '.' :: "cleanup".toList) := h
        injection h' with h' _
        exact absurd (h' ▸ List.mem_cons_self) ha
      | cons c m =>
        have h' : c :: (m ++ '.' :: k) = x :: (a ++ '.' :: "cleanup".toList) := h
        injection h' with h1 h2
        obtain ⟨e1, e2⟩ := ih m k (fun hx => ha (List.mem_cons_of_mem _ hx)) hc h2
        exact ⟨e1, by rw [h1, e2]⟩
  rintro ⟨h1, h2⟩
  rw [List.mem_map] at h1 h2
  obtain ⟨p, hp, e1⟩ := h1
  obtain ⟨q, hq, e2⟩ := h2
  obtain ⟨k1, m1⟩ := key "billing".toList p.2 p.1 (by decide) (by decide) (e1.trans (by decide))
  obtain ⟨k2, m2⟩ := key "orders".toList q.2 q.1 (by decide) (by decide) (e2.trans (by decide))
  have heq : p = q := by
    clear key e1 e2
    induction pairs with
    | nil => cases hp
    | cons r rest ih =>
      rw [List.map_cons, List.nodup_cons] at hd
      rcases List.mem_cons.mp hp with rfl | hp'
      · rcases List.mem_cons.mp hq with rfl | hq
        · rfl
        · exact absurd (List.mem_map.mpr ⟨q, hq, k2.trans k1.symm⟩) hd.1
      · rcases List.mem_cons.mp hq with rfl | hq
        · exact absurd (List.mem_map.mpr ⟨p, hp', k1.trans k2.symm⟩ : q.1 ∈ rest.map (·.1)) hd.1
        · exact ih hd.2 hp' hq
  rw [heq, m2] at m1
  exact absurd m1 (by decide)

/-- In packages the names can be told apart, by keys that contain part of the name of the module. -/
example : fullName "cleanup".toList "shop.billing".toList = "shop.billing.cleanup".toList ∧
    fullName "orders.cleanup".toList "shop".toList = "shop.orders.cleanup".toList := by
  refine ⟨?_, ?_⟩ <;> decide +kernel

/-- With one configuration, however often the application is started and stopped, the scheduler that is started is the
one that is shut down, and each run starts it once and shuts it down once. -/
theorem C137_lifetime (n : Nat) (w : World) (i : Nat) :
    (runEvents (.object i) n w).calls = w.calls ++ runs i n ∧
    (runLifespan (.object i) n w).calls = w.calls ++ runs i n ∧
    (w.cache = none →
      (runEvents .cached n w).calls = w.calls ++ runs w.made n ∧
      (runLifespan .cached n w).calls = w.calls ++ runs w.made n) ∧
    (w.cache = some i →
      (runEvents .cached n w).calls = w.calls ++ runs i n ∧
      (runLifespan .cached n w).calls = w.calls ++ runs i n) := by
  have hobj : ∀ w : World, (runLifespan (.object i) n w).calls = w.calls ++ runs i n := by
    intro w
    show (Nat.repeat (fun w => call (call w i .start) i .shutdown) n w).calls = _
    rw [repeat_calls, runs_eq]
  have hcached : ∀ (w : World) (j : Nat), w.cache = some j →
      Nat.repeat (lifespanOnce .cached) n w = Nat.repeat (fun w => call (call w j .start) j .shutdown) n w := by
    clear hobj
    intro w j hw
    induction n with
    | zero => rfl
    | succ n ih =>
      show lifespanOnce .cached (Nat.repeat _ n w) = call (call (Nat.repeat _ n w) j .start) j .shutdown
      rw [ih]
      have hc : (Nat.repeat (fun w => call (call w j .start) j .shutdown) n w).cache = some j := by
        rw [repeat_calls]; exact hw
      generalize Nat.repeat (fun w => call (call w j .start) j .shutdown) n w = v at hc ⊢
      obtain ⟨m, c, l⟩ := v
      cases hc
      rfl
  refine ⟨?_, hobj w, ?_, ?_⟩
  · show (Nat.repeat (fun w => call (call w i .start) i .shutdown) n w).calls = _
    rw [repeat_calls, runs_eq]
  · intro hw
    obtain ⟨m, c, l⟩ := w
    cases hw
    constructor
    · show (Nat.repeat (fun w => call (call w m .start) m .shutdown) n ⟨m + 1, some m, l⟩).calls = _
      rw [repeat_calls, runs_eq]
    · cases n with
      | zero => exact (List.append_nil l).symm
      | succ n =>
        have hshift : ∀ (k : Nat) (f : World → World) (w : World), Nat.repeat f (k + 1) w = Nat.repeat f k (f w) := by
          intro k f
          induction k with
          | zero => intro w; rfl
          | succ k ih => intro w; show f (Nat.repeat f (k + 1) w) = _; rw [ih]; rfl
        have hfirst : lifespanOnce .cached ⟨m, none, l⟩ = ⟨m + 1, some m, l ++ [(m, .start)] ++ [(m, .shutdown)]⟩ := rfl
        show (Nat.repeat (lifespanOnce .cached) (n + 1) ⟨m, none, l⟩).calls = _
        rw [hshift, hfirst]
        have hn : Nat.repeat (lifespanOnce .cached) n ⟨m + 1, some m, l ++ [(m, .start)] ++ [(m, .shutdown)]⟩ =
            Nat.repeat (fun w => call (call w m .start) m .shutdown) n
              ⟨m + 1, some m, l ++ [(m, .start)] ++ [(m, .shutdown)]⟩ := by
          clear hobj hcached
          induction n with
          | zero => rfl
          | succ n ih =>
            show lifespanOnce .cached (Nat.repeat _ n _) = call (call (Nat.repeat _ n _) m .start) m .shutdown
            rw [ih, repeat_calls]
            rfl
        rw [hn, repeat_calls, runs_eq]
        simp [runs]
  · intro hw
    constructor
    · have : runEvents .cached n w = Nat.repeat (fun w => call (call w i .start) i .shutdown) n w := by
        obtain ⟨m, c, l⟩ := w
        cases hw
        rfl
      rw [this, repeat_calls, runs_eq]
    · show (Nat.repeat (lifespanOnce .cached) n w).calls = _
      rw [hcached w i hw, repeat_calls, runs_eq]

example : (runLifespan .cached 2 ⟨0, none, []⟩).calls =
    [(0, .start), (0, .shutdown), (0, .start), (0, .shutdown)] := by decide

/-- With a function or a property that makes another configuration each time, as in the documentation, the scheduler
that is started is never shut down, and the one that is shut down was never started: in every run of every
application. -/
theorem C137_lifetime_false (n : Nat) (w : World) (hw : w.calls = []) :
    (∀ i, (i, Call.start) ∈ (runEvents .fresh (n + 1) w).calls →
      (i, Call.shutdown) ∉ (runEvents .fresh (n + 1) w).calls) ∧
    (w.made, Call.start) ∈ (runEvents .fresh (n + 1) w).calls ∧
    (w.made + 1, Call.shutdown) ∈ (runEvents .fresh (n + 1) w).calls ∧
    (runLifespan .fresh 1 w).calls = [(w.made, .start), (w.made + 1, .shutdown)] := by
  obtain ⟨m, c, l⟩ := w
  cases hw
  have he : (runEvents .fresh (n + 1) ⟨m, c, []⟩).calls =
      (List.replicate (n + 1) [(m, Call.start), (m + 1, Call.shutdown)]).flatten := by
    show (Nat.repeat (fun w => call (call w m .start) (m + 1) .shutdown) (n + 1) ⟨m + 2, c, []⟩).calls = _
    rw [repeat_calls]
    exact List.nil_append _
  have hmem : ∀ (j : Nat) (x : Nat × Call),
      x ∈ (List.replicate (j + 1) [(m, Call.start), (m + 1, Call.shutdown)]).flatten ↔
        x = (m, .start) ∨ x = (m + 1, .shutdown) := by
    intro j x
    simp [List.mem_flatten, List.mem_replicate]
  rw [he]
  refine ⟨?_, (hmem n _).mpr (Or.inl rfl), (hmem n _).mpr (Or.inr rfl), rfl⟩
  intro i hi hj
  rcases (hmem n _).mp hi with h | h
  · rcases (hmem n _).mp hj with h' | h'
    · cases h'
    · injection h with h _
      injection h' with h' _
      omega
  · cases h

example : (runEvents .fresh 2 ⟨0, none, []⟩).calls =
    [(0, .start), (1, .shutdown), (0, .start), (1, .shutdown)] := by decide

/-- A class of one's own has both methods run if it has both. -/
theorem C137_own (k : Own) (c : Call) : k.effect c = .runs ↔ (c = .start ∧ k.start = true) ∨
    (c = .shutdown ∧ k.shutdown = true) := by
  obtain ⟨a, b, d⟩ := k
  cases c <;> cases a <;> cases b <;> cases d <;> decide

example : (Own.mk true true false).effect .shutdown = .runs := by decide

/-- A class that has `start` and `stop`, as the base class asks, is started and then never shut down: its `shutdown` is
that of the protocol, which does nothing and reports nothing. -/
theorem C137_own_false (k : Own) (h : k.shutdown = false) : k.effect .shutdown = .nothing := by
  obtain ⟨a, b, d⟩ := k
  cases h
  rfl

example : (Own.mk true false true).shutdown = false := rfl

end Verif.Scheduler.Props
