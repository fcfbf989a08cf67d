import Verif.AppConfig.Spec

/-!
# C99: the order of the settings of an application

Full statement: a value is the one that is given in the call, also when it is empty or false, else that of
`settings_module`, else that of `LILYA_SETTINGS_MODULE`, else the default; the configured serializer and logger are
used;
what is given for one application does not change another.  Proved for parameters that are given and not empty, and for
those that are not given, except `debug`, `routes` and, with a lifespan, the hooks.  The rest is false.
-/

namespace Verif.AppConfig

open Verif

theorem flag_or (p : Param) (v : Val) (h : Spec.Flag p ∨ ¬ Spec.Empty v) : (isBoolean p || v.truthy) = true := by
  rcases h with (rfl | rfl | rfl | rfl) | h
  · rfl
  · rfl
  · rfl
  · rfl
  · rw [Bool.or_eq_true]
    right
    cases v with
    | bool b => cases b with | false => exact absurd (.inl rfl) h | true => rfl
    | items l => cases l with | nil => exact absurd (.inr (.inl rfl)) h | cons _ _ => rfl
    | text s => cases s with | nil => exact absurd (.inr (.inr rfl)) h | cons _ _ => rfl
    | object n => rfl

/-- **C99** (partial): the documented order, when the value that is given is not empty (or is for one of the four
flags),
when `debug` is given, and when hooks are not given together with a lifespan. -/
theorem C99_order_partial (a : Args) (shared : Settings) (p : Param) (hr : p ≠ .routes)
    (hd : p = .debug → a.given .debug ≠ none)
    (he : ∀ v, a.given p = some v → Spec.Flag p ∨ ¬ Spec.Empty v)
    (hl : p = .onStartup ∨ p = .onShutdown →
      a.given .lifespan = none ∧ (∀ s, a.settings = some s → s.get .lifespan = none) ∧ shared.get .lifespan = none) :
    a.used shared p = Spec.documented a shared p := by
  have main : ∀ q, (∀ v, a.given q = some v → Spec.Flag q ∨ ¬ Spec.Empty v) →
      (q = .debug → a.given .debug ≠ none) →
      load a.settings shared q (a.value q) = Spec.documented a shared q := by
    intro q he hd
    unfold Spec.documented Spec.first Args.value
    cases hg : a.given q with
    | some v =>
      have : (isBoolean q || v.truthy) = true := flag_or q v (he v hg)
      simp [load, this]
    | none =>
      have hq : default q = none := by
        cases q <;> first | rfl | exact absurd hg (hd rfl)
      rw [hq]
      show fromSettings a.settings shared q = _
      unfold fromSettings
      cases a.settings with
      | none => cases shared.get q <;> rfl
      | some s =>
        show (match s.get q with | some v => some v | none => shared.get q) = _
        cases h : s.get q with
        | some v => simp [h]
        | none => cases shared.get q <;> simp [h]
  have life : (p = .onStartup ∨ p = .onShutdown) →
      load a.settings shared .lifespan (a.value .lifespan) = none := by
    intro hp
    obtain ⟨h1, h2, h3⟩ := hl hp
    rw [main .lifespan (by simp [h1]) (fun e => by cases e)]
    unfold Spec.documented Spec.first
    rw [h1, h3]
    cases hs : a.settings with
    | none => rfl
    | some s => simp [h2 s hs]
  have hm := main p he hd
  cases p <;> first
    | exact hm
    | exact absurd rfl hr
    | (unfold Args.used; rw [life (by simp)]; exact hm)

/-- A call with one parameter and settings of its own. -/
def sampleArgs : Args :=
  ⟨fun p => if p = .middleware then some (.items [1]) else none, none,
    some ⟨fun p => if p = .permissions then some (.items [2]) else none, false⟩⟩

example : sampleArgs.used ⟨fun _ => some (.items [3]), false⟩ .middleware = some (.items [1]) ∧
    sampleArgs.used ⟨fun _ => some (.items [3]), false⟩ .permissions = some (.items [2]) ∧
    sampleArgs.used ⟨fun _ => some (.items [3]), false⟩ .afterRequest = some (.items [3]) := by decide

example : ∀ v, sampleArgs.given .middleware = some v → Spec.Flag .middleware ∨ ¬ Spec.Empty v := by
  intro v h
  have : some (Val.items [1]) = some v := h
  injection this with this
  subst this
  exact Or.inr (by unfold Spec.Empty; decide)

/-- **C99** fails for exactly the empty values: what is given is not used if the parameter is no flag. -/
theorem C99_empty (a : Args) (shared : Settings) (v : Val) (hv : Spec.Empty v) (hg : a.given .middleware = some v) :
    a.used shared .middleware = fromSettings a.settings shared .middleware := by
  show load a.settings shared .middleware (a.value .middleware) = _
  unfold Args.value
  rw [hg]
  rcases hv with rfl | rfl | rfl <;> rfl

example : Spec.Empty (.text []) := .inr (.inr rfl)

/-- **C99**: a text that is given is used, if it is not empty. -/
theorem C99_text_partial (a : Args) (shared : Settings) (p : Param) (s : Str) (hs : s ≠ [])
    (hg : a.given p = some (.text s)) (hp : p ≠ .routes ∧ p ≠ .onStartup ∧ p ≠ .onShutdown) :
    a.used shared p = some (.text s) := by
  rw [C99_order_partial a shared p hp.1 (fun e => by rw [e] at hg; rw [hg]; simp) (fun v hv => by
    rw [hg] at hv
    injection hv with hv
    subst hv
    right
    rintro (h | h | h)
    · cases h
    · cases h
    · cases h
      exact hs rfl) (fun h => by
      rcases h with h | h
      · exact absurd h hp.2.1
      · exact absurd h hp.2.2)]
  unfold Spec.documented Spec.first
  rw [hg]
  rfl

/-- **C99**: what a `settings_module` declares is used for what is not given; `None` leaves it to the other settings. -/
theorem C99_declared (a : Args) (own : Param → Option (Option Val)) (base : Param → Option Val) (b : Bool)
    (shared : Settings) (hs : a.settings = some ⟨ofClass own base, b⟩) (hg : a.given .middleware = none) :
    (∀ v, own .middleware = some (some v) → a.used shared .middleware = some v) ∧
    (own .middleware = some none → a.used shared .middleware = shared.get .middleware) := by
  have h : a.used shared .middleware = (match ofClass own base .middleware with
      | some v => some v | none => shared.get .middleware) := by
    show load a.settings shared .middleware (a.value .middleware) = _
    unfold Args.value
    rw [hg, hs]
    rfl
  rw [h]
  unfold ofClass
  exact ⟨fun v hv => by rw [hv], fun hv => by rw [hv]⟩

/-- **C99** is false for `middleware=[]`, the example of the documentation: the middleware of the settings is used. -/
theorem C99_empty_false : ∃ (a : Args) (shared : Settings), a.given .middleware = some (.items []) ∧
    shared.get .middleware = some (.items [1]) ∧ a.used shared .middleware = some (.items [1]) :=
  ⟨⟨fun p => if p = .middleware then some (.items []) else none, none, none⟩, ⟨fun _ => some (.items [1]), false⟩,
    rfl, rfl, rfl⟩

/-- **C99** is false for `enable_intercept_global_exceptions=False`: the settings switch it on all the same. -/
theorem C99_intercept_false : ∃ (a : Args) (shared : Settings), a.given .intercept = some (.bool false) ∧
    shared.get .intercept = some (.bool true) ∧ a.used shared .intercept = some (.bool true) :=
  ⟨⟨fun p => if p = .intercept then some (.bool false) else none, none, none⟩, ⟨fun _ => some (.bool true), false⟩,
    rfl, rfl, rfl⟩

/-- **C99** is false for `debug`: its default in the constructor is `False`, so that no settings are ever looked at. -/
theorem C99_debug_false (a : Args) (shared : Settings) (h : a.given .debug = none) :
    a.used shared .debug = some (.bool false) := by
  show load a.settings shared .debug (a.value .debug) = _
  unfold Args.value
  rw [h]
  rfl

example : ∃ a : Args, a.given .debug = none ∧ a.settings.bind (fun s => s.get .debug) = some (.bool true) :=
  ⟨⟨fun _ => none, none, some ⟨fun _ => some (.bool true), false⟩⟩, rfl, rfl⟩

/-- **C99** is false for `routes`: those of the settings are never used. -/
theorem C99_routes_false (a : Args) (shared : Settings) (h : a.given .routes = none) : a.used shared .routes = none :=
    by
  show a.value .routes = none
  unfold Args.value
  rw [h]
  rfl

example : ∃ a : Args, a.given .routes = none := ⟨⟨fun _ => none, none, none⟩, rfl⟩

/-- **C99** is false for hooks that are given when the settings have a lifespan: they are not used. -/
theorem C99_hooks_false (a : Args) (shared : Settings) (h : a.settings = none) (hg : a.given .lifespan = none) (v : Val)
    (hl : shared.get .lifespan = some v) : a.used shared .onStartup = none ∧ a.used shared .onShutdown = none := by
  have e : load a.settings shared .lifespan (a.value .lifespan) = some v := by
    unfold Args.value
    rw [hg, h]
    exact hl
  unfold Args.used
  rw [e]
  exact ⟨rfl, rfl⟩

example : ∃ a : Args, a.settings = none ∧ a.given .lifespan = none ∧ a.given .onStartup = some (.items [1]) :=
  ⟨⟨fun p => if p = .onStartup then some (.items [1]) else none, none, none⟩, rfl, rfl, rfl⟩

/-- **C99** is false for a `settings_module` that does not declare a setting: it has inherited the default of
`Settings`,
which is used instead of the value of `LILYA_SETTINGS_MODULE`. -/
theorem C99_inherited_false (a : Args) (own : Param → Option (Option Val)) (base : Param → Option Val) (b : Bool)
    (shared : Settings) (hs : a.settings = some ⟨ofClass own base, b⟩) (ho : own .enableOpenapi = none)
    (hb : base .enableOpenapi = some (.bool false)) (hg : a.given .enableOpenapi = none) :
    a.used shared .enableOpenapi = some (.bool false) := by
  show load a.settings shared .enableOpenapi (a.value .enableOpenapi) = _
  unfold Args.value
  rw [hg, hs]
  show (match ofClass own base .enableOpenapi with | some v => some v | none => _) = _
  unfold ofClass
  rw [ho, hb]

example : ∃ a : Args, a.settings = some ⟨ofClass (fun _ => none) (fun _ => some (.bool false)), false⟩ ∧
    a.given .enableOpenapi = none := ⟨⟨fun _ => none, none, _⟩, rfl, rfl⟩

/-! ## Serializer and logger -/

/-- The logger of the configuration that is used is bound. -/
theorem C99_logger (w : World) (a : Args) (c : Val) (h : a.used w.shared .loggingConfig = some c) :
    (build w a).2.logs = c := by
  unfold build World.logs
  cases hs : a.settings <;> simp [h, setup]

example : ∃ (w : World) (a : Args), a.used w.shared .loggingConfig = some (.object 3) :=
  ⟨⟨⟨fun _ => none, false⟩, none, none⟩,
    ⟨fun p => if p = .loggingConfig then some (.object 3) else none, none, none⟩, rfl⟩

/-- **C99** is false for the serializer: whatever applications are made, with whatever configurations, the standard
one is
used. -/
theorem C99_serializer_false (shared : Settings) (apps : List Args) :
    (buildAll ⟨shared, none, none⟩ apps).serializes = standard := by
  have gen : ∀ (apps : List Args) (w : World), w.serializes = standard → (buildAll w apps).serializes = standard := by
    intro apps
    induction apps with
    | nil => intro w h; exact h
    | cons a r ih =>
      intro w h
      apply ih
      unfold build World.serializes
      cases hu : a.used w.shared .serializerConfig with
      | none => cases hs : a.settings <;> simp [hu, setup, standard]
      | some c => cases hs : a.settings <;> simp only [hu] <;> exact h
  exact gen apps _ rfl

example : (⟨fun p => if p = .serializerConfig then some (.object 5) else none, none, none⟩ : Args).used
    ⟨fun _ => none, false⟩ .serializerConfig = some (.object 5) := rfl

/-! ## Inferring bodies -/

/-- With settings of its own, an application infers bodies when it is told to or its settings say so, and no other
application is changed. -/
theorem C99_infer_own (w : World) (a : Args) (s : Settings) (h : a.settings = some s) :
    infers (build w a).2 (build w a).1 = (s.inferBody || a.inferBody == some true) ∧
      ∀ app : App, infers (build w a).2 app = infers w app := by
  unfold build infers
  rw [h]
  exact ⟨rfl, fun app => by cases app.settings <;> rfl⟩

example : ∃ a : Args, ∃ s, a.settings = some s ∧ a.inferBody = some true :=
  ⟨⟨fun _ => none, some true, some ⟨fun _ => none, false⟩⟩, _, rfl, rfl⟩

/-- **C99** is false for `infer_body=True` without `settings_module`: every other application without one infers bodies
from then on. -/
theorem C99_infer_leak_false (w : World) (a : Args) (h : a.settings = none) (hi : a.inferBody = some true) (other : App)
    (ho : other.settings = none) : infers (build w a).2 other = true := by
  unfold build infers
  rw [h, ho, hi]
  simp

example : ∃ (w : World) (app : App), app.settings = none ∧ infers w app = false :=
  ⟨⟨⟨fun _ => none, false⟩, none, none⟩, ⟨fun _ => none, none⟩, rfl, rfl⟩

/-- **C99** is false for `infer_body=False`: when the settings say so, bodies are inferred all the same. -/
theorem C99_infer_off_false (w : World) (a : Args) (s : Settings) (h : a.settings = some s) (hs : s.inferBody = true) :
    infers (build w a).2 (build w a).1 = true := by
  rw [(C99_infer_own w a s h).1, hs]
  rfl

example : ∃ a : Args, ∃ s, a.settings = some s ∧ s.inferBody = true ∧ a.inferBody = some false :=
  ⟨⟨fun _ => none, some false, some ⟨fun _ => none, true⟩⟩, _, rfl, rfl, rfl⟩

end Verif.AppConfig
