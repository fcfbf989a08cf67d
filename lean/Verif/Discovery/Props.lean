import Verif.Discovery.Lemmas

/-!
# C109: the application that a directive works with

`--app`, else `LILYA_DEFAULT_APP`, else the first file `application.py`, `app.py` or `main.py` of the current folder,
or of its folders, which has an application; an `EnvError` if there is none.
-/

namespace Verif.Discovery.Props

open Verif Verif.Discovery Verif.Discovery.Spec

/-! ### Worlds for the examples -/

/-- An application. -/
def site : Value := ⟨1, .lilya, true⟩

/-- Another application, which a module imports. -/
def child : Value := ⟨2, .lilya, true⟩

/-- A function. -/
def func : Value := ⟨3, .other, true⟩

/-- A world with some modules, all of them files of the current folder or of the folder `src`. -/
def world (here src : List Str) (mods : List (Str × Module)) (call : Value → Call) : World where
  file p n := (p.parts.isEmpty && here.contains n) || (p.parts == ["src".toList] && src.contains n)
  folders p := if p.parts.isEmpty then ["src".toList] else []
  load n :=
    match aget mods n with
    | some m => .ok m
    | none => .error (.raised "ModuleNotFoundError".toList)
  call := call

/-- Calls that return an object of no interest. -/
def noCalls : Value → Call := fun _ => ⟨.ok ⟨9, .other, true⟩, none⟩

/-- The root folder. -/
def root : FilePath := ⟨true, []⟩

/-- A world with the application in `src/main.py`. -/
def inSrc : World :=
  world ["app.py".toList] ["main.py".toList]
    [("app".toList, ⟨[("x".toList, func)], none⟩), ("src.main".toList, ⟨[("x".toList, func), ("app".toList, site)],
        none⟩)]
    noCalls

/-! ### The order -/

/-- The option wins, then the environment variable; an empty one counts as none. -/
theorem C109_precedence (w : World) (cwd : FilePath) (inst : Option Value) (option fromEnv : Option Str) :
    (∀ p, option = some p → p ≠ [] → loadFromEnv w cwd inst option fromEnv = importApp w inst p) ∧
    (∀ p, option.getD [] = [] → fromEnv = some p → p ≠ [] →
      loadFromEnv w cwd inst option fromEnv = importApp w inst p) ∧
    (option.getD [] = [] → fromEnv.getD [] = [] →
      loadFromEnv w cwd inst option fromEnv = findApp w cwd inst none) := by
  unfold loadFromEnv
  refine ⟨?_, ?_, ?_⟩
  · rintro p rfl hp
    rw [if_neg (by simpa using hp)]
    unfold findApp
    rw [if_pos (by simpa using hp)]
    rfl
  · rintro p ho rfl hp
    rw [if_pos ho]
    unfold findApp
    rw [if_pos (by simpa using hp)]
    rfl
  · intro ho hv
    rw [if_pos ho]
    unfold findApp
    rw [if_neg (by simpa using hv), if_neg (by simp)]

example : (loadFromEnv inSrc root none (some "src.main:app".toList) (some "a:b".toList)).toOption.isSome = true := by
  decide +kernel

/-- The first place whose module has an application is taken, with the path `module:attribute`, if the modules before
it have nothing of that kind.  Partial: of the applications in the module it is the first one in the order of its
names, wherever it was made (`C109_imported_false`). -/
theorem C109_first_partial (w : World) (cwd : FilePath) (hd : Direct cwd) (inst : Option Value)
    (pre post : List Place) (p : Place) (hp : places w cwd = pre ++ p :: post) (hs : ∀ q ∈ pre, Silent w q.name)
    (m : Module) (hm : importModule w p.name = .ok m) (before after : List (Str × Value)) (a : Str) (v : Value)
    (ha : m.attrs = before ++ (a, v) :: after) (hb : ∀ kv ∈ before, kv.2.kind = .other) (hv : v.kind ≠ .other) :
    findApp w cwd inst none = .ok ⟨p.name ++ ':' :: a, v, some v⟩ := by
  obtain ⟨j, hj⟩ := walk_found w inst (pre.map Place.name) (post.map Place.name) p.name m
    ⟨appPath p.name a, v, some v⟩ (by
      intro n hn
      obtain ⟨q, hq, rfl⟩ := List.mem_map.1 hn
      exact hs q hq) hm (by
      intro i
      refine ⟨register i m.registers, ?_⟩
      unfold inspect
      rw [ha, firstBase_some before after a v hb hv])
  rw [findApp_walk w cwd hd inst, hp, List.map_append, List.map_cons, hj]
  rfl

example : findApp inSrc root none none
    = .ok ⟨("src.main".toList) ++ ':' :: "app".toList, site, some site⟩ := by
  refine C109_first_partial inSrc root (.inl rfl) none [⟨none, "app".toList⟩] [] ⟨some "src".toList, "main".toList⟩
    (by simp [places, stems, inSrc, world, root, below]) ?_ ⟨[("x".toList, func), ("app".toList, site)], none⟩ ?_
    [("x".toList, func)] [] "app".toList site rfl ?_ (by decide)
  · intro q hq
    rw [List.mem_singleton.1 hq]
    exact ⟨⟨[("x".toList, func)], none⟩, by rfl, by simp [NoApp, func], by decide +kernel⟩
  · rfl
  · simp [func]

/-- If an application is found, it is in a file of the list of places, under the attribute in its path, or made by
the function in its path. -/
theorem C109_sound (w : World) (cwd : FilePath) (hd : Direct cwd) (inst : Option Value) (s : Scaffold)
    (h : findApp w cwd inst none = .ok s) :
    ∃ p ∈ places w cwd, ∃ m, importModule w p.name = .ok m ∧ ∃ a v, (a, v) ∈ m.attrs ∧
      s.path = p.name ++ ':' :: a ∧
      (s.app = v ∧ (v.kind ≠ .other ∨ a = "application".toList ∨ a = "app".toList)
        ∨ (w.call v).result = .ok s.app ∧ (a = "get_application".toList ∨ a = "get_app".toList)) := by
  rw [findApp_walk w cwd hd inst] at h
  cases hw : walk w inst ((places w cwd).map Place.name) with
  | error e => rw [hw] at h; cases h
  | ok r =>
    obtain ⟨o, i⟩ := r
    rw [hw] at h
    cases o with
    | none => cases h
    | some x =>
      injection h with h
      subst h
      obtain ⟨n, hn, m, hm, a, v, hav, hpath, ho⟩ := walk_some w inst i x _ hw
      obtain ⟨p, hp, rfl⟩ := List.mem_map.1 hn
      refine ⟨p, hp, m, hm, a, v, hav, hpath, ?_⟩
      simpa [discoveryAttrs, discoveryFunctions] using ho

/-- `EnvError` is raised only if the modules of all places can be imported and nothing is found in them: no
application is an attribute of one of them, and no function `get_application` or `get_app` returned one. -/
theorem C109_missing (w : World) (hq : Quiet w) (cwd : FilePath) (hd : Direct cwd) (inst : Option Value)
    (h : findApp w cwd inst none = .error .env) :
    ∀ p ∈ places w cwd, ∃ m, importModule w p.name = .ok m ∧ NoApp m ∧
      ∀ f, f = "get_application".toList ∨ f = "get_app".toList → ∀ fn, aget m.attrs f = some fn → fn.truthy = true →
        ∀ v, (w.call fn).result = .ok v → v.kind ≠ .lilya := by
  rw [findApp_walk w cwd hd inst] at h
  cases hw : walk w inst ((places w cwd).map Place.name) with
  | error e =>
    rw [hw] at h
    injection h with h
    subst h
    exact absurd hw (walk_error w hq _ _)
  | ok r =>
    obtain ⟨o, i⟩ := r
    rw [hw] at h
    cases o with
    | some x => cases h
    | none =>
      intro p hp
      obtain ⟨m, hm, hn, hf⟩ := walk_none w inst i _ hw p.name (List.mem_map.2 ⟨p, hp, rfl⟩)
      exact ⟨m, hm, hn, fun f hff => hf f (by simpa [discoveryFunctions] using hff)⟩

/-- And it is raised if all modules are silent; in particular if there are no such files. -/
theorem C109_none (w : World) (cwd : FilePath) (hd : Direct cwd) (inst : Option Value)
    (h : ∀ p ∈ places w cwd, Silent w p.name) : findApp w cwd inst none = .error .env := by
  rw [findApp_walk w cwd hd inst]
  obtain ⟨i, hi⟩ := walk_silent w inst ((places w cwd).map Place.name) (by
    intro n hn
    obtain ⟨q, hq, rfl⟩ := List.mem_map.1 hn
    exact h q hq)
  rw [hi]

/-- An empty project. -/
def empty : World := world [] [] [] noCalls

example : findApp empty root none none = .error .env :=
  C109_none empty root (.inl rfl) none (by simp [places, stems, empty, world, root, below])

/-- An application which is only wrapped: it registered itself when the module was imported, and the module has
`application` or `app`. -/
theorem C109_wrapped (w : World) (cwd : FilePath) (hd : Direct cwd) (inst : Option Value)
    (pre post : List Place) (p : Place) (hp : places w cwd = pre ++ p :: post) (hs : ∀ q ∈ pre, Silent w q.name)
    (m : Module) (hm : importModule w p.name = .ok m) (hn : NoApp m) (i : Value) (hr : m.registers = some i)
    (v : Value) (ht : v.truthy = true) :
    (aget m.attrs "application".toList = some v →
      findApp w cwd inst none = .ok ⟨p.name ++ ':' :: "application".toList, v, some i⟩) ∧
    (aget m.attrs "application".toList = none → aget m.attrs "app".toList = some v →
      findApp w cwd inst none = .ok ⟨p.name ++ ':' :: "app".toList, v, some i⟩) := by
  have key : ∀ a, firstTruthy m discoveryAttrs = some (a, v) →
      findApp w cwd inst none = .ok ⟨p.name ++ ':' :: a, v, some i⟩ := by
    intro a ha
    obtain ⟨j, hj⟩ := walk_found w inst (pre.map Place.name) (post.map Place.name) p.name m
      ⟨appPath p.name a, v, some i⟩ (by
        intro n hn
        obtain ⟨q, hq, rfl⟩ := List.mem_map.1 hn
        exact hs q hq) hm (by
        intro k
        refine ⟨some i, ?_⟩
        unfold inspect
        rw [(firstBase_none _).2 hn, hr]
        show (match firstTruthy m discoveryAttrs with
          | some (a, v) => Except.ok (some (⟨appPath p.name a, v, some i⟩ : Scaffold), some i)
          | none => factories w p.name m (some i) discoveryFunctions) = _
        rw [ha])
    rw [findApp_walk w cwd hd inst, hp, List.map_append, List.map_cons, hj]
    rfl
  refine ⟨fun ha => key _ ?_, fun ha hb => key _ ?_⟩
  · unfold discoveryAttrs firstTruthy
    rw [ha]
    dsimp only
    rw [if_pos ht]
  · unfold discoveryAttrs firstTruthy
    rw [ha]
    dsimp only
    unfold firstTruthy
    rw [hb]
    dsimp only
    rw [if_pos ht]

/-- A module with a wrapped application. -/
def wrappedWorld : World :=
  world ["app.py".toList] [] [("app".toList, ⟨[("app".toList, func)], some site⟩)] noCalls

example : findApp wrappedWorld root none none = .ok ⟨"app".toList ++ ':' :: "app".toList, func, some site⟩ :=
  (C109_wrapped wrappedWorld root (.inl rfl) none [] [] ⟨none, "app".toList⟩
    (by simp [places, stems, wrappedWorld, world, root, below]) nofun ⟨[("app".toList, func)], some site⟩ (by rfl)
    (by simp [NoApp, func]) site rfl func rfl).2 (by decide +kernel) (by decide +kernel)

/-- A function `get_application`, or `get_app` if there is no such function, makes the application if the module has
none and nothing called `application` or `app`. -/
theorem C109_factory (w : World) (cwd : FilePath) (hd : Direct cwd) (inst : Option Value)
    (pre post : List Place) (p : Place) (hp : places w cwd = pre ++ p :: post) (hs : ∀ q ∈ pre, Silent w q.name)
    (m : Module) (hm : importModule w p.name = .ok m) (hn : NoApp m)
    (ha : ∀ n, n = "application".toList ∨ n = "app".toList → aget m.attrs n = none)
    (fn : Value) (ht : fn.truthy = true) (v : Value) (hc : (w.call fn).result = .ok v) (hv : v.kind = .lilya) :
    (aget m.attrs "get_application".toList = some fn →
      findApp w cwd inst none = .ok ⟨p.name ++ ':' :: "get_application".toList, v, some v⟩) ∧
    (aget m.attrs "get_application".toList = none → aget m.attrs "get_app".toList = some fn →
      findApp w cwd inst none = .ok ⟨p.name ++ ':' :: "get_app".toList, v, some v⟩) := by
  have hat : firstTruthy m discoveryAttrs = none := firstTruthy_none m _ (by
    intro n hn x hx
    rw [ha n (by simpa [discoveryAttrs] using hn)] at hx
    cases hx)
  have key : ∀ a, (∀ i, ∃ j, factories w p.name m i discoveryFunctions = .ok (some ⟨appPath p.name a, v, some v⟩, j)) →
      findApp w cwd inst none = .ok ⟨p.name ++ ':' :: a, v, some v⟩ := by
    intro a hf
    obtain ⟨j, hj⟩ := walk_found w inst (pre.map Place.name) (post.map Place.name) p.name m
      ⟨appPath p.name a, v, some v⟩ (by
        intro n hn
        obtain ⟨q, hq, rfl⟩ := List.mem_map.1 hn
        exact hs q hq) hm (by
        intro k
        unfold inspect
        rw [(firstBase_none _).2 hn]
        cases register k m.registers with
        | none => exact hf none
        | some i =>
          dsimp only
          rw [hat]
          exact hf (some i))
    rw [findApp_walk w cwd hd inst, hp, List.map_append, List.map_cons, hj]
    rfl
  refine ⟨fun hg => key _ fun i => ⟨register i (w.call fn).registers, ?_⟩,
    fun hg hb => key _ fun i => ⟨register i (w.call fn).registers, ?_⟩⟩
  · unfold discoveryFunctions factories
    rw [hg]
    dsimp only
    rw [if_pos ht, hc]
    dsimp only
    rw [if_pos hv]
  · unfold discoveryFunctions factories
    rw [hg]
    dsimp only
    unfold factories
    rw [hb]
    dsimp only
    rw [if_pos ht, hc]
    dsimp only
    rw [if_pos hv]

/-- A module with a function that makes the application. -/
def factoryWorld : World :=
  world ["main.py".toList] [] [("main".toList, ⟨[("get_app".toList, func)], none⟩)] fun _ => ⟨.ok site, some site⟩

example : findApp factoryWorld root none none = .ok ⟨"main".toList ++ ':' :: "get_app".toList, site, some site⟩ :=
  (C109_factory factoryWorld root (.inl rfl) none [] [] ⟨none, "main".toList⟩
    (by simp [places, stems, factoryWorld, world, root, below]) nofun ⟨[("get_app".toList, func)], none⟩ (by rfl)
    (by simp [NoApp, func]) (by rintro n (rfl | rfl) <;> decide +kernel) func rfl site rfl rfl).2
    (by decide +kernel) (by decide +kernel)

/-- The path of what was found, given as `--app`, leads to the same application, or to the function that made it.
Partial: in the second case the application is the function (`C109_factory_false`). -/
theorem C109_again_partial (w : World) (hw : Proper w) (cwd : FilePath) (hd : Direct cwd)
    (hf : ∀ n ∈ w.folders cwd, ':' ∉ n) (inst again : Option Value) (s : Scaffold)
    (h : findApp w cwd inst none = .ok s) :
    ∃ t, findApp w cwd again (some s.path) = .ok t ∧ t.path = s.path ∧
      (t.app = s.app ∨ (w.call t.app).result = .ok s.app) := by
  obtain ⟨p, hp, m, hm, a, v, hav, hpath, ho⟩ := C109_sound w cwd hd inst s h
  have hload : w.load p.name = .ok m := by
    unfold importModule at hm
    by_cases hst : startsWith p.name ['.'] = true
    · rw [if_pos hst] at hm; cases hm
    · rw [if_neg hst] at hm; exact hm
  have hprop := hw p.name m hload (a, v) hav
  have hstem : ∀ s ∈ stems, ':' ∉ s := by decide +kernel
  have hname : ':' ∉ p.name := by
    unfold places at hp
    rcases List.mem_append.1 hp with hp | hp
    · obtain ⟨s, hs, rfl⟩ := List.mem_map.1 hp
      exact hstem s (List.mem_filter.1 hs).1
    · obtain ⟨n, hn, hp⟩ := List.mem_flatMap.1 hp
      obtain ⟨s, hs, rfl⟩ := List.mem_map.1 hp
      have h1 := hf n hn
      have h2 := hstem s (List.mem_filter.1 hs).1
      simp [Place.name, h1, h2]
  refine ⟨⟨s.path, v, if v.isBase then some v else register again m.registers⟩, ?_, rfl, ?_⟩
  · unfold findApp
    rw [if_pos (by simp [hpath])]
    show importApp w again s.path = _
    rw [hpath]
    exact importApp_path w again p.name a m v hname hprop.2 hm hprop.1
  · rcases ho with ho | ho
    · exact .inl ho.1.symm
    · exact .inr ho.1

example : (findApp inSrc root none (some "src.main:app".toList)).toOption = some ⟨"src.main:app".toList, site, some
    site⟩ := by
  decide +kernel

/-- The path of a factory, given as `--app` (or to the server with `--reload`), leads to the function itself. -/
theorem C109_factory_false :
    ∃ w s t, Proper w ∧ findApp w root none none = .ok s ∧ s.app.kind = .lilya ∧
      findApp w root none (some s.path) = .ok t ∧ t.app.kind = .other ∧ t.lilya = none := by
  refine ⟨factoryWorld, ⟨"main:get_app".toList, site, some site⟩, ⟨"main:get_app".toList, func, none⟩, ?_, by rfl, by
      rfl,
    by rfl, by rfl, by rfl⟩
  intro n m hm kv hkv
  unfold factoryWorld world at hm
  dsimp only at hm
  cases hg : aget [("main".toList, (⟨[("get_app".toList, func)], none⟩ : Module))] n with
  | none => rw [hg] at hm; cases hm
  | some x =>
    rw [hg] at hm
    injection hm with hm
    subst hm
    have hx : (n, x) ∈ [("main".toList, (⟨[("get_app".toList, func)], none⟩ : Module))] := by
      have := @aget_memOf _ n x _ hg
      exact this
    have : x = ⟨[("get_app".toList, func)], none⟩ := by
      have := List.mem_singleton.1 hx
      exact congrArg Prod.snd this
    subst this
    rw [List.mem_singleton.1 hkv]
    exact ⟨by decide +kernel, by decide +kernel⟩

/-! ### Where it goes wrong -/

/-- "The application of the module": a module which imports a child application before it makes its own `app` is
taken for the child application. -/
theorem C109_imported_false :
    ∃ w m, importModule w "main".toList = .ok m ∧ aget m.attrs "app".toList = some site ∧
      findApp w root none none = .ok ⟨"main:child".toList, child, some child⟩ :=
  ⟨world ["main.py".toList] [] [("main".toList, ⟨[("child".toList, child), ("app".toList, site)], some site⟩)] noCalls,
    ⟨[("child".toList, child), ("app".toList, site)], some site⟩, by rfl, by decide +kernel, by rfl⟩

/-- "An application that registered itself and is wrapped": something called `app` in a later module is taken as the
wrapper of an application which an earlier module registered and did not offer. -/
theorem C109_stale_false :
    ∃ w m, importModule w "main".toList = .ok m ∧ m.registers = none ∧
      findApp w root none none = .ok ⟨"main:app".toList, func, some site⟩ :=
  ⟨world ["application.py".toList, "main.py".toList] []
    [("application".toList, ⟨[], some site⟩), ("main".toList, ⟨[("app".toList, func)], none⟩)] noCalls,
    ⟨[("app".toList, func)], none⟩, by rfl, by rfl, by rfl⟩

/-- "If no application is found then `EnvError`", and a broken file does not hide an application after it: one file
`app.py` that cannot be imported ends the search with its exception. -/
theorem C109_broken_false :
    ∃ w m, importModule w "main".toList = .ok m ∧ aget m.attrs "app".toList = some site ∧
      (⟨none, "main".toList⟩ : Place) ∈ places w root ∧
      findApp w root none none = .error (.raised "ModuleNotFoundError".toList) :=
  ⟨world ["app.py".toList, "main.py".toList] [] [("main".toList, ⟨[("app".toList, site)], some site⟩)] noCalls,
    ⟨[("app".toList, site)], some site⟩, by rfl, by decide +kernel,
    by simp [places, stems, world, root, below], by rfl⟩

/-- A hidden folder with a file `main.py` makes the search fail with a `TypeError`, as every folder is looked at. -/
theorem C109_hidden (w : World) (cwd : FilePath) (hd : Direct cwd) (inst : Option Value) (pre post : List Place)
    (n s : Str) (hp : places w cwd = pre ++ ⟨some ('.' :: n), s⟩ :: post) (hs : ∀ q ∈ pre, Silent w q.name) :
    findApp w cwd inst none = .error .type := by
  rw [findApp_walk w cwd hd inst, hp, List.map_append, List.map_cons]
  obtain ⟨i, hi⟩ := walk_silent w inst (pre.map Place.name) (by
    intro n hn
    obtain ⟨q, hq, rfl⟩ := List.mem_map.1 hn
    exact hs q hq)
  rw [walk_append, hi]
  have : importModule w (⟨some ('.' :: n), s⟩ : Place).name = .error .type := by
    unfold importModule
    rw [if_pos (by simp [Place.name, startsWith])]
  dsimp only [andThen]
  unfold walk
  rw [this]

/-- A project with a folder `.venv` before its folder. -/
def hiddenWorld : World where
  file p n := !p.parts.isEmpty && n == "main.py".toList
  folders p := if p.parts.isEmpty then [".venv".toList, "src".toList] else []
  load _ := .ok ⟨[("app".toList, site)], some site⟩
  call := noCalls

example : findApp hiddenWorld root none none = .error .type :=
  C109_hidden hiddenWorld root (.inl rfl) none [] [⟨some "src".toList, "main".toList⟩] "venv".toList "main".toList
    (by simp [places, stems, hiddenWorld, root, below]) nofun

/-- `--path` with a relative path: the folders below are not found. -/
theorem C109_path_false :
    ∃ (w : World) (cwd : FilePath) (m : Module), places w cwd = [⟨some "src".toList, "main".toList⟩] ∧
      importModule w "src.main".toList = .ok m ∧ aget m.attrs "app".toList = some site ∧
      findApp w cwd none none = .error .env :=
  ⟨{ file := fun p n => p.parts == ["project".toList, "src".toList] && n == "main.py".toList
     folders := fun p => if p.parts == ["project".toList] then ["src".toList] else []
     load := fun _ => .ok ⟨[("app".toList, site)], some site⟩
     call := noCalls },
    ⟨false, ["project".toList]⟩, ⟨[("app".toList, site)], some site⟩,
    by simp [places, stems, below], by rfl, by decide +kernel, by rfl⟩

/-- A path that is not `module:attribute` is a `ValueError`, and not an `EnvError`, which the group reports. -/
theorem C109_colon (w : World) (cwd : FilePath) (inst : Option Value) (p : Str) (hp : p ≠ []) (hc : ':' ∉ p) :
    findApp w cwd inst (some p) = .error .value := by
  unfold findApp
  rw [if_pos (by simpa using hp)]
  show importApp w inst p = _
  unfold importApp splitPair
  rw [splitOn_none p hc]

example : findApp inSrc root none (some "src.main".toList) = .error .value :=
  C109_colon inSrc root none _ (by decide) (by decide +kernel)

/-! ### The group of directives -/

/-- A directive runs with the application, and the program ends if there is none and the directive needs one; if none
of the words for which no application is loaded is among the arguments. -/
theorem C109_group_partial (argv : List Str) (load : Except Err Scaffold)
    (h : ∀ a ∈ argv, a ∉ ["--help".toList, "createproject".toList, "createapp".toList, "createdeployment".toList,
      "mail".toList]) :
    (∀ s, load = .ok s → invoke argv load = .runs (some s)) ∧
    (load = .error .env → "directives".toList ∈ argv → invoke argv load = .runs none) ∧
    (load = .error .env → "directives".toList ∉ argv → invoke argv load = .exits) := by
  have hs : (argv.any fun a => skipping.any fun s => s == a) = false := by
    rw [List.any_eq_false]
    intro a ha hk
    obtain ⟨s, hs, he⟩ := List.any_eq_true.1 hk
    exact h a ha (beq_iff_eq.1 he ▸ hs)
  unfold invoke
  rw [hs]
  refine ⟨?_, ?_, ?_⟩
  · rintro s rfl
    rfl
  · rintro rfl hd
    rw [if_neg (by decide)]
    dsimp only
    rw [if_pos (List.any_eq_true.2 ⟨_, hd, by simp⟩)]
  · rintro rfl hd
    rw [if_neg (by decide)]
    dsimp only
    rw [if_neg]
    intro hk
    obtain ⟨a, ha, he⟩ := List.any_eq_true.1 hk
    exact hd (by simpa [beq_iff_eq.1 he] using ha)

example : ∀ a ∈ ["lilya".toList, "runserver".toList], a ∉ ["--help".toList, "createproject".toList, "createapp".toList,
    "createdeployment".toList, "mail".toList] := by decide +kernel

/-- An argument of a custom directive which is one of these words: the directive runs without the application that
was found. -/
theorem C109_words_false (s : Scaffold) :
    invoke ["lilya".toList, "--app".toList, "main:app".toList, "run".toList, "--directive".toList, "send".toList,
      "--by".toList, "mail".toList] (.ok s) = .runs none := by
  unfold invoke
  rw [if_pos (by decide +kernel)]

/-- `--settings` decides about the settings, if the environment has no `LILYA_SETTINGS_MODULE`. -/
theorem C109_settings_partial (o : Str) : settingsModule none (some o) = some o := rfl

/-- If the environment has one, `--settings` is ignored. -/
theorem C109_settings_false :
    ∃ e o : Str, e ≠ o ∧ settingsModule (some e) (some o) = some e :=
  ⟨"a.Settings".toList, "b.Settings".toList, by decide, rfl⟩

/-! ### What is served -/

/-- Without `--reload` and `--workers` the application that was found is served. -/
theorem C109_serve (w : World) (s : Scaffold) (h : s.app.truthy = true) (path : Option Str) :
    served w (serveTarget s path false) = .ok s.app := by
  unfold serveTarget
  rw [if_pos (by simp [h])]
  rfl

example : served inSrc (serveTarget ⟨"src.main:app".toList, site, some site⟩ none false) = .ok site :=
  C109_serve _ _ rfl _

/-- With them it is imported again by its path. -/
theorem C109_reload_partial (w : World) (hw : Proper w) (cwd : FilePath) (hd : Direct cwd)
    (hf : ∀ n ∈ w.folders cwd, ':' ∉ n) (inst : Option Value) (s : Scaffold)
    (h : findApp w cwd inst none = .ok s) :
    ∃ v, served w (serveTarget s none true) = .ok v ∧ (v = s.app ∨ (w.call v).result = .ok s.app) := by
  obtain ⟨t, ht, _, ho⟩ := C109_again_partial w hw cwd hd hf inst none s h
  have hne : s.path ≠ [] := by
    obtain ⟨p, _, _, _, a, _, _, hpath, _⟩ := C109_sound w cwd hd inst s h
    rw [hpath]
    simp
  unfold findApp at ht
  rw [if_pos (by simpa using hne)] at ht
  refine ⟨t.app, ?_, ho⟩
  show (match importApp w none s.path with
    | .error e => Except.error e
    | .ok r => .ok r.app) = _
  rw [show importApp w none s.path = .ok t from ht]

/-- "The application is served": with `--reload` an application made by `get_app` is not, but the function. -/
theorem C109_reload_false :
    ∃ w s, findApp w root none none = .ok s ∧ s.app = site ∧ served w (serveTarget s none true) = .ok func :=
  ⟨factoryWorld, ⟨"main:get_app".toList, site, some site⟩, by rfl, rfl, by rfl⟩

/-- "The path given to `runserver` is served": without `--reload` it is not looked at. -/
theorem C109_argument_false :
    ∃ w s p, findApp w root none none = .ok s ∧ served w (.string p) = .ok child ∧
      served w (serveTarget s (some p) false) = .ok site :=
  ⟨world ["main.py".toList] []
    [("main".toList, ⟨[("app".toList, site)], some site⟩), ("other".toList, ⟨[("app".toList, child)], some child⟩)]
    noCalls, ⟨"main:app".toList, site, some site⟩, "other:app".toList, by rfl, by rfl, by rfl⟩

end Verif.Discovery.Props
