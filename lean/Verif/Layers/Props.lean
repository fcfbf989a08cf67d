import Verif.Layers.Lemmas

/-!
# Property C92: the innermost registration of a dependency wins, and an override wins over all

A handler is given the dependency registered closest to it, wherever the registrations are (application, include, host,
router, route), unless the application overrides the name; websockets are served like requests.
-/

namespace Verif.Layers

open Verif Verif.Layers.Spec

/-- **C92**, layers, where nothing is registered in a place that is not asked, and the application around it all
registers nothing or has no other application inside: without overrides, a handler is given the innermost registration
of
every name, for requests and websockets. -/
theorem C92_innermost_partial (http : Bool) (deps : Map) (o : Option Map) (plain : Bool) (p : Place) (hp : Inside p)
    (hn : NoApp p ∨ deps = .empty) (ho : ∀ x ∈ Spec.overrides (.app deps o plain p), x = none) (n : Str) :
    merged http (.app deps o plain p) n = innermost (layers (.app deps o plain p)) n := by
  have ho1 : o = none := ho o (by simp [Spec.overrides])
  have ho2 : ∀ x ∈ Spec.overrides p, x = none := fun x hx => ho x (by simp [Spec.overrides, hx])
  let s : Scope := ⟨deps, [], .empty⟩
  have hs : walk http .fresh (.app deps o plain p) = walk http s p := by
    show walk http ⟨deps, [], if direct http plain p then .empty else o.getD .empty⟩ p = walk http s p
    rw [getD_none _ _ _ ho1]
  have hw := walked http s p hp
  obtain ⟨D, r, h1, h2⟩ := hw.deps
  rw [merged_eq http _ D r (by rw [hs, h1]; rfl), hs, h2, hw.overrides ho2, layers, innermost_cons]
  show (none : Option Provider).or _ = _
  rw [Option.none_or]
  rcases hw.app with h | ⟨g1, g2⟩
  · rw [h]
  · have hd : deps = .empty := by
      rcases hn with hn | hn
      · exact absurd hn g1
      · exact hn
    rw [hd]
    cases hi : innermost (layers p) n with
    | some x => rfl
    | none =>
      cases ha : (walk http s p).1.app n with
      | none => rfl
      | some x =>
        have := g2 n x ha
        rw [hi] at this
        cases this

/-- **C92**, overrides, for one overriding application and where no application takes its fast path: whatever is
registered anywhere, a name that is overridden gives the override. -/
theorem C92_override_partial (http : Bool) (p : Place) (hs : NoShortcut http p) (m : Map)
    (pre post : List (Option Map)) (h : Spec.overrides p = pre ++ some m :: post)
    (hone : ∀ o ∈ pre ++ post, o = none) (n : Str) (x : Provider) (hx : m n = some x) : merged http p n = some x := by
  obtain ⟨D, r, h1⟩ := walk_last http .fresh p
  rw [merged_eq http p D r h1, walk_overrides_last http .fresh p hs m pre post h
    (fun o ho => hone o (List.mem_append_right _ ho)), hx]
  rfl

/-- **C92**, websockets: with the same dependencies, the handler of a websocket is given what the handler of a request
would be given, in the same order, when no parameter without a default stands for a `Resolve` or `Security`. -/
theorem C92_socket_partial (m : Map) (ps : List (Str × Kind))
    (h : ∀ n x, (n, Kind.required) ∈ ps → m n = some x → x.isResolve = false) : socketPlan m ps = plan m ps := by
  induction ps with
  | nil => rfl
  | cons p ps ih =>
    obtain ⟨n, k⟩ := p
    have ih' := ih (fun n x hn hx => h n x (List.mem_cons_of_mem _ hn) hx)
    cases k with
    | provides => rw [socketPlan, plan, ih']
    | resolves i => rw [socketPlan, plan, ih']
    | required =>
      rw [socketPlan, plan, ih']
      cases hm : m n with
      | none => rfl
      | some x =>
        have hr := h n x (by simp) hm
        unfold make
        simp [hr]
    | default => rw [socketPlan, plan, ih']

/-- **C92**, requests and websockets are given the same registrations where no application takes its fast path. -/
theorem C92_kinds_partial (p : Place) (hs : NoShortcut true p) : merged true p = merged false p := by
  have key : ∀ s, walk true s p = walk false s p := by
    induction p with
    | route deps func => intro s; rfl
    | incl deps inner ih => intro s; exact ih hs _
    | host deps inner ih => intro s; exact ih hs _
    | router deps inner ih => intro s; exact ih hs _
    | app deps o plain inner ih =>
      intro s
      obtain ⟨h1, h2⟩ := not_direct _ _ _ _ _ hs
      have h3 : direct false plain inner = false := by cases inner <;> rfl
      rw [walk, walk, h1, h3]
      exact ih h2 _
  obtain ⟨D, r, h1⟩ := walk_last true .fresh p
  funext n
  rw [merged_eq true p D r h1, merged_eq false p D r (by rw [← key]; exact h1), key]

/-! ## The hypotheses can be met -/

/-- One registration. -/
def just (n : Str) (i : Nat) : Map := fun k => if k = n then some ⟨i, false⟩ else none

/-- An application that registers `db`, with an include that does too, a router in it, and a route that registers
`user`. -/
def exPlace : Place :=
  .app (just "db".toList 1) none false
    (.incl (some (just "db".toList 2)) (.router .empty (.route (just "user".toList 3) .empty)))

example : Inside (.incl (some (just "db".toList 2)) (.router .empty (.route (just "user".toList 3) .empty))) ∧
    NoApp (.incl (some (just "db".toList 2)) (.router .empty (.route (just "user".toList 3) .empty))) :=
  ⟨⟨rfl, trivial⟩, trivial⟩

example : merged true exPlace "db".toList = some ⟨2, false⟩ ∧ merged true exPlace "user".toList = some ⟨3, false⟩ := by
  decide

example : NoShortcut true exPlace ∧ Spec.overrides exPlace = [none] := ⟨trivial, rfl⟩

example : plan (just "db".toList 1) [("db".toList, .provides), ("x".toList, .provides), ("y".toList, .required)] =
    [("db".toList, some (.own 1)), ("x".toList, none)] := by decide

/-! ## Where it fails -/

/-- **C92** fails for an application inside of an application: what the outer one registers is gone, so that a handler
that asks for it fails. -/
theorem C92_parent_false : ∃ (deps : Map) (p : Place) (n : Str) (x : Provider), Inside p ∧
    innermost (layers (.app deps none false p)) n = some x ∧ merged true (.app deps none false p) n = none ∧
    plan (merged true (.app deps none false p)) [(n, .provides)] = [(n, none)] := by
  exact ⟨just "db".toList 1, .incl none (.app .empty none false (.route .empty .empty)), "db".toList, ⟨1, false⟩,
      trivial,
    by decide, by decide, by decide⟩

/-- **C92** fails for hosts: what a host registers is never asked, for any place, name and kind of connection. -/
theorem C92_host_false :
    (∀ (http : Bool) (s : Scope) (deps deps' : Map) (p : Place),
      walk http s (.host deps p) = walk http s (.host deps' p)) ∧
    ∃ (deps : Map) (n : Str) (x : Provider),
      innermost (layers (.app .empty none false (.host deps (.router .empty (.route .empty .empty))))) n = some x ∧
      merged true (.app .empty none false (.host deps (.router .empty (.route .empty .empty)))) n = none := by
  exact ⟨fun _ _ _ _ _ => rfl, just "db".toList 1, "db".toList, ⟨1, false⟩, by decide, by decide⟩

/-- **C92** fails for what is put under an include that registers something itself: what a router registers is never
asked, and what an application registers loses against the include around it. -/
theorem C92_include_false : ∃ (n : Str) (out inn : Map),
    (∃ x, innermost (layers (.app .empty none false (.incl (some out) (.router inn (.route .empty .empty))))) n = some
        x ∧
      inn n = some x ∧
      merged true (.app .empty none false (.incl (some out) (.router inn (.route .empty .empty)))) n = out n) ∧
    merged true (.app .empty none false (.incl (some out) (.app inn none false (.route .empty .empty)))) n = out n ∧
    out n ≠ inn n := by
  exact ⟨"db".toList, just "db".toList 1, just "db".toList 2, ⟨⟨2, false⟩, by decide, by decide, by decide⟩, by decide,
    by decide⟩

/-- **C92** fails for overrides of an application with default options and one static route: requests do not see them,
websockets do. -/
theorem C92_fast_false : ∃ (p : Place) (m : Map) (n : Str) (x : Provider), Spec.overrides p = [some m] ∧ m n = some x ∧
    merged true p n ≠ some x ∧ merged false p n = some x := by
  exact ⟨.app (just "db".toList 1) (some (just "db".toList 2)) true (.route .empty .empty), just "db".toList 2,
    "db".toList, ⟨2, false⟩, rfl, by decide, by decide, by decide⟩

/-- **C92** fails for two overriding applications: when the inner one overrides anything, the overrides of the outer one
are gone there, for other names too. -/
theorem C92_two_false : ∃ (p : Place) (m m' : Map) (n : Str) (x : Provider), Spec.overrides p = [some m, some m'] ∧
    m n = some x ∧ m' n = none ∧ merged true p n = none := by
  exact ⟨.app .empty (some (just "db".toList 1)) false
      (.incl none (.app .empty (some (just "user".toList 2)) false (.route .empty .empty))),
    just "db".toList 1, just "user".toList 2, "db".toList, ⟨1, false⟩, rfl, by decide, by decide, by decide⟩

/-- **C92** fails for the `Resolve` of a layer when the handler of a websocket names it without a default: it is made in
another way than for a request. -/
theorem C92_socket_false : ∃ (m : Map) (ps : List (Str × Kind)), socketPlan m ps ≠ plan m ps := by
  exact ⟨fun _ => some ⟨1, true⟩, [("db".toList, .required)], by decide⟩

end Verif.Layers
