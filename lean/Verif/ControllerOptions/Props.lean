import Verif.ControllerOptions.Lemmas

/-!
# C72: the options of a controller class are in force on its routes

On a route to a controller, the permissions, middlewares, exception handlers, dependencies and
callbacks that the class declares are in force together with those given to the route, and no
others.
-/

namespace Verif.ControllerOptions

open Spec

/-- `class Admin(Controller): permissions = [7]; before_request = [8]`. -/
def exAdmin : Class := [{ Body.empty with permissions := some [7], before := some [8] }]

/-- A route that was given the list object 0 as `before_request` and the permission 1. -/
def exArgs : Args := ⟨[1], [], [], [], some 0, none⟩

/-- The list object 0 holds the callback 2. -/
def exHeap : Heap := fun n => if n = 0 then [2] else []

/-- **C72 (partial).**  Routes are made one after the other; then on each of them exactly the options
given to it and those of its controller class are in force.

The full statement has no hypotheses.  Missing: classes made by `with_init` (`C72_init_false`), lists
of callbacks that several routes share (`C72_shared_false`, `C72_twice_false`), dependencies on
websocket routes without own dependencies (`C72_websocket_false`), and websocket controllers with
permissions or middlewares (`C72_socket_false`). -/
theorem C72_routes_partial (ws : Bool) (h : Heap) (l : List (Args × Handler)) (hp : Plain l)
    (hs : Unshared l)
    (hw : ws = true → ∀ p ∈ l, p.1.dependencies = [] →
      (declared Body.dependencies (behind p.2)).getD [] = [])
    (hb : ws = true → ∀ p ∈ l, p.2 ≠ .function → Bare p) :
    ∃ heap made, build ws h l = some (heap, made) ∧
      Pairs (fun p m => Right h p.1 p.2 (inForce heap m)) l made := by
  refine ⟨_, _, ?_, makeAll_right ws h l hp hs hw⟩
  unfold build
  rw [if_neg]
  intro hany
  obtain ⟨⟨a, x⟩, hm, hr⟩ := List.any_eq_true.mp hany
  cases x with
  | function => cases hr
  | initialised c => exact hp _ hm c rfl
  | controller c =>
    obtain ⟨hws, hn⟩ := (refused_iff ws a c).mp hr
    exact hn (hb hws _ hm (fun h => by cases h))

example : Plain [(exArgs, .controller exAdmin), ({ exArgs with before := none }, .function)] ∧
    Unshared [(exArgs, .controller exAdmin), ({ exArgs with before := none }, .function)] ∧
    (makeAll false exHeap
      [(exArgs, .controller exAdmin), ({ exArgs with before := none }, .function)]).2.map
        (inForce (makeAll false exHeap
          [(exArgs, .controller exAdmin), ({ exArgs with before := none }, .function)]).1) =
      [⟨[1, 7], [], [], [], [2, 8], []⟩, ⟨[1], [], [], [], [], []⟩] := by
  refine ⟨?_, ⟨?_, ?_⟩, by decide +kernel⟩
  · intro p hp c
    simp only [List.mem_cons, List.not_mem_nil, or_false] at hp
    rcases hp with rfl | rfl <;> exact fun h => (by cases h)
  · refine List.Pairwise.cons ?_ (List.pairwise_singleton ..)
    intro q hq
    rw [List.mem_singleton] at hq
    subst hq
    refine ⟨fun n _ => by simp [uses, exArgs], ?_⟩
    rintro n (⟨h, _⟩ | ⟨h, _⟩) <;> exact absurd rfl h
  · intro p hp n ht
    simp only [List.mem_cons, List.not_mem_nil, or_false] at hp
    rcases hp with rfl | rfl <;> (rintro ⟨_, h⟩; cases h)

/-- **C72 is false of `with_init`.**  The controller `Admin` declares a permission; on a route to
`Admin.with_init(…)` it is not in force, nor are its callbacks. -/
theorem C72_init_false :
    ∃ (h : Heap) (a : Args) (c : Class),
      (inForce (make false h a (.controller c)).1 (make false h a (.controller c)).2).permissions
        = [1, 7] ∧
      (inForce (make false h a (.initialised c)).1 (make false h a (.initialised c)).2).permissions
        = [1] ∧
      (inForce (make false h a (.initialised c)).1 (make false h a (.initialised c)).2).before
        = [2] ∧
      ¬ Right h a (.initialised c)
        (inForce (make false h a (.initialised c)).1 (make false h a (.initialised c)).2) := by
  refine ⟨exHeap, exArgs, exAdmin, by decide +kernel, by decide +kernel, by decide +kernel, ?_⟩
  intro hr
  have := hr.permissions
  revert this
  decide +kernel

/-- No class made by `with_init` ever brings options of the original class along. -/
theorem C72_init_lost (ws : Bool) (h : Heap) (a : Args) (c : Class) :
    inForce (make ws h a (.initialised c)).1 (make ws h a (.initialised c)).2 =
      inForce (make ws h a .function).1 (make ws h a .function).2 := by
  have e : ∀ o : Option Nat, (extend h (cellOf o) []).1 = h := by
    intro o
    funext n
    exact extend_other h o [] n (fun hm => absurd rfl hm)
  have e2 : ∀ o : Option Nat, (extend h (cellOf o) []).2 = cellOf o := by
    intro o; cases o <;> rfl
  have hd : ∀ l : List (Nat × Nat), aupdate l [] = l := fun l => rfl
  have hm : ∀ l, mergeDeps ws l [] = l := by intro l; unfold mergeDeps; split <;> rfl
  have ho : optionsOf (withInit c) = Options.none := rfl
  simp only [make, classOf, ho, Options.none, inForce, e, e2, hd, hm, List.append_nil]

example : (inForce (make false exHeap exArgs .function).1
    (make false exHeap exArgs .function).2).permissions = [1] := by decide +kernel

/-- **C72 is false of shared lists.**  Two routes are given one list of callbacks; the first leads to
a controller with a callback of its own, which from then on runs on the second route too, a plain
function. -/
theorem C72_shared_false :
    ∃ (h : Heap) (l : List (Args × Handler)) (m : Made), Plain l ∧
      l[1]? = some (exArgs, .function) ∧ (makeAll false h l).2[1]? = some m ∧
      (inForce (makeAll false h l).1 m).before = [2, 8] ∧
      ¬ Right h exArgs .function (inForce (makeAll false h l).1 m) := by
  refine ⟨exHeap, [(exArgs, .controller exAdmin), (exArgs, .function)],
    ⟨[1], [], [], [], .given 0, .fresh []⟩, ?_, rfl, by decide +kernel, by decide +kernel, ?_⟩
  · intro p hp c
    simp only [List.mem_cons, List.not_mem_nil, or_false] at hp
    rcases hp with rfl | rfl <;> exact fun h => (by cases h)
  · intro hr
    have := hr.before
    revert this
    decide +kernel

/-- **C72 is false of lists shared by controllers.**  Two routes to one controller are given one list;
its callback then runs twice on both. -/
theorem C72_twice_false :
    ∃ (h : Heap) (l : List (Args × Handler)), Plain l ∧
      (makeAll false h l).2.map (fun m => (inForce (makeAll false h l).1 m).before) =
        [[2, 8, 8], [2, 8, 8]] := by
  refine ⟨exHeap, [(exArgs, .controller exAdmin), (exArgs, .controller exAdmin)], ?_,
    by decide +kernel⟩
  intro p hp c
  simp only [List.mem_cons, List.not_mem_nil, or_false] at hp
  rcases hp with rfl | rfl <;> exact fun h => (by cases h)

/-- A websocket controller that declares the dependency 5. -/
def exSocket : Class := [{ Body.empty with dependencies := some [(5, 50)] }]

/-- **C72 is false of websocket dependencies.**  The dependencies that a websocket controller declares
are not in force on a route without dependencies of its own. -/
theorem C72_websocket_false :
    ∃ (h : Heap) (a : Args) (c : Class),
      (inForce (make true h a (.controller c)).1 (make true h a (.controller c)).2).dependencies
        = [] ∧
      ¬ Right h a (.controller c)
        (inForce (make true h a (.controller c)).1 (make true h a (.controller c)).2) := by
  refine ⟨exHeap, exArgs, exSocket, by decide +kernel, ?_⟩
  intro hr
  have := hr.dependencies 5
  revert this
  decide +kernel

/-- **C72 is false of websocket controllers with permissions or middlewares.**  A program with a
websocket route to a controller is refused if the route is given a permission or a middleware or the
class declares one. -/
theorem C72_socket_false (h : Heap) (l : List (Args × Handler)) (a : Args) (c : Class)
    (hm : (a, .controller c) ∈ l) (hb : ¬ Bare (a, .controller c)) : build true h l = none := by
  unfold build
  rw [if_pos]
  exact List.any_eq_true.mpr ⟨_, hm, (refused_iff true a c).mpr ⟨rfl, hb⟩⟩

example : (exArgs, .controller []) ∈ [(exArgs, Handler.controller [])] ∧ ¬ Bare (exArgs, .controller []) :=
  ⟨List.mem_singleton.mpr rfl, fun h => by cases h.1⟩

example : (build false exHeap [(exArgs, .controller [])]).isSome = true ∧
    (build true exHeap [(exArgs, .initialised []), (exArgs, .function)]).isSome = true ∧
    (build true exHeap [({ exArgs with permissions := [] }, .controller [])]).isSome = true ∧
    build true exHeap [({ exArgs with permissions := [] }, .controller exAdmin)] = none :=
  ⟨rfl, rfl, rfl, rfl⟩

/-- The class made by `with_init` is taken everywhere, but then without its own permissions: a
websocket controller and its permissions are never both in force. -/
theorem C72_socket_never (h : Heap) (l : List (Args × Handler)) (heap : Heap) (made : List Made)
    (hl : build true h l = some (heap, made)) :
    Pairs (fun p m => ∀ c, (p.2 = .controller c → (inForce heap m).permissions = []) ∧
      (p.2 = .initialised c → (inForce heap m).permissions = p.1.permissions)) l made := by
  unfold build at hl
  split at hl
  · cases hl
  · rename_i hany
    have hb : ∀ a c, (a, Handler.controller c) ∈ l → Bare (a, .controller c) := by
      intro a c hm
      refine Classical.not_not.mp fun hn => hany ?_
      exact List.any_eq_true.mpr ⟨_, hm, (refused_iff true a c).mpr ⟨rfl, hn⟩⟩
    have hh : made = (makeAll true h l).2 := by
      have := Option.some.inj hl
      rw [this]
    subst hh
    clear hl hany
    induction l generalizing h with
    | nil => exact .nil
    | cons p rest ih =>
      obtain ⟨a, x⟩ := p
      rw [makeAll]
      refine .cons ?_ (ih _ fun b c hm => hb b c (List.mem_cons_of_mem _ hm))
      intro c
      constructor
      · rintro rfl
        have := hb a c (List.mem_cons_self ..)
        have h1 : (optionsOf c).permissions = (declared Body.permissions c).getD [] := attr_declared ..
        simp only [inForce, make, classOf]
        have h2 : (declared Body.permissions c).getD [] = [] := this.2.2.1
        rw [h1, this.1, h2]
        rfl
      · rintro rfl
        simp only [inForce, make, classOf]
        exact List.append_nil _

end Verif.ControllerOptions
