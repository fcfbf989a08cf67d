import Verif.ControllerState.Lemmas

/-!
# C71: requests to one controller do not disturb each other

However the serving of several requests to a controller is interleaved, every handler is called with
the arguments it declares.
-/

namespace Verif.ControllerState

open Spec

/-- `async def post(self, request, item)`, where `item` comes from the body. -/
def exPost : Req := ⟨1, ⟨["item".toList], [], true⟩⟩
/-- `async def get(self, page=Query(…))`. -/
def exGet : Req := ⟨2, ⟨[], ["page".toList], false⟩⟩
/-- The first request posts, the others read. -/
def exReqs (n : Nat) : Req := if n = 0 then exPost else exGet

/-- **C71 (partial), an instance per request.**  On a route without permissions and middlewares, and
on every route to a class made by `with_init`, each handler is called with the arguments it declares,
in every interleaving.

The full statement is the same for every route.  Missing: routes with layers, where it holds for
handlers with equal signatures (`C71_same_partial`) and for requests that do not overlap
(`C71_apart_partial`) and is false in general (`C71_false`). -/
theorem C71_own_partial (route : Route) (hr : route.layers = 0 ∨ route.init = true)
    (reqs : Nat → Req) (acts : List Act) : Undisturbed reqs (run route reqs acts) := by
  refine (foldl_inv ?_ acts start (Inv.at_start route reqs)).done
  intro s r hi
  apply hi.enter_step
  intro h q hq e
  rw [instFor_own hr, instFor_own hr] at e
  injection e with e
  rw [e]

example : (⟨0, false⟩ : Route).layers = 0 ∧
    (run ⟨0, false⟩ exReqs [.enter 0, .enter 1, .leave 1, .leave 0]).phase 0 =
      .done 1 ["item".toList, "request".toList] :=
  ⟨rfl, by decide +kernel⟩

/-- **C71 (partial), equal signatures.**  If all requests lead to handlers with the same signature,
the property holds on every route. -/
theorem C71_same_partial (route : Route) (reqs : Nat → Req) (hs : ∀ q r, (reqs q).sig = (reqs r).sig)
    (acts : List Act) : Undisturbed reqs (run route reqs acts) := by
  refine (foldl_inv ?_ acts start (Inv.at_start route reqs)).done
  intro s r hi
  exact hi.enter_step r (fun _ q _ _ => hs q r)

/-- Every request posts. -/
def exPosts (_ : Nat) : Req := exPost

example : (∀ q r, (exPosts q).sig = (exPosts r).sig) ∧
    (run ⟨1, false⟩ exPosts [.enter 0, .enter 1, .leave 1, .leave 0]).phase 0 =
      .done 1 ["item".toList, "request".toList] :=
  ⟨fun _ _ => rfl, by decide +kernel⟩

/-- **C71 (partial), one by one.**  Requests that are served one after the other do not disturb each
other on any route, and all of them are served. -/
theorem C71_apart_partial (route : Route) (reqs : Nat → Req) (order : List Nat) :
    Undisturbed reqs (run route reqs (oneByOne order)) ∧
      ∀ r ∈ order, (run route reqs (oneByOne order)).phase r =
        .done (reqs r).handler (declared (reqs r).sig) := by
  have key : ∀ (order : List Nat) (s : State), Inv route reqs s → (∀ q, s.phase q ≠ .waiting) →
      Inv route reqs ((oneByOne order).foldl (step route reqs) s) ∧
      (∀ r h a, s.phase r = .done h a →
        ((oneByOne order).foldl (step route reqs) s).phase r = .done h a) ∧
      ∀ r ∈ order, ∃ h a, ((oneByOne order).foldl (step route reqs) s).phase r = .done h a := by
    intro order
    induction order with
    | nil => intro s hi _; exact ⟨hi, fun _ _ _ h => h, fun _ h => absurd h List.not_mem_nil⟩
    | cons r rest ih =>
      intro s hi hq
      have h1 : Inv route reqs (step route reqs s (.enter r)) :=
        hi.enter_step r (fun _ q hw _ => absurd hw (hq q))
      have hkeep : ∀ q h a, s.phase q = .done h a →
          (step route reqs (step route reqs s (.enter r)) (.leave r)).phase q = .done h a := by
        intro q h a hd
        by_cases hr : s.phase r = .idle
        · have hne : q ≠ r := by rintro rfl; rw [hr] at hd; cases hd
          rw [enter_idle route reqs s r hr]
          simp only [step, leave, if_true, if_neg hne]
          exact hd
        · rw [enter_busy route reqs s r hr]
          show (leave route reqs s r).phase q = .done h a
          unfold leave
          split
          · rename_i hw _; exact absurd hw (hq r)
          · exact hd
      have hdone : ∃ h a,
          (step route reqs (step route reqs s (.enter r)) (.leave r)).phase r = .done h a := by
        cases hr : s.phase r with
        | idle =>
          rw [enter_idle route reqs s r hr]
          simp only [step, leave, if_true]
          exact ⟨_, _, rfl⟩
        | waiting => exact absurd hr (hq r)
        | done h a => exact ⟨h, a, hkeep r h a hr⟩
      obtain ⟨a1, a2, a3⟩ := ih _ (h1.leave_step r) (leave_quiet r hq)
      have e : oneByOne (r :: rest) = .enter r :: .leave r :: oneByOne rest := rfl
      rw [e, List.foldl_cons, List.foldl_cons]
      refine ⟨a1, fun q h a hd => a2 q h a (hkeep q h a hd), ?_⟩
      intro q hq'
      rcases List.mem_cons.1 hq' with rfl | hq'
      · obtain ⟨h, a, hd⟩ := hdone
        exact ⟨h, a, a2 _ h a hd⟩
      · exact a3 q hq'
  obtain ⟨hi, _, hd⟩ := key order start (Inv.at_start route reqs) (fun _ h => (by cases h))
  refine ⟨hi.done, ?_⟩
  intro r hr
  obtain ⟨h, a, e⟩ := hd r hr
  obtain ⟨e1, e2⟩ := hi.done r h a e
  subst e1; subst e2
  exact e

example : (run ⟨1, false⟩ exReqs (oneByOne [0, 1])).phase 1 = .done 2 ["page".toList] ∧
    (run ⟨1, false⟩ exReqs (oneByOne [0, 1])).phase 0 = .done 1 ["item".toList, "request".toList] :=
  ⟨by decide +kernel, by decide +kernel⟩

/-- **C71 is false in general.**  A controller with a permission serves a `POST` that waits for its
body; a `GET` comes in between.  The handler for `POST` is then called without its `request` and with
the query parameter `page` of the other handler, which is a `TypeError`. -/
theorem C71_false :
    ∃ (route : Route) (reqs : Nat → Req) (acts : List Act),
      (run route reqs acts).phase 0 = .done 1 ["item".toList, "page".toList] ∧
      declared (reqs 0).sig = ["item".toList, "request".toList] ∧
      ¬ Undisturbed reqs (run route reqs acts) := by
  refine ⟨⟨1, false⟩, exReqs, [.enter 0, .enter 1, .leave 1, .leave 0], by decide +kernel,
    by decide +kernel, ?_⟩
  intro h
  have := (h 0 1 ["item".toList, "page".toList] (by decide +kernel)).2
  revert this
  decide +kernel

end Verif.ControllerState
