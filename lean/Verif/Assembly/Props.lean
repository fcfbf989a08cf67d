import Verif.Assembly.Lemmas

/-!
# C114: an application that is assembled step by step is the one that was declared
-/

namespace Verif.Assembly.Props

open Verif Path Router Spec

/-- **C114 (partial).**  Whatever is added and whatever is served in between, a request passes the middlewares, the
exception handlers and the routes that have been declared by then; provided that middlewares and handlers are added
before the first traffic, and that no route is added for the path of a static route which the application was made with
as its only one, with a method that this route does not serve. -/
theorem C114_declared_partial (beh : Nat → Behave) (hb : Decides beh) (plain redirect : Bool) (rs : List Router.Route)
    (ms : List Nat) (t : Table) (ops : List Op) (hs : Settled ops) (c : Ctx) (ha : Apart rs ops c) :
    ((make plain redirect rs ms t).run ops).reply beh c = declared beh redirect rs ms t ops c := by
  obtain ⟨xs, ys, rfl, hx, hy⟩ := hs
  obtain ⟨b0, b1, b2, b3, b4, b5⟩ := before_run (make plain redirect rs ms t) xs rfl hx
  obtain ⟨a0, a1, a2, a3⟩ := after_run ((make plain redirect rs ms t).run xs) ys hy
  rw [← run_append] at a0 a1 a2 a3
  rw [b0] at a0
  rw [b1, List.append_assoc, ← routes_append] at a1
  unfold declared
  rw [middlewares_append xs ys hy, handlers_append t xs ys hy]
  unfold App.reply
  rw [a0, a1, a2, a3]
  have hbuilt : ((make plain redirect rs ms t).run xs).built = (middlewares xs ++ ms, handlers t xs) := by
    unfold App.built
    rw [b4, b2, b3]
    rfl
  rw [hbuilt]
  cases hf : ((make plain redirect rs ms t).run xs).fast with
  | none => rfl
  | some l =>
    rcases b5 with h | ⟨h, hl⟩
    · rw [hf] at h
      cases h
    · rw [hf] at h
      obtain ⟨h1, h2, h3, h4⟩ := compute_some plain rs ms t l h.symm
      subst h1 h3 h4
      have e1 := middlewares_append [] xs hl
      have e2 := handlers_append [] [] xs hl
      rw [List.nil_append] at e1 e2
      have hd : (if getRoutePath c.root c.path = l.tmpl.head then direct beh l c
          else dispatch beh redirect ([.leaf l] ++ routes (xs ++ ys)) c) =
          dispatch beh redirect ([.leaf l] ++ routes (xs ++ ys)) c := by
        split
        · rename_i hp
          exact direct_eq beh hb redirect l _ c h2 hp fun hm hn => ha l rfl hm hn hp
        · rfl
      show (⟨[], [], if getRoutePath c.root c.path = l.tmpl.head then direct beh l c
          else dispatch beh redirect ([.leaf l] ++ routes (xs ++ ys)) c⟩ : Reply) = _
      rw [hd, e1, e2]
      rfl

/-- The only route of the examples: GET (and HEAD) of `/`. -/
def root : Leaf := ⟨1, ⟨"/".toList, []⟩, ["GET".toList, "HEAD".toList]⟩

/-- A request for `/`. -/
def ask (method : Str) : Ctx := ⟨[], "/".toList, method, []⟩

example : Settled [.middleware 5, .route (byVerb "post".toList ⟨"/".toList, []⟩ 2), .other, .request (ask "GET".toList),
    .route (byVerb "get".toList ⟨"/b".toList, []⟩ 3)] := by
  refine ⟨[.middleware 5, .route (byVerb "post".toList ⟨"/".toList, []⟩ 2)], _, rfl, ?_, ?_⟩
  · intro op h
    rcases List.mem_cons.1 h with rfl | h
    · rfl
    · rw [List.mem_singleton.1 h]; rfl
  · intro op h
    rcases List.mem_cons.1 h with rfl | h
    · rfl
    rcases List.mem_cons.1 h with rfl | h
    · rfl
    · rw [List.mem_singleton.1 h]; rfl

/-- **C114**, layers: an application that has any middleware or handler, or is not plain, is what has been declared for
routes on all paths. -/
theorem C114_layered (beh : Nat → Behave) (plain redirect : Bool) (rs : List Router.Route) (ms : List Nat) (t : Table)
    (ops : List Op) (hs : Settled ops) (c : Ctx)
    (hl : plain = false ∨ ms ≠ [] ∨ t ≠ [] ∨ ∃ op ∈ ops, Op.isLayer op = true) :
    ((make plain redirect rs ms t).run ops).reply beh c = declared beh redirect rs ms t ops c := by
  obtain ⟨xs, ys, rfl, hx, hy⟩ := hs
  obtain ⟨b0, b1, b2, b3, b4, b5⟩ := before_run (make plain redirect rs ms t) xs rfl hx
  obtain ⟨a0, a1, a2, a3⟩ := after_run ((make plain redirect rs ms t).run xs) ys hy
  rw [← run_append] at a0 a1 a2 a3
  rw [b0] at a0
  rw [b1, List.append_assoc, ← routes_append] at a1
  have hf : ((make plain redirect rs ms t).run xs).fast = none := by
    rcases b5 with h | ⟨h, hn⟩
    · exact h
    · rw [h]
      show compute plain rs ms t = none
      unfold compute
      rw [if_neg]
      rintro ⟨h1, h2, h3⟩
      rcases hl with h | h | h | ⟨op, hop, h⟩
      · rw [h] at h1; cases h1
      · exact h h2
      · exact h h3
      · rcases List.mem_append.1 hop with g | g
        · rw [hn op g] at h; cases h
        · rw [hy op g] at h; cases h
  unfold declared
  rw [middlewares_append xs ys hy, handlers_append t xs ys hy]
  unfold App.reply
  rw [a0, a1, a2, a3, hf]
  unfold App.built
  rw [b4, b2, b3]
  rfl

/-- **C114**, a middleware that is added after the first traffic is refused, and nothing changes; unless the traffic
went
over the fast path. -/
theorem C114_refused (a : App) (m : Nat) (c : Ctx) (hf : a.fast = none) :
    ((a.step (.request c)).1.step (.middleware m)).2 = false ∧
    ((a.step .other).1.step (.middleware m)).2 = false ∧
    ((a.step .other).1.step (.middleware m)).1 = (a.step .other).1 := by
  refine ⟨?_, rfl, rfl⟩
  have : (a.step (.request c)).1 = { a with stack := some a.built } := by
    unfold App.step
    rw [hf]
    rfl
  rw [this]
  rfl

/-- **C114**, everything else is accepted at any time: routes, exception handlers, requests and other traffic; and a
middleware as long as there is no stack. -/
theorem C114_accepted (a : App) :
    (∀ op, (∀ m, op ≠ .middleware m) → (a.step op).2 = true) ∧
    ∀ m, a.stack = none → (a.step (.middleware m)).2 = true ∧ (a.step (.middleware m)).1.middleware = m :: a.middleware
      := by
  constructor
  · intro op h
    cases op with
    | middleware m => exact absurd rfl (h m)
    | _ => rfl
  · intro m h
    unfold App.step
    dsimp only
    rw [h]
    exact ⟨rfl, rfl⟩

example : (make false true [.leaf root] [] []).stack = none := rfl

/-- **C114**, the fast path runs the handler or answers 405; a handler that returns nothing gives nothing, and what it
raises leaves the application, `ContinueRouting` too. -/
theorem C114_direct (beh : Nat → Behave) (a : App) (l : Leaf) (c : Ctx) (hf : a.fast = some l)
    (hp : getRoutePath c.root c.path = l.tmpl.head) (hm : Router.Spec.accepts l c.method = true) :
    (beh l.id = .respond → (a.reply beh c).out = .ran l.id c.params) ∧
    (beh l.id = .silent → (a.reply beh c).out = .nothing) ∧
    (beh l.id = .decline ∨ beh l.id = .raise → (a.reply beh c).out = .raised (some l.id)) := by
  have hr : (a.reply beh c).out = direct beh l c := by
    unfold App.reply
    rw [hf]
    exact if_pos hp
  have hn : ¬ (l.methods ≠ [] ∧ c.method ∉ l.methods) := by
    intro ⟨h1, h2⟩
    simp [Router.Spec.accepts, h1, h2] at hm
  rw [hr]
  unfold direct
  rw [if_neg hn]
  refine ⟨fun h => by rw [h], fun h => by rw [h], fun h => ?_⟩
  rcases h with h | h <;> rw [h]

example : (make true true [.leaf root] [] []).fast = some root ∧
    getRoutePath (ask "GET".toList).root (ask "GET".toList).path = root.tmpl.head ∧
    Router.Spec.accepts root "GET".toList = true := by decide

/-- **C114 is false** for a route with another method, added to an application which was made with one static route: the
fast path, chosen when the application was made, answers 405 for ever. -/
theorem C114_method_false (beh : Nat → Behave) (redirect : Bool) (hb : beh 2 = .respond) (more : List Op)
    (hm : ∀ op ∈ more, Op.isLayer op = false) :
    let ops := .route (byVerb "post".toList ⟨"/".toList, []⟩ 2) :: more
    (((make true redirect [.leaf root] [] []).run ops).reply beh (ask "POST".toList)).out =
      .notAllowed 1 ["GET".toList, "HEAD".toList] ∧
    (declared beh redirect [.leaf root] [] [] ops (ask "POST".toList)).out = .ran 2 [] := by
  intro ops
  have ho : ∀ op ∈ ops, Op.isLayer op = false := by
    intro op h
    rcases List.mem_cons.1 h with rfl | h
    · rfl
    · exact hm op h
  obtain ⟨-, -, a2, -⟩ := after_run (make true redirect [.leaf root] [] []) ops ho
  constructor
  · unfold App.reply
    rw [a2]
    have : (make true redirect [Router.Route.leaf root] [] []).fast = some root :=
      (by decide : compute true [.leaf root] [] [] = some root)
    rw [this]
    dsimp only
    rw [if_pos (by decide)]
    unfold direct
    rw [if_pos (by decide)]
    rfl
  · show dispatch beh redirect ([.leaf root] ++ (byVerb "post".toList ⟨"/".toList, []⟩ 2 :: routes more))
      (ask "POST".toList) = _
    show dispatchSlow beh redirect (.leaf root :: byVerb "post".toList ⟨"/".toList, []⟩ 2 :: routes more)
      (ask "POST".toList) = _
    have h1 : Leaf.search root (ask "POST".toList) = .partial_ [] := by decide
    have h2 : Leaf.search ⟨2, ⟨"/".toList, []⟩, methodsOf true (some ["post".toList])⟩ (ask "POST".toList) =
      .full [] := by decide
    unfold dispatchSlow byVerb
    rw [runRoutes, runRoute, h1]
    simp only
    rw [runRoutes, runRoute]
    have h2' : Leaf.search ⟨2, ⟨"/".toList, []⟩, methodsOf true (some ["post".toList])⟩
      { ask "POST".toList with params := (ask "POST".toList).params } = .full [] := h2
    simp only [h2', hb]

/-- **C114 is false** for an exception handler that is added after the first traffic: it is accepted, and never used. -/
theorem C114_handler_false (beh : Nat → Behave) (a : App) (hf : a.fast = none) (c d : Ctx) (k : Key) (h : Nat) :
    ((a.step (.request c)).1.step (.handler k h)).2 = true ∧
    ((a.step (.request c)).1.step (.handler k h)).1.reply beh d = (a.step (.request c)).1.reply beh d := by
  have : (a.step (.request c)).1 = { a with stack := some a.built } := by
    unfold App.step
    rw [hf]
    rfl
  rw [this]
  refine ⟨rfl, ?_⟩
  unfold App.reply
  rw [show ({ a with stack := some a.built } : App).fast = none from hf]
  rfl

example : (make false true [.leaf root] [] []).fast = none := by decide

/-- **C114 is false** for middlewares as documented, which cannot be added once the application has started: an
application on the fast path takes them between requests. -/
theorem C114_started_false (redirect : Bool) (c : Ctx) (m : Nat) :
    let a := make true redirect [.leaf root] [] []
    ((a.step (.request c)).1.step (.middleware m)).2 = true ∧
      ((a.step (.request c)).1.step (.middleware m)).1.middleware = [m] := by
  have : (make true redirect [Router.Route.leaf root] [] []).fast = some root :=
    (by decide : compute true [.leaf root] [] [] = some root)
  unfold App.step
  dsimp only
  rw [this]
  exact ⟨rfl, rfl⟩

/-! ## Methods -/

/-- **C114**, decorators: a route declared with a list of methods serves these, in any case, and HEAD where it serves
GET; nothing else, unless the list is empty. -/
theorem C114_methods_partial (isFunction : Bool) (ms : List Str) (hne : ms ≠ []) (id : Nat) (t : Tmpl) (m : Str) :
    Router.Spec.accepts ⟨id, t, methodsOf isFunction (some ms)⟩ m = true ↔
      m ∈ ms.map upper ∨ (m = "HEAD".toList ∧ "GET".toList ∈ ms.map upper) := by
  have hn : ms.map upper ≠ [] := by simpa using hne
  have hacc : ∀ l : Leaf, Router.Spec.accepts l m = true ↔ l.methods = [] ∨ m ∈ l.methods := by
    intro l
    simp [Router.Spec.accepts]
  rw [hacc]
  by_cases h : "GET".toList ∈ ms.map upper
  · have e : methodsOf isFunction (some ms) = ms.map upper ++ ["HEAD".toList] := if_pos h
    rw [e, List.mem_append, List.mem_singleton]
    constructor
    · rintro (x | x | x)
      · simp at x
      · exact .inl x
      · exact .inr ⟨x, h⟩
    · rintro (x | x)
      · exact .inr (.inl x)
      · exact .inr (.inr x.1)
  · have e : methodsOf isFunction (some ms) = ms.map upper := if_neg h
    rw [e]
    constructor
    · rintro (x | x)
      · exact absurd x hn
      · exact .inl x
    · rintro (x | x)
      · exact .inr x
      · exact absurd x.2 h

/-- **C114**, without a list of methods: a function serves GET and HEAD. -/
theorem C114_default (id : Nat) (t : Tmpl) (m : Str) :
    Router.Spec.accepts ⟨id, t, methodsOf true none⟩ m = true ↔ m = "GET".toList ∨ m = "HEAD".toList := by
  simp [Router.Spec.accepts, methodsOf]

/-- **C114**, the verb of a decorator. -/
theorem C114_verb (verb : Str) (t : Tmpl) (id : Nat) (m : Str) :
    ∃ l, byVerb verb t id = .leaf l ∧ l.id = id ∧ l.tmpl = t ∧
      (Router.Spec.accepts l m = true ↔ m = upper verb ∨ (m = "HEAD".toList ∧ upper verb = "GET".toList)) := by
  refine ⟨_, rfl, rfl, rfl, ?_⟩
  rw [C114_methods_partial true [verb] (by simp) id t m]
  simp only [List.map_cons, List.map_nil, List.mem_singleton]
  exact ⟨fun x => x.elim .inl fun y => .inr ⟨y.1, y.2.symm⟩, fun x => x.elim .inl fun y => .inr ⟨y.1, y.2.symm⟩⟩

/-- **C114 is false** for an empty list of methods, with which a route serves every method. -/
theorem C114_empty_false (isFunction : Bool) (id : Nat) (t : Tmpl) (m : Str) :
    Router.Spec.accepts ⟨id, t, methodsOf isFunction (some [])⟩ m = true := rfl

end Verif.Assembly.Props
