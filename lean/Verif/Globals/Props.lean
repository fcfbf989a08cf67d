import Verif.Globals.Refine

/-!
# C85: `g` belongs to its request

What is stored in `g` is there for all functions of the request, is seen by no other request, however
the requests are interleaved, and is gone afterwards.
-/

namespace Verif.Globals

open Verif Spec

theorem start_all (P : Ref → Prop) : All P start := ⟨(fun _ h => by cases h), (fun _ h => by cases h)⟩

/-- The name `user`. -/
def exKey : Str := "user".toList

/-- Two requests, one of which has two functions in the thread pool, in turns. -/
def exTurns : List (Nat × Op) :=
  [(1, .app none), (2, .app none), (1, .put exKey 7), (2, .show), (1, .thread), (2, .put exKey 8), (1, .get exKey),
    (1, .leave), (2, .leave), (1, .show), (1, .leave)]

/-- **C85, isolation.**  What a request is told about `g` does not depend on what other requests do, or
on when they do it. -/
theorem C85_isolation (h : Heap) (i : Nat) (l l' : List (Nat × Op)) (e : ofTask i l = ofTask i l')
    (hp : ∀ op ∈ ofTask i l, Private op) :
    told i (run h (fun _ => start) l) = told i (run h (fun _ => start) l') := by
  rw [alone i l h h (fun _ => start) hp (Agree.refl _ _) (start_all _) (fun _ _ => start_all _),
    alone i l' h h (fun _ => start) (e ▸ hp) (Agree.refl _ _) (start_all _) (fun _ _ => start_all _), e]

example : (∀ op ∈ ofTask 1 exTurns, Private op) ∧
    told 1 (run (fun _ => []) (fun _ => start) exTurns) =
      [.done, .done, .done, .value 7, .done, .store [(exKey, 7)], .done] := by
  refine ⟨?_, by decide +kernel⟩
  have : ofTask 1 exTurns = [.app none, .put exKey 7, .thread, .get exKey, .leave, .show, .leave] := by decide +kernel
  rw [this]
  intro op hop
  simp only [List.mem_cons, List.not_mem_nil, or_false] at hop
  rcases hop with rfl | rfl | rfl | rfl | rfl | rfl | rfl <;> trivial

/-- **C85 (partial), one store for the request.**  Among all other requests, a request is told what a
stack of stores says, one for each application and middleware that it is in.

The full statement is for all acts.  Missing: functions in the thread pool that are the first to use
`g` (`C85_thread_false`), first contents that are kept (`C85_shared_false`), that come from a copy of the
proxy (`C85_copy_false`) or, in an application, from outside (`C85_parent_false`), and some names
(`C85_name_false`). -/
theorem C85_request_partial (h : Heap) (i : Nat) (l : List (Nat × Op)) (hp : ∀ op ∈ ofTask i l, Plain op)
    (hs : Settled [] (ofTask i l)) :
    told i (run h (fun _ => start) l) = view [] (ofTask i l) := by
  rw [alone i l h h (fun _ => start) (fun op ho => plain_private (hp op ho)) (Agree.refl _ _) (start_all _)
    (fun _ _ => start_all _)]
  exact runTask_view i _ h start [] [] hp hs .nil .nil

example : (∀ op ∈ ofTask 1 exTurns, Plain op) ∧ Settled [] (ofTask 1 exTurns) := by
  have : ofTask 1 exTurns = [.app none, .put exKey 7, .thread, .get exKey, .leave, .show, .leave] := by decide +kernel
  rw [this]
  constructor
  · intro op hop
    simp only [List.mem_cons, List.not_mem_nil, or_false] at hop
    rcases hop with rfl | rfl | rfl | rfl | rfl | rfl | rfl <;> first
      | trivial
      | (show _ ∧ _ ∧ _ ∧ _; decide +kernel)
  · exact ⟨rfl, trivial⟩

/-- **C85 (partial), with first contents.**  Where every application has them, functions in the thread
pool are no exception. -/
theorem C85_eager_partial (h : Heap) (i : Nat) (l : List (Nat × Op)) (hp : ∀ op ∈ ofTask i l, Plain op)
    (hn : ∀ op ∈ ofTask i l, op ≠ .app none) :
    told i (run h (fun _ => start) l) = view [] (ofTask i l) :=
  C85_request_partial h i l hp (settled_eager _ [] (fun _ hb => by cases hb) hn)

example : told 1 (run (fun _ => []) (fun _ => start)
      [(1, .app (some (.fresh []))), (1, .thread), (1, .put exKey 7), (1, .leave), (1, .get exKey)]) =
    [.done, .done, .done, .done, .value 7] := by decide +kernel

/-- **C85, the end.**  After a request, whatever it did and however it ended, `g` is out of reach. -/
theorem C85_closed (h : Heap) (i : Nat) (l : List (Nat × Op)) (p : Option Source) (body : List Op)
    (hb : Balanced body) (op : Op) (hu : Uses op = true) (hl : ofTask i l = .app p :: body ++ [.leave, op])
    (hp : ∀ o ∈ ofTask i l, Private o) :
    (told i (run h (fun _ => start) l)).getLast? = some .lookupError := by
  rw [alone i l h h (fun _ => start) hp (Agree.refl _ _) (start_all _) (fun _ _ => start_all _), hl]
  have hbal : Balanced (.app p :: body ++ .leave :: []) :=
    .enter rfl (fun e => by cases e) hb .nil
  rw [show Op.app p :: body ++ [.leave, op] = (Op.app p :: body ++ .leave :: []) ++ [op] by simp, runTask_append]
  have hback := balanced_back hbal i h start
  generalize after i h start (Op.app p :: body ++ .leave :: []) = x at hback
  have hc : x.2.cur = .unset := by
    rcases hback.2 with e | ⟨e, -⟩
    · exact e
    · cases e
  have hf : force i x.1 x.2 = none := by unfold force; rw [hc]
  have huse : ∀ f, (use i x.1 x.2 f).2.2 = .lookupError := by intro f; unfold use; rw [hf]
  have : (act i x.1 x.2 op).2.2 = .lookupError := by
    cases op with
    | app p => cases hu
    | layer p => cases hu
    | thread => cases hu
    | leave => cases hu
    | put k v => exact huse _
    | get k => exact huse _
    | del k => exact huse _
    | clear => exact huse _
    | «show» => exact huse _
  rw [show runTask i x.1 x.2 [op] = [(act i x.1 x.2 op).2.2] by rfl, this, List.getLast?_concat]

example : Balanced [.put exKey 7, .thread, .get exKey, .leave] :=
  .use rfl (.enter (body := [.get exKey]) (ops := []) rfl (fun e => by cases e) (.use rfl .nil) .nil)

/-- **C85 is false of the thread pool.**  What a function that is not `async` (a handler, a dependency,
`before_request`) stores in `g` is lost if nothing has used `g` before it. -/
theorem C85_thread_false (h : Heap) (i : Nat) (k : Str) (v : Nat) (hk : k ∉ members) :
    told i (run h (fun _ => start) ([.app none, .thread, .put k v, .leave, .get k].map fun op => (i, op))) =
      [.done, .done, .done, .done, .attributeError] ∧
    view [] [.app none, .thread, .put k v, .leave, .get k] = [.done, .done, .done, .done, .value v] := by
  constructor
  · have hof : ofTask i ([.app none, .thread, .put k v, .leave, .get k].map fun op => (i, op)) =
        [.app none, .thread, .put k v, .leave, .get k] := by simp [ofTask]
    rw [alone i _ h h (fun _ => start) (by rw [hof]; simp [Private]) (Agree.refl _ _) (start_all _)
      (fun _ _ => start_all _), hof]
    simp [runTask, act, enterApp, use, force, alloc, start, reset, doPut, doGet, Heap.set, hk, aget]
  · simp [view, step, first, change, top, aset, aget]

example : exKey ∉ members := by decide +kernel

/-- **C85 is false of first contents that are kept.**  If `populate_global_context` returns the same
dictionary each time, a request sees what an earlier one stored. -/
theorem C85_shared_false (h : Heap) (n : Nat) (k : Str) (v : Nat) (hk : k ∉ members) :
    told 2 (run h (fun _ => start) [(1, .app (some (.shared n))), (1, .put k v), (1, .leave),
      (2, .app (some (.shared n))), (2, .get k)]) = [.done, .value v] := by
  have haget : aget (aset (h (.shared n)) k v) k = some v := aget_aset_self ..
  simp [told, run, act, enterApp, eval, use, force, start, reset, doPut, doGet, Heap.set, hk, haget]

/-- **C85 is false of copies of the proxy.**  `copy.copy(g)` is no copy: with
`populate_context=lambda _: copy.copy(g).store`, what is stored inside is stored outside. -/
theorem C85_copy_false (h : Heap) (i : Nat) (k : Str) (v w : Nat) (hk : k ∉ members) :
    told i (run h (fun _ => start) ([.app none, .put k v, .layer (some .alias), .put k w, .leave, .get k].map
      fun op => (i, op))) = [.done, .done, .done, .done, .done, .value w] ∧
    view [] [.app none, .put k v, .layer (some .alias), .put k w, .leave, .get k] =
      [.done, .done, .done, .done, .done, .value v] := by
  constructor
  · have hof : ofTask i ([.app none, .put k v, .layer (some .alias), .put k w, .leave, .get k].map
        fun op => (i, op)) = [.app none, .put k v, .layer (some .alias), .put k w, .leave, .get k] := by simp [ofTask]
    rw [alone i _ h h (fun _ => start) (by rw [hof]; simp [Private]) (Agree.refl _ _) (start_all _)
      (fun _ _ => start_all _), hof]
    simp [runTask, act, enterApp, enterLayer, eval, use, force, alloc, start, reset, doPut, doGet, Heap.set, hk,
      aset, aget]
  · simp [view, step, first, change, top, aset, aget]

/-- **C85 is false of the store outside an application.**  The documentation says that
`populate_global_context` can copy values from a parent `g`; it cannot reach it. -/
theorem C85_parent_false (h : Heap) (i : Nat) (k : Str) (v : Nat) (hk : k ∉ members) :
    told i (run h (fun _ => start) ([.app none, .put k v, .app (some .copied), .get k].map fun op => (i, op))) =
      [.done, .done, .done, .attributeError] ∧
    view [] [.app none, .put k v, .app (some .copied), .get k] = [.done, .done, .done, .value v] := by
  constructor
  · have hof : ofTask i ([.app none, .put k v, .app (some .copied), .get k].map fun op => (i, op)) =
        [.app none, .put k v, .app (some .copied), .get k] := by simp [ofTask]
    rw [alone i _ h h (fun _ => start) (by rw [hof]; simp [Private]) (Agree.refl _ _) (start_all _)
      (fun _ _ => start_all _), hof]
    simp [runTask, act, enterApp, eval, use, force, alloc, start, doPut, doGet, Heap.set, hk, aget]
  · simp [view, step, first, change, top, aset, aget]

/-- **C85 is false of some names.**  `g.copy = 1` is stored, but `g.copy` is a method. -/
theorem C85_name_false (h : Heap) (i : Nat) (v : Nat) :
    ["_context".toList, "store".toList, "copy".toList, "clear".toList].map (fun k =>
      told i (run h (fun _ => start) [(i, .app none), (i, .put k v), (i, .get k)])) =
      List.replicate 4 [.done, .done, .member] := by
  have key : ∀ k ∈ members, told i (run h (fun _ => start) [(i, .app none), (i, .put k v), (i, .get k)]) =
      [.done, .done, .member] := by
    intro k hk
    simp [told, run, act, enterApp, use, force, alloc, start, doPut, doGet, Heap.set, hk]
  show members.map _ = _
  rw [List.map_congr_left key]
  rfl

/-- **C85 (partial), requests and sockets.**  A Lilya application gives both of them a `g`. -/
theorem C85_types_partial (h : Heap) (i : Nat) (type : Str) (ht : type = "http".toList ∨ type = "websocket".toList)
    (p : Option Source) (body : List Op)
    (hp : ∀ op ∈ (Op.app p :: body ++ [.leave]), Plain op) (hs : Settled [] (.app p :: body ++ [.leave])) :
    told i (run h (fun _ => start) ((lilya type p body).map fun op => (i, op))) =
      view [] (.app p :: body ++ [.leave]) := by
  have hof : ∀ ops : List Op, ofTask i (ops.map fun op => (i, op)) = ops := by
    intro ops
    induction ops with
    | nil => rfl
    | cons op ops ih =>
      unfold ofTask at ih ⊢
      rw [List.map_cons, List.filter_cons_of_pos (by simp), List.map_cons, ih]
  have hl : lilya type p body = .app p :: body ++ [.leave] := if_pos ht
  have := C85_request_partial h i ((lilya type p body).map fun op => (i, op)) (by rw [hof, hl]; exact hp)
    (by rw [hof, hl]; exact hs)
  rw [this, hof, hl]

/-- **C85 is false of lifespans.**  The documentation says that `g` can be used in them because Lilya
comes with `LifespanGlobalContextMiddleware` activated; nothing activates it, and `g` raises. -/
theorem C85_lifespan_false (h : Heap) (i : Nat) (p : Option Source) (k : Str) (v : Nat) :
    told i (run h (fun _ => start) ((lilya "lifespan".toList p [.put k v]).map fun op => (i, op))) =
      [.lookupError] := by
  have : lilya "lifespan".toList p [.put k v] = [.put k v] := if_neg (by decide)
  rw [this]
  simp [told, run, act, use, force, start]

/-- **C85, lifespans with the middleware.**  Behind `LifespanGlobalContextMiddleware` or
`GlobalContextMiddleware`, `g` is there for the lifespan. -/
theorem C85_lifespan (h : Heap) (i : Nat) (p : Option Source) (body : List Op) (hp : ∀ op ∈ body, Plain op)
    (hn : ∀ op ∈ body, op ≠ .app none) :
    told i (run h (fun _ => start) ((lifespanContext "lifespan".toList body).map fun op => (i, op))) =
      view [] (.layer none :: body ++ [.leave]) ∧
    told i (run h (fun _ => start) ((globalContext "lifespan".toList p body).map fun op => (i, op))) =
      view [] (.layer none :: body ++ [.leave]) := by
  have h1 : lifespanContext "lifespan".toList body = .layer none :: body ++ [.leave] := if_pos rfl
  have h2 : globalContext "lifespan".toList p body = .layer none :: body ++ [.leave] := by
    unfold globalContext
    rw [if_neg (by decide), if_pos rfl]
  have hof : ∀ ops : List Op, ofTask i (ops.map fun op => (i, op)) = ops := by
    intro ops
    induction ops with
    | nil => rfl
    | cons op ops ih =>
      unfold ofTask at ih ⊢
      rw [List.map_cons, List.filter_cons_of_pos (by simp), List.map_cons, ih]
  have key : told i (run h (fun _ => start) ((Op.layer none :: body ++ [Op.leave]).map fun op => (i, op))) =
      view [] (.layer none :: body ++ [.leave]) := by
    have := C85_eager_partial h i ((Op.layer none :: body ++ [Op.leave]).map fun op => (i, op)) (by
      rw [hof]
      intro op hop
      rcases List.mem_append.1 hop with e | e
      · rcases List.mem_cons.1 e with e | e
        · subst e; trivial
        · exact hp op e
      · rw [List.mem_singleton.1 e]; trivial) (by
      rw [hof]
      intro op hop
      rcases List.mem_append.1 hop with e | e
      · rcases List.mem_cons.1 e with e | e
        · subst e; intro e; cases e
        · exact hn op e
      · rw [List.mem_singleton.1 e]; intro e; cases e)
    rw [hof] at this
    exact this
  rw [h1, h2]
  exact ⟨key, key⟩

example : (∀ op ∈ [Op.put exKey 1, .show], Plain op) ∧
    view [] [.layer none, .put exKey 1, .show, .leave] = [.done, .done, .store [(exKey, 1)], .done] := by
  refine ⟨?_, by decide +kernel⟩
  intro op hop
  simp only [List.mem_cons, List.not_mem_nil, or_false] at hop
  rcases hop with rfl | rfl <;> trivial

/-- **C85, requests with the middleware.**  Behind `GlobalContextMiddleware` a request and a socket have a `g`. -/
theorem C85_middleware (h : Heap) (i : Nat) (type : Str) (ht : type = "http".toList ∨ type = "websocket".toList)
    (p : Option Source) (body : List Op) (hp : ∀ op ∈ (Op.layer p :: body ++ [.leave]), Plain op)
    (hs : Settled [] (.layer p :: body ++ [.leave])) :
    told i (run h (fun _ => start) ((globalContext type p body).map fun op => (i, op))) =
      view [] (.layer p :: body ++ [.leave]) := by
  have hof : ∀ ops : List Op, ofTask i (ops.map fun op => (i, op)) = ops := by
    intro ops
    induction ops with
    | nil => rfl
    | cons op ops ih =>
      unfold ofTask at ih ⊢
      rw [List.map_cons, List.filter_cons_of_pos (by simp), List.map_cons, ih]
  have hl : globalContext type p body = .layer p :: body ++ [.leave] := if_pos ht
  have := C85_request_partial h i ((globalContext type p body).map fun op => (i, op)) (by rw [hof, hl]; exact hp)
    (by rw [hof, hl]; exact hs)
  rw [this, hof, hl]

example : (∀ op ∈ (Op.layer none :: [Op.put exKey 1] ++ [.leave]), Plain op) ∧
    Settled [] (.layer none :: [Op.put exKey 1] ++ [.leave]) := by
  have hp : ∀ op ∈ (Op.layer none :: [Op.put exKey 1] ++ [.leave]), Plain op := by
    intro op hop
    simp only [List.cons_append, List.nil_append, List.mem_cons, List.not_mem_nil, or_false] at hop
    rcases hop with rfl | rfl | rfl <;> trivial
  refine ⟨hp, settled_eager _ [] (fun _ hb => by cases hb) ?_⟩
  intro op hop
  simp only [List.cons_append, List.nil_append, List.mem_cons, List.not_mem_nil, or_false] at hop
  rcases hop with rfl | rfl | rfl <;> exact fun e => nomatch e


end Verif.Globals
