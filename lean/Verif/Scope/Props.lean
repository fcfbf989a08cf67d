import Verif.Scope.Lemmas

/-!
# Property C17
-/

namespace Verif.Scope

open Verif Spec

/-- C17.  Whatever an isolated application (of any kind) does to its scope: at each message it sends
and at its end, the scope of its caller holds what it held before, except for the reported
fields. -/
theorem C17_no_leak (app : App) (h : Heap) (s : Scope) (k : Str) (hk : ¬ Reported k) :
    (∀ x ∈ (iso app h s).sends, Same x s k) ∧ Same (iso app h s).final s k := by
  obtain ⟨h1, h2⟩ := onSends_other false s (app (copy h s).1 (copy h s).2).sends k hk
  refine ⟨h1, ?_⟩
  show aget (sync _ _) k = aget s k
  rw [sync_other _ _ _ hk]
  exact h2

/-- The same for every stack of at least one middleware around any application. -/
theorem C17_stack_no_leak (app : App) (m : Prog) (ms : List Prog) (h : Heap) (s : Scope) (k : Str)
    (hk : ¬ Reported k) :
    (∀ x ∈ (stack app (m :: ms) h s).sends, Same x s k) ∧ Same (stack app (m :: ms) h s).final s k := by
  rw [stack_cons]
  exact C17_no_leak _ h s k hk

/-- Inside the stack too: what a middleware sees of its own scope when the application it wraps returns
is what it had, except for the reported fields and what its own send function wrote. -/
theorem C17_layer_no_leak (child : App) (h : Heap) (s : Scope) (k : Str) (hk : ¬ Reported k)
    (p : Prog) (hp : ∀ kv ∈ p.onSend, kv.1 ≠ k) :
    Same (callIsolated p.sendFn child h s).final s k := by
  have hf : ∀ s, aget (p.sendFn s) k = aget s k := by
    intro s
    unfold Prog.sendFn
    generalize p.onSend = kvs at hp
    induction kvs generalizing s with
    | nil => rfl
    | cons kv kvs ih =>
      rw [List.foldl_cons, ih _ (fun x hx => hp x (by simp [hx])),
        aget_aset_ne _ _ _ _ (fun e => hp kv (by simp) e.symm)]
  have key : ∀ (xs : List Scope) (b : Bool) (s : Scope), aget (onSends p.sendFn b s xs).2 k = aget s k := by
    intro xs
    induction xs with
    | nil => intro b s; rfl
    | cons x xs ih =>
      intro b s
      simp only [onSends]
      rw [ih, hf]
      cases b with
      | true => rfl
      | false => exact sync_other x s k hk
  show aget (sync _ _) k = aget s k
  rw [sync_other _ _ _ hk, key]

/-- What the send function of a middleware writes into its scope stays there: when the application it
wraps sends something, the middleware afterwards holds the value its send function gives last. -/
theorem C17_send_writes (child : App) (h : Heap) (s : Scope) (k v : Str) (hk : ¬ Reported k)
    (p : Prog) (pre post : List (Str × Str)) (hp : p.onSend = pre ++ (k, v) :: post)
    (hl : ∀ kv ∈ post, kv.1 ≠ k) (hs : (child (copy h s).1 (copy h s).2).sends ≠ []) :
    aget (callIsolated p.sendFn child h s).final k = some (.atom v) ∧
    ∀ x ∈ (callIsolated p.sendFn child h s).sends, aget x k = some (.atom v) := by
  have hf : ∀ s, aget (p.sendFn s) k = some (.atom v) := by
    intro s
    unfold Prog.sendFn
    rw [hp, List.foldl_append, List.foldl_cons]
    generalize pre.foldl _ s = s1
    clear hp
    have h0 : aget (aset s1 k (Val.atom v)) k = some (.atom v) := aget_aset_self _ _ _
    generalize aset s1 k (Val.atom v) = s2 at h0
    induction post generalizing s2 with
    | nil => exact h0
    | cons kv post ih =>
      rw [List.foldl_cons]
      refine ih (fun x hx => hl x (by simp [hx])) _ ?_
      rw [aget_aset_ne _ _ _ _ (fun e => hl kv (by simp) e.symm), h0]
  have key : ∀ (xs : List Scope) (b : Bool) (s : Scope),
      (xs ≠ [] ∨ aget s k = some (.atom v) → aget (onSends p.sendFn b s xs).2 k = some (.atom v)) ∧
      ∀ x ∈ (onSends p.sendFn b s xs).1, aget x k = some (.atom v) := by
    intro xs
    induction xs with
    | nil => exact fun b s => ⟨fun h => h.resolve_left (fun h => h rfl), fun x hx => by cases hx⟩
    | cons x xs ih =>
      intro b s
      simp only [onSends]
      refine ⟨fun _ => (ih true _).1 (.inr (hf _)), fun y hy => ?_⟩
      rcases List.mem_cons.1 hy with rfl | hy
      · exact hf _
      · exact (ih true _).2 y hy
  refine ⟨?_, (key _ false s).2⟩
  show aget (sync _ _) k = _
  rw [sync_other _ _ _ hk]
  exact (key _ false s).1 (.inl hs)

example : ¬ Reported "x".toList ∧
    (⟨[.call], [("x".toList, "1".toList), ("y".toList, "2".toList)]⟩ : Prog).onSend =
      [] ++ ("x".toList, "1".toList) :: [("y".toList, "2".toList)] ∧
    (endpoint ⟨[.send], []⟩ [] []).sends ≠ [] := by
  unfold Reported
  decide

/-- The reported fields are reported: at the end the caller holds what the application left there. -/
theorem C17_reported (app : App) (h : Heap) (s : Scope) (k : Str) (hk : Reported k) (v : Val)
    (hv : aget (app (copy h s).1 (copy h s).2).final k = some v) :
    aget (iso app h s).final k = some v := by
  show aget (sync _ _) k = some v
  rw [sync_get, if_pos ((mem_routeKeys k).2 hk), hv]
  rfl

/-- What a wrapped application starts with is what its caller had: every value, and headers with the
same contents in an object of their own. -/
theorem C17_visible (h : Heap) (s : Scope) :
    (∀ k, k ≠ "headers".toList → Same (copy h s).2 s k) ∧
    (∀ n o, aget s "headers".toList = some (.ref n) → h[n]? = some o →
      objAt (copy h s).1 (copy h s).2 "headers".toList = some o ∧
      aget (copy h s).2 "headers".toList = some (.ref h.length)) := by
  refine ⟨fun k hk => copy_other h s k hk, ?_⟩
  intro n o hn ho
  have hc : copy h s = (h ++ [h.getD n []], aset s headersKey (.ref h.length)) := by
    unfold copy
    rw [show aget s headersKey = _ from hn]
  have hg : aget (aset s headersKey (.ref h.length)) "headers".toList = some (.ref h.length) :=
    aget_aset_self _ _ _
  rw [hc]
  refine ⟨?_, hg⟩
  unfold objAt
  simp only
  rw [hg]
  simp only
  rw [List.getElem?_append_right (Nat.le_refl _), Nat.sub_self, List.getElem?_cons_zero,
    List.getD_eq_getElem?_getD, ho]
  rfl

/-- The list of headers of the caller is not changed by anything that middleware and endpoint do to
theirs, in place or otherwise (provided the caller has not put the list under a second key). -/
theorem C17_headers (p : Prog) (m : Prog) (ms : List Prog) (h : Heap) (s : Scope) (n : Nat)
    (hn : n < h.length) (hh : ∀ k, aget s k = some (.ref n) → k = "headers".toList) :
    (stack (endpoint p) (m :: ms) h s).heap[n]? = h[n]? := by
  rw [stack_cons]
  have hsafe : Safe (layer m (stack (endpoint p) ms)) :=
    safe_layer m _ (safe_stack _ (safe_endpoint p) ms)
  obtain ⟨c1, c2⟩ := copy_heap h s n hn
  have hfree : Free n (copy h s).2 := by
    intro k
    unfold copy
    split
    · intro e
      rw [aget_aset] at e
      split at e
      · injection e with e; injection e with e; omega
      · rename_i hk; exact hk (hh k e)
    · rename_i hx
      intro e
      have := hh k e
      subst this
      exact hx n e
  exact (hsafe _ _ n (by omega) hfree).1.trans c1

/-- The order of a stack: middleware listed first is outermost, and each one sees the writes of those
before it. -/
theorem C17_order (ls : List (Str × Str × Str)) (e : Str) (h : Heap) (s : Scope)
    (f : Str → Option Val) (hf : ∀ k, k ≠ "headers".toList → aget s k = f k)  :
    Sees ls e f (stack (endpoint ⟨[.note e], []⟩) (ls.map fun l => writer l.1 l.2.1 l.2.2) h s).log := by
  induction ls generalizing h s f with
  | nil => exact ⟨s, rfl, hf⟩
  | cons l ls ih =>
    obtain ⟨name, k, v⟩ := l
    rw [List.map_cons, stack_cons]
    simp only [Sees]
    refine ⟨aset (copy h s).2 k (.atom v),
      (stack (endpoint ⟨[.note e], []⟩) (ls.map fun l => writer l.1 l.2.1 l.2.2)
        (copy (copy h s).1 (aset (copy h s).2 k (.atom v))).1
        (copy (copy h s).1 (aset (copy h s).2 k (.atom v))).2).log, ?_, ?_, ?_⟩
    · simp [iso, callIsolated, layer, writer, exec]
    · intro x hx
      rw [aget_aset]
      unfold write
      split
      · rfl
      · rw [copy_other _ _ _ hx, hf x hx]
    · apply ih
      intro x hx
      rw [copy_other _ _ _ hx, aget_aset]
      unfold write
      split
      · rfl
      · rw [copy_other _ _ _ hx, hf x hx]

/-- A concrete run: the endpoint writes its scope and changes the headers, the middleware writes too;
the caller keeps its scope but learns the handler. -/
example :
    let p : Prog := ⟨[.set "x".toList "e".toList, .set "handler".toList "f".toList,
      .mutate "headers".toList (fun o => ("a".toList, "b".toList) :: o), .send], []⟩
    let m : Prog := ⟨[.set "x".toList "m".toList, .call], []⟩
    let s : Scope := [("x".toList, .atom "0".toList), ("headers".toList, .ref 0)]
    (stack (endpoint p) [m] [[("h".toList, "1".toList)]] s).final =
      s ++ [("handler".toList, .atom "f".toList)] ∧
    (stack (endpoint p) [m] [[("h".toList, "1".toList)]] s).heap[0]? = some [("h".toList, "1".toList)] ∧
    ¬ Reported "x".toList := by
  refine ⟨?_, ?_, ?_⟩
  · decide +kernel
  · decide +kernel
  · unfold Reported; decide

/-- Departures: an object under any other key is shared, so changes in place are visible to the
caller; and without middleware there is no isolation at all. -/
theorem C17_shared_false :
    let p : Prog := ⟨[.mutate "state".toList (fun o => ("a".toList, "b".toList) :: o)], []⟩
    let m : Prog := ⟨[.call], []⟩
    let q : Prog := ⟨[.set "x".toList "1".toList], []⟩
    (stack (endpoint p) [m] [[]] [("state".toList, .ref 0)]).heap[0]? = some [("a".toList, "b".toList)] ∧
    (stack (endpoint q) [] [] []).final = [("x".toList, .atom "1".toList)] := by
  constructor <;> decide +kernel

/-- What a middleware sees after the application it wraps has returned: its note comes after all notes taken inside,
and shows what it had written before the call, but for the reported fields. -/
theorem C17_after (app : App) (n k v : Str) (h : Heap) (s : Scope) :
    ∃ t inner, (stack app [⟨[.set k v, .call, .note n], []⟩] h s).log = inner ++ [(n, t)] ∧
      inner = (app (copy (copy h s).1 (aset (copy h s).2 k (.atom v))).1
        (copy (copy h s).1 (aset (copy h s).2 k (.atom v))).2).log ∧
      ∀ x, x ≠ "headers".toList → ¬ Reported x → aget t x = write (aget s) k v x := by
  refine ⟨(callIsolated (Prog.sendFn ⟨[.set k v, .call, .note n], []⟩) app (copy h s).1
    (aset (copy h s).2 k (.atom v))).final, _, ?_, rfl, ?_⟩
  · simp [stack, iso, callIsolated, layer, exec]
  · intro x hx hr
    rw [show aget _ x = aget (aset (copy h s).2 k (.atom v)) x from
      C17_layer_no_leak app _ _ x hr ⟨[.set k v, .call, .note n], []⟩ (fun kv hkv => by cases hkv)]
    rw [aget_aset]
    unfold write
    split
    · rfl
    · exact copy_other _ _ _ hx

example : (stack (endpoint ⟨[.set "x".toList "e".toList, .note "in".toList], []⟩)
      [⟨[.set "x".toList "m".toList, .call, .note "out".toList], []⟩] [] []).log =
    [("in".toList, [("x".toList, .atom "e".toList)]), ("out".toList, [("x".toList, .atom "m".toList)])] := by
  decide +kernel


end Verif.Scope
