import Verif.Scope.Spec

namespace Verif.Scope

open Verif Spec

theorem mem_routeKeys (k : Str) : k ∈ routeKeys ↔ Reported k := by
  unfold routeKeys Reported
  simp only [List.mem_cons, List.not_mem_nil, or_false]

theorem syncKey_get (x s : Scope) (k k' : Str) :
    aget (syncKey x s k) k' = if k' = k then (aget x k).or (aget s k) else aget s k' := by
  unfold syncKey
  cases h : aget x k with
  | none =>
    by_cases hk : k' = k
    · rw [if_pos hk, hk]; rfl
    · rw [if_neg hk]
  | some v =>
    by_cases hk : k' = k
    · rw [if_pos hk, hk]; exact aget_aset_self _ _ _
    · rw [if_neg hk]; exact aget_aset_ne _ _ _ _ hk

theorem foldl_sync (x : Scope) (ks : List Str) (s : Scope) (k : Str) :
    aget (ks.foldl (syncKey x) s) k = if k ∈ ks then (aget x k).or (aget s k) else aget s k := by
  induction ks generalizing s with
  | nil => simp
  | cons a ks ih =>
    rw [List.foldl_cons, ih, syncKey_get]
    by_cases hk : k = a
    · subst hk
      by_cases hm : k ∈ ks
      · simp only [hm, if_true, List.mem_cons, or_true]
        cases aget x k <;> rfl
      · simp [hm]
    · simp [hk]

theorem sync_get (x s : Scope) (k : Str) :
    aget (sync x s) k = if k ∈ routeKeys then (aget x k).or (aget s k) else aget s k :=
  foldl_sync x routeKeys s k

theorem sync_other (x s : Scope) (k : Str) (h : ¬ Reported k) : aget (sync x s) k = aget s k := by
  rw [sync_get, if_neg (fun e => h ((mem_routeKeys k).1 e))]

theorem onSends_other (b : Bool) (s : Scope) (xs : List Scope) (k : Str) (h : ¬ Reported k) :
    (∀ x ∈ (onSends id b s xs).1, aget x k = aget s k) ∧ aget (onSends id b s xs).2 k = aget s k := by
  induction xs generalizing b s with
  | nil => exact ⟨fun x hx => (by cases hx), rfl⟩
  | cons x xs ih =>
    simp only [onSends, id]
    have h1 : aget (if b = true then s else sync x s) k = aget s k := by
      cases b with
      | true => rfl
      | false => exact sync_other x s k h
    obtain ⟨i1, i2⟩ := ih true (if b = true then s else sync x s)
    rw [h1] at i1 i2
    refine ⟨?_, i2⟩
    intro y hy
    rcases List.mem_cons.1 hy with rfl | hy
    · exact h1
    · exact i1 y hy

theorem copy_other (h : Heap) (s : Scope) (k : Str) (hk : k ≠ headersKey) :
    aget (copy h s).2 k = aget s k := by
  unfold copy
  split
  · exact aget_aset_ne _ _ _ _ hk
  · rfl

theorem copy_heap (h : Heap) (s : Scope) (n : Nat) (hn : n < h.length) :
    (copy h s).1[n]? = h[n]? ∧ h.length ≤ (copy h s).1.length := by
  unfold copy
  split
  · simp only [List.length_append, List.length_cons, List.length_nil]
    exact ⟨List.getElem?_append_left hn, by omega⟩
  · exact ⟨rfl, Nat.le_refl _⟩

/-- No value of the scope refers to object `n`. -/
def Free (n : Nat) (s : Scope) : Prop := ∀ k, aget s k ≠ some (.ref n)

/-- An application leaves alone every object that its scope does not refer to. -/
def Safe (app : App) : Prop := ∀ h s n, n < h.length → Free n s →
  (app h s).heap[n]? = h[n]? ∧ h.length ≤ (app h s).heap.length ∧
    (∀ x ∈ (app h s).sends, Free n x) ∧ Free n (app h s).final

theorem free_aset (n : Nat) (s : Scope) (k : Str) (v : Val) (h : Free n s) (hv : v ≠ .ref n) :
    Free n (aset s k v) := by
  intro x
  rw [aget_aset]
  split
  · intro e; injection e with e; exact hv e
  · exact h x

theorem free_adel (n : Nat) (s : Scope) (k : Str) (h : Free n s) : Free n (adel s k) := by
  intro x
  rw [aget_adel]
  split
  · intro e; cases e
  · exact h x

theorem free_sync (n : Nat) (x s : Scope) (hx : Free n x) (hs : Free n s) : Free n (sync x s) := by
  intro k
  rw [sync_get]
  split
  · cases h : aget x k with
    | none => exact hs k
    | some v => intro e; exact hx k (h.trans e)
  · exact hs k

theorem free_copy (h : Heap) (s : Scope) (n : Nat) (hn : n < h.length) (hs : Free n s) :
    Free n (copy h s).2 := by
  unfold copy
  split
  · apply free_aset _ _ _ _ hs
    intro e; injection e with e; omega
  · exact hs

theorem free_sendFn (p : Prog) (n : Nat) (s : Scope) (h : Free n s) : Free n (p.sendFn s) := by
  unfold Prog.sendFn
  generalize p.onSend = kvs
  induction kvs generalizing s with
  | nil => exact h
  | cons kv kvs ih =>
    rw [List.foldl_cons]
    exact ih _ (free_aset _ _ _ _ h (by intro e; cases e))

theorem free_onSends (f : Scope → Scope) (n : Nat) (hf : ∀ s, Free n s → Free n (f s)) (b : Bool)
    (s : Scope) (xs : List Scope) (hs : Free n s) (hx : ∀ x ∈ xs, Free n x) :
    (∀ x ∈ (onSends f b s xs).1, Free n x) ∧ Free n (onSends f b s xs).2 := by
  induction xs generalizing b s with
  | nil => exact ⟨fun x hx => (by cases hx), hs⟩
  | cons x xs ih =>
    simp only [onSends]
    have h1 : Free n (f (if b = true then s else sync x s)) := by
      apply hf
      cases b with
      | true => exact hs
      | false => exact free_sync n x s (hx x (by simp)) hs
    obtain ⟨i1, i2⟩ := ih true _ h1 (fun y hy => hx y (by simp [hy]))
    refine ⟨?_, i2⟩
    intro y hy
    rcases List.mem_cons.1 hy with rfl | hy
    · exact h1
    · exact i1 y hy

theorem safe_callIsolated (f : Scope → Scope) (hf : ∀ n s, Free n s → Free n (f s)) (child : App)
    (hc : Safe child) : Safe (callIsolated f child) := by
  intro h s n hn hs
  obtain ⟨c1, c2⟩ := copy_heap h s n hn
  obtain ⟨r1, r2, r3, r4⟩ := hc (copy h s).1 (copy h s).2 n (by omega) (free_copy h s n hn hs)
  obtain ⟨o1, o2⟩ := free_onSends f n (hf n) false s _ hs r3
  exact ⟨r1.trans c1, by simp only [callIsolated]; omega, o1, free_sync n _ _ r4 o2⟩

theorem free_alias (n : Nat) (s : Scope) (k k' : Str) (h : Free n s) : Free n (aliasKey s k k') := by
  unfold aliasKey
  split
  · rename_i v hv
    apply free_aset _ _ _ _ h
    rintro rfl
    exact h k' hv
  · exact h

theorem mutateAt_other (h : Heap) (s : Scope) (k : Str) (f : Obj → Obj) (n : Nat) (hs : Free n s) :
    (mutateAt h s k f)[n]? = h[n]? ∧ (mutateAt h s k f).length = h.length := by
  unfold mutateAt
  split
  · rename_i m hm
    refine ⟨?_, List.length_modify _ _ _⟩
    have hne : m ≠ n := by rintro rfl; exact hs k hm
    rw [List.getElem?_modify]
    simp [hne]
  · exact ⟨rfl, rfl⟩

theorem safe_exec (f : Scope → Scope) (hf : ∀ n s, Free n s → Free n (f s)) (child : Option App)
    (hc : ∀ app, child = some app → Safe app) (as : List Act) : Safe (exec f child as) := by
  induction as with
  | nil => intro h s n hn hs; exact ⟨rfl, Nat.le_refl _, fun x hx => (by cases hx), hs⟩
  | cons a as ih =>
    intro h s n hn hs
    cases a with
    | set k v => exact ih h _ n hn (free_aset _ _ _ _ hs (by intro e; cases e))
    | alloc k o =>
      obtain ⟨r1, r2, r3, r4⟩ := ih (h ++ [o]) (aset s k (.ref h.length)) n
        (by rw [List.length_append]; omega)
        (free_aset _ _ _ _ hs (by intro e; injection e with e; omega))
      rw [exec]
      refine ⟨r1.trans (List.getElem?_append_left hn), ?_, r3, r4⟩
      rw [List.length_append] at r2; omega
    | alias k k' => exact ih h _ n hn (free_alias n s k k' hs)
    | del k => exact ih h _ n hn (free_adel n s k hs)
    | mutate k g =>
      obtain ⟨m1, m2⟩ := mutateAt_other h s k g n hs
      obtain ⟨r1, r2, r3, r4⟩ := ih (mutateAt h s k g) s n (by omega) hs
      rw [exec]
      exact ⟨r1.trans m1, by omega, r3, r4⟩
    | send =>
      obtain ⟨r1, r2, r3, r4⟩ := ih h s n hn hs
      refine ⟨r1, r2, ?_, r4⟩
      intro x hx
      rw [exec] at hx
      rcases List.mem_cons.1 hx with rfl | hx
      · exact hs
      · exact r3 x hx
    | note name => exact ih h s n hn hs
    | call =>
      cases child with
      | none => exact ih h s n hn hs
      | some app =>
        obtain ⟨c1, c2, c3, c4⟩ := safe_callIsolated f hf app (hc app rfl) h s n hn hs
        obtain ⟨r1, r2, r3, r4⟩ := ih (callIsolated f app h s).heap (callIsolated f app h s).final n
          (by omega) c4
        rw [exec]
        refine ⟨r1.trans c1, by simp only; omega, ?_, r4⟩
        intro x hx
        rcases List.mem_append.1 hx with hx | hx
        · exact c3 x hx
        · exact r3 x hx

theorem safe_endpoint (p : Prog) : Safe (endpoint p) :=
  safe_exec _ (fun n s => free_sendFn p n s) none (fun app h => by cases h) _

theorem safe_layer (p : Prog) (child : App) (h : Safe child) : Safe (layer p child) :=
  safe_exec _ (fun n s => free_sendFn p n s) (some child) (fun app e => by injection e with e; exact e ▸ h) _

theorem stack_nil (app : App) : stack app [] = app := rfl

theorem stack_cons (app : App) (m : Prog) (ms : List Prog) :
    stack app (m :: ms) = iso (layer m (stack app ms)) := by
  unfold stack
  rw [List.reverse_cons, List.foldl_append]
  rfl

theorem safe_stack (app : App) (h : Safe app) (ms : List Prog) : Safe (stack app ms) := by
  induction ms with
  | nil => exact h
  | cons m ms ih =>
    rw [stack_cons]
    exact safe_callIsolated id (fun _ _ h => h) _ (safe_layer m _ ih)

end Verif.Scope
