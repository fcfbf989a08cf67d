import Verif.StateObj.Lemmas

/-! # Theorems about `request.state` (C126) -/

namespace Verif.StateObj

open Verif.StateObj.Spec

/-- **C126**, of `request.state`: if no part uses the name `_state`, and scopes are copied only once the state has begun
(the server gives one, or some part asked for it), then every part reads what is on the board of its request.  What is
not on it is an `AttributeError`, unless the class has something of that name. -/
theorem C126_partial (found : Str → Bool) (H : List Act) (hf : Fine Ideal.start H) (c b : Nat)
    (hc : (Ideal.start.run H).conns[c]? = some b) (k : Str) (hk : k ≠ "_state".toList) :
    (∀ v, read found (World.start.run H) c k = .ok (.value v) ↔ (Ideal.start.run H).board b k = some v) ∧
    (Plain found k → (Ideal.start.run H).board b k = none →
      read found (World.start.run H) c k = .error .attribute) := by
  obtain ⟨m, r⟩ := run_rel H start_rel hf
  rw [read_eq r found hc k hk]
  cases (Ideal.start.run H).board b k with
  | some w =>
    refine ⟨fun v => ⟨fun h => ?_, fun h => ?_⟩, (fun _ h => nomatch h)⟩
    · cases h; rfl
    · cases h; rfl
  | none =>
    refine ⟨fun v => ⟨fun h => ?_, (fun h => nomatch h)⟩, fun hp _ => ?_⟩
    · simp only at h
      split at h <;> cases h
    · simp only
      rw [if_neg]
      rintro (h | h)
      · exact hp.copy h
      · rw [hp.other] at h; cases h

/-- A middleware sets an attribute, a copy of the scope goes to the handler, the handler reads it and sets another,
which the middleware reads. -/
def exH : List Act :=
  [.request none, .connect 0, .write 0 "user".toList (.obj 1), .fork 0, .connect 1, .write 1 "seen".toList (.obj 2)]

example : Fine Ideal.start exH := by
  refine ⟨trivial, trivial, ?_, ?_, trivial, ?_, trivial⟩
  · show "user".toList ≠ "_state".toList
    decide
  · intro b hb
    cases hb
    rfl
  · show "seen".toList ≠ "_state".toList
    decide

example : (Ideal.start.run exH).conns[0]? = some 0 ∧ (Ideal.start.run exH).board 0 "seen".toList = some (.obj 2) ∧
    (Ideal.start.run exH).conns[1]? = some 0 ∧ (Ideal.start.run exH).board 0 "user".toList = some (.obj 1) := by
  refine ⟨rfl, by decide +kernel, rfl, by decide +kernel⟩

/-- **C126**: what is set on the state of one request, or deleted from it, changes nothing for another. -/
theorem C126_apart (found : Str → Bool) (H : List Act) (a : Act) (c c' b b' : Nat) (k n : Str) (v : Val)
    (ha : a = .write c' k v ∨ a = .erase c' k) (hf : Fine Ideal.start (H ++ [a]))
    (hc : (Ideal.start.run H).conns[c]? = some b) (hc' : (Ideal.start.run H).conns[c']? = some b') (hb : b ≠ b')
    (hn : n ≠ "_state".toList) :
    read found (World.start.run (H ++ [a])) c n = read found (World.start.run H) c n := by
  have fine_left : ∀ (H : List Act) (i : Ideal), Fine i (H ++ [a]) → Fine i H := by
    intro H
    induction H with
    | nil => intro i _; trivial
    | cons x H ih => intro i h; exact ⟨h.1, ih _ h.2⟩
  obtain ⟨m, r⟩ := run_rel H start_rel (fine_left H _ hf)
  obtain ⟨m', r'⟩ := run_rel (H ++ [a]) start_rel hf
  have hi : Ideal.start.run (H ++ [a]) = (Ideal.start.run H).step a := by
    simp [Ideal.run, List.foldl_append]
  rw [hi] at r'
  have hp : ∃ x, (Ideal.start.run H).step a = (Ideal.start.run H).post b' k x := by
    rcases ha with ha | ha
    · refine ⟨some v, ?_⟩
      rw [ha, Ideal.step, hc']
    · refine ⟨none, ?_⟩
      rw [ha, Ideal.step, hc']
  obtain ⟨x, hp⟩ := hp
  rw [hp] at r'
  have hcc : ((Ideal.start.run H).post b' k x).conns[c]? = some b := hc
  rw [read_eq r' found hcc n hn, read_eq r found hc n hn]
  have : ((Ideal.start.run H).post b' k x).board b n = (Ideal.start.run H).board b n := by
    show (if b = b' ∧ n = k then x else _) = _
    rw [if_neg (fun e => hb e.1)]
  rw [this]

/-- Two requests. -/
example : (Ideal.start.run [.request none, .request none, .connect 0, .connect 1]).conns[0]? = some 0 ∧
    (Ideal.start.run [.request none, .request none, .connect 0, .connect 1]).conns[1]? = some 1 ∧
    Fine Ideal.start ([.request none, .request none, .connect 0, .connect 1] ++ [.write 1 "a".toList (.obj 1)]) :=
  ⟨rfl, rfl, trivial, trivial, trivial, trivial, by show "a".toList ≠ "_state".toList; decide, trivial⟩

/-- **C126 is false of scopes that are copied first.**  The state begins when it is first asked for.  If a scope is
copied before that, as it is for every middleware, what a handler sets on the state is not seen outside. -/
theorem C126_fork_false (found : Str → Bool) (k : Str) (v : Val) (hp : Plain found k) :
    (Ideal.start.run [.request none, .fork 0, .connect 0, .connect 1, .write 1 k v]).conns[0]? = some 0 ∧
    (Ideal.start.run [.request none, .fork 0, .connect 0, .connect 1, .write 1 k v]).board 0 k = some v ∧
    read found (World.start.run [.request none, .fork 0, .connect 0, .connect 1, .write 1 k v]) 0 k =
      .error .attribute := by
  refine ⟨rfl, ?_, ?_⟩
  · exact if_pos ⟨rfl, rfl⟩
  · show (if k = ownName then _ else if k = "copy".toList ∨ found k then _ else _) = _
    rw [if_neg (show k ≠ ownName from hp.own), if_neg]
    rintro (h | h)
    · exact hp.copy h
    · rw [hp.other] at h; cases h

example : Plain (fun k => k = "__class__".toList) "user".toList :=
  ⟨by decide, by decide, by decide⟩

/-! ### The object itself -/

/-- **C126**, of `State`: an attribute that was set is read; the others are as before. -/
theorem C126_set (found : Str → Bool) (h h' : Heap) (s v : Val) (k : Str) (hs : set h s k v = .ok h') :
    get found h' s k = .ok (.value v) ∧ ∀ n, n ≠ k → get found h' s n = get found h s n := by
  cases s with
  | obj n => cases hs
  | dict d =>
    cases hs
    constructor
    · simp only [get, Heap.put, if_true]
      rw [aget_aset_self]
    · intro n hn
      simp only [get, Heap.put, if_true]
      rw [aget_aset_ne _ _ _ _ hn]

example (v : Val) : ∃ h', set ⟨fun _ => [], 1⟩ (.dict 0) "user".toList v = .ok h' := ⟨_, rfl⟩

/-- **C126**, of `State`: deleting takes an attribute away that is there, and is a `KeyError` for others; the other
attributes are as before. -/
theorem C126_delete (found : Str → Bool) (h : Heap) (d : Nat) (k : Str)
    (ho : ∀ v, ("_state".toList, v) ∉ h.dicts d) (hp : Plain found k) :
    (Holds found h (.dict d) k →
      ∃ h', del h (.dict d) k = .ok h' ∧ get found h' (.dict d) k = .error .attribute ∧
        ∀ n, n ≠ k → get found h' (.dict d) n = get found h (.dict d) n) ∧
    (¬ Holds found h (.dict d) k → del h (.dict d) k = .error .key) := by
  have hi := inner_self (absent h d ownName ho)
  have hn : ¬ (k = "copy".toList ∨ found k = true) := by
    rintro (h | h)
    · exact hp.copy h
    · rw [hp.other] at h; cases h
  constructor
  · rintro ⟨v, hv⟩
    cases ha : aget (h.dicts d) k with
    | none =>
      simp only [get, ha] at hv
      rw [if_neg (show k ≠ ownName from hp.own), if_neg hn] at hv
      cases hv
    | some x =>
      refine ⟨h.put d (adel (h.dicts d) k), ?_, ?_, ?_⟩
      · simp only [del, hi, ha]
      · simp only [get, Heap.put, if_true]
        rw [aget_adel, if_pos rfl]
        simp only
        rw [if_neg (show k ≠ ownName from hp.own), if_neg hn]
      · intro n hne
        simp only [get, Heap.put, if_true]
        rw [aget_adel, if_neg hne]
  · intro hno
    cases ha : aget (h.dicts d) k with
    | none => simp only [del, hi, ha]
    | some x => exact absurd ⟨x, by simp only [get, ha]⟩ hno

example : Holds (fun _ => false) ⟨fun _ => [("user".toList, .obj 1)], 1⟩ (.dict 0) "user".toList :=
  ⟨.obj 1, rfl⟩

/-- **C126**, of `State`: the length is the number of names set. -/
theorem C126_length (found : Str → Bool) (h : Heap) (d : Nat) (hd : ((h.dicts d).map (·.1)).Nodup)
    (ho : ∀ v, ("_state".toList, v) ∉ h.dicts d) :
    ∃ names : List Str, names.Nodup ∧ len h (.dict d) = .ok names.length ∧
      ∀ k, k ≠ "_state".toList → (k ∈ names ↔ Holds found h (.dict d) k) := by
  refine ⟨(h.dicts d).map (·.1), hd, ?_, ?_⟩
  · simp only [len, inner_self (absent h d ownName ho)]
    rw [List.length_map]
  · intro k hk
    constructor
    · intro hm
      cases ha : aget (h.dicts d) k with
      | some v => exact ⟨v, by simp only [get, ha]⟩
      | none => exact absurd hm (absent_names _ _ ha)
    · rintro ⟨v, hv⟩
      cases ha : aget (h.dicts d) k with
      | some w => exact present_names _ _ _ ha
      | none =>
        simp only [get, ha] at hv
        rw [if_neg (show k ≠ ownName from hk)] at hv
        split at hv <;> cases hv

example : (((⟨fun _ => [("a".toList, .obj 1), ("b".toList, .obj 2)], 1⟩ : Heap).dicts 0).map (·.1)).Nodup ∧
    len ⟨fun _ => [("a".toList, .obj 1), ("b".toList, .obj 2)], 1⟩ (.dict 0) = .ok 2 :=
  ⟨by decide, rfl⟩

/-- **C126**, of `State`: `state["k"]` is `state.k` of what was set, and a `KeyError` for the rest. -/
theorem C126_item (found : Str → Bool) (h : Heap) (d : Nat) (ho : ∀ v, ("_state".toList, v) ∉ h.dicts d) (k : Str)
    (hk : k ≠ "_state".toList) :
    (∀ v, item h (.dict d) k = .ok v ↔ get found h (.dict d) k = .ok (.value v)) ∧
    (¬ Holds found h (.dict d) k → item h (.dict d) k = .error .key) := by
  have hi := inner_self (absent h d ownName ho)
  cases ha : aget (h.dicts d) k with
  | some w =>
    simp only [item, get, hi, ha]
    refine ⟨fun v => ⟨fun e => by cases e; rfl, fun e => by cases e; rfl⟩, fun hno => ?_⟩
    exact absurd ⟨w, by simp only [get, ha]⟩ hno
  | none =>
    simp only [item, get, hi, ha]
    refine ⟨fun v => ⟨(fun e => nomatch e), fun e => ?_⟩, fun _ => trivial⟩
    rw [if_neg (show k ≠ ownName from hk)] at e
    split at e <;> cases e

/-- **C126**, of copies: a copy reads as the original, and what is set on either later is not seen by the other. -/
theorem C126_copy (found : Str → Bool) (h : Heap) (d : Nat) (hd : d < h.next)
    (ho : ∀ n ∈ ["_state".toList, "copy".toList, "__class__".toList], ∀ v, (n, v) ∉ h.dicts d) :
    ∃ h' s, copy h (.dict d) = .ok (h', s) ∧
      (∀ k, k ≠ "_state".toList → get found h' s k = get found h (.dict d) k ∧
        get found h' (.dict d) k = get found h (.dict d) k) ∧
      (∀ n v h'', set h' s n v = .ok h'' → ∀ k, get found h'' (.dict d) k = get found h (.dict d) k) ∧
      (∀ n v h'', set h' (.dict d) n v = .ok h'' → ∀ k, k ≠ "_state".toList →
        get found h'' s k = get found h (.dict d) k) := by
  have h1 := absent h d ownName (ho _ (List.mem_cons.2 (.inl rfl)))
  have h2 := absent h d "copy".toList (ho _ (by simp))
  have h3 := absent h d "__class__".toList (ho _ (by simp))
  have hne : d ≠ h.next := by omega
  refine ⟨(h.fresh (h.dicts d)).1, .dict h.next, ?_, ?_, ?_, ?_⟩
  · unfold copy dup
    simp only
    rw [h2]
    simp only
    rw [h3]
    simp only
    rw [inner_self h1]
    rfl
  · intro k hk
    constructor
    · simp only [get, Heap.fresh, if_true]
      rw [if_neg (show k ≠ ownName from hk), if_neg (show k ≠ ownName from hk)]
    · simp only [get, Heap.fresh]
      rw [if_neg hne]
  · intro n v h'' hs k
    cases hs
    simp only [get, Heap.put, Heap.fresh]
    rw [if_neg hne, if_neg hne]
  · intro n v h'' hs k hk
    cases hs
    simp only [get, Heap.put, Heap.fresh]
    rw [if_neg (fun e => hne e.symm), if_pos trivial, if_neg (show k ≠ ownName from hk),
      if_neg (show k ≠ ownName from hk)]

example : ∀ n ∈ ["_state".toList, "copy".toList, "__class__".toList], ∀ v,
    (n, v) ∉ (⟨fun _ => [("user".toList, .obj 1)], 1⟩ : Heap).dicts 0 := by
  intro n hn v hv
  rw [List.mem_singleton] at hv
  rw [(Prod.mk.inj hv).1] at hn
  revert hn
  decide

/-! ### Where it fails -/

/-- **C126 is false of the name `_state`.**  If some part sets an attribute of that name to an ordinary object, the
state has no length any more, nothing can be deleted from it, `state["k"]` fails for every name, and no attribute can
be read from a copy. -/
theorem C126_own_false (found : Str → Bool) (h : Heap) (d n : Nat) :
    ∃ h', set h (.dict d) "_state".toList (.obj n) = .ok h' ∧
      len h' (.dict d) = .error .type ∧
      (∀ k, del h' (.dict d) k = .error .type ∧ item h' (.dict d) k = .error .type) ∧
      ∀ h'' s, copy h' (.dict d) = .ok (h'', s) → ∀ k, get found h'' s k = .error .type := by
  have hi : inner (h.put d (aset (h.dicts d) ownName (.obj n))) (.dict d) = .ok (.obj n) := by
    simp only [inner, Heap.put, if_true]
    rw [aget_aset_self]
  refine ⟨_, rfl, ?_, fun k => ⟨?_, ?_⟩, ?_⟩
  · show len (h.put d (aset (h.dicts d) ownName (.obj n))) (.dict d) = _
    simp only [len, hi]
  · show del (h.put d (aset (h.dicts d) ownName (.obj n))) (.dict d) k = _
    simp only [del, hi]
  · show item (h.put d (aset (h.dicts d) ownName (.obj n))) (.dict d) k = _
    simp only [item, hi]
  · intro h'' s hc k
    have hc : copy (h.put d (aset (h.dicts d) ownName (.obj n))) (.dict d) = .ok (h'', s) := hc
    unfold copy dup at hc
    simp only at hc
    split at hc
    · cases hc
    · split at hc
      · cases hc
      · rw [hi] at hc
        cases hc
        rfl

/-- **C126 is false of the name `_state`, again**: if it is set to a dictionary, deleting an attribute takes an entry
out of that dictionary, and the attribute stays. -/
theorem C126_other_false (found : Str → Bool) (h : Heap) (d e : Nat) (hde : d ≠ e) (k : Str) (v w : Val)
    (hk : k ≠ "_state".toList) (hv : aget (h.dicts d) k = some v) (hw : aget (h.dicts e) k = some w) :
    ∃ h' h'', set h (.dict d) "_state".toList (.dict e) = .ok h' ∧ del h' (.dict d) k = .ok h'' ∧
      get found h'' (.dict d) k = .ok (.value v) ∧ aget (h''.dicts e) k = none := by
  have hd : ∀ es, ((h.put d es).dicts d) = es := fun es => by simp [Heap.put]
  have he : ∀ es, ((h.put d es).dicts e) = h.dicts e := fun es => by
    simp only [Heap.put]; rw [if_neg (fun x => hde x.symm)]
  have hi : inner (h.put d (aset (h.dicts d) ownName (.dict e))) (.dict d) = .ok (.dict e) := by
    simp only [inner]
    rw [hd, aget_aset_self]
  refine ⟨h.put d (aset (h.dicts d) ownName (.dict e)),
    (h.put d (aset (h.dicts d) ownName (.dict e))).put e (adel (h.dicts e) k), rfl, ?_, ?_, ?_⟩
  · simp only [del, hi]
    rw [he, hw]
  · have : ((h.put d (aset (h.dicts d) ownName (.dict e))).put e (adel (h.dicts e) k)).dicts d =
        aset (h.dicts d) ownName (.dict e) := by
      simp only [Heap.put]
      rw [if_neg hde, if_pos trivial]
    simp only [get]
    rw [this, aget_aset_ne _ _ _ _ (show k ≠ ownName from hk), hv]
  · simp only [Heap.put, if_true]
    rw [aget_adel, if_pos rfl]

example : ∃ h : Heap, aget (h.dicts 0) "user".toList = some (.obj 1) ∧ aget (h.dicts 1) "user".toList = some (.obj 2) :=
  ⟨⟨fun d => [("user".toList, .obj (d + 1))], 2⟩, rfl, rfl⟩

/-- **C126 is false of the name `copy`**: once an attribute of that name is set, `state.copy()` fails, and so does any
copy once an attribute `__class__` is set. -/
theorem C126_shadow_false (h : Heap) (d : Nat) (v : Val) :
    (∃ h', set h (.dict d) "copy".toList v = .ok h' ∧ copy h' (.dict d) = .error .type) ∧
    (∃ h', set h (.dict d) "__class__".toList v = .ok h' ∧ dup h' (.dict d) = .error .type) := by
  refine ⟨⟨_, rfl, ?_⟩, ⟨_, rfl, ?_⟩⟩
  · simp only [copy, Heap.put, if_true]
    rw [aget_aset_self]
  · simp only [dup, Heap.put, if_true]
    rw [aget_aset_self]

/-- **C126 is false of names that were not set**: `state.copy` and `state._state` are there without having been set,
while `state["copy"]` is a `KeyError`. -/
theorem C126_unset_false (found : Str → Bool) (h : Heap) (d : Nat)
    (ho : ∀ n ∈ ["_state".toList, "copy".toList], ∀ v, (n, v) ∉ h.dicts d) :
    get found h (.dict d) "copy".toList = .ok .bound ∧
    get found h (.dict d) "_state".toList = .ok (.value (.dict d)) ∧
    item h (.dict d) "copy".toList = .error .key := by
  have h1 := absent h d ownName (ho _ (List.mem_cons.2 (.inl rfl)))
  have h2 := absent h d "copy".toList (ho _ (by simp))
  have hne : "copy".toList ≠ ownName := by decide
  refine ⟨?_, ?_, ?_⟩
  · simp only [get]
    rw [h2]
    simp only
    rw [if_neg hne, if_pos (.inl trivial)]
  · simp only [get]
    rw [show "_state".toList = ownName from rfl, h1]
    simp only
    rw [if_pos trivial]
  · simp only [item, inner_self h1]
    rw [h2]

/-- **C126 is false of `in`**: whether a name was set cannot be asked with `in`, which raises whatever the state
holds. -/
theorem C126_in_false (h : Heap) (s : Val) (k : Str) : ∀ b, isIn h s k ≠ .ok b := by
  intro b hb
  unfold isIn at hb
  split at hb <;> cases hb

end Verif.StateObj
