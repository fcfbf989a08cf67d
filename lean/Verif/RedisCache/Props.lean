import Verif.RedisCache.Lemmas

/-!
# C112: the Redis cache gives the answers of the in-memory cache
-/

namespace Verif.RedisCache.Props

open Verif Verif.Cache Verif.RedisCache Verif.RedisCache.Spec

variable {V B : Type}

/-- Numbers up to nine, written as characters. -/
def digits : Codec Nat Char where
  enc n := if n < 10 then some (Char.ofNat (48 + n)) else none
  dec b := if 48 ≤ b.toNat ∧ b.toNat < 58 then some (b.toNat - 48) else none

/-- Operations with expiry. -/
def sample : List (Int × List Str × Op Nat) :=
  [(0, [], .set "a".toList 1 (some 5)), (1, [], .set "b".toList 2 none), (2, [], .get "a".toList),
   (9, ["a".toList, "b".toList], .get "a".toList), (9, [], .get "b".toList), (10, [], .delete "b".toList),
   (11, [], .get "b".toList)]

/-- Any sequence of operations gives the same values with both, whenever the server deletes what has expired.
Partial: if the values can be written and times to live are not negative. -/
theorem C112_agree_partial (c : Codec V B) (hc : Reads c) (start : Int) (ops : List (Int × List Str × Op V))
    (hf : Forward start ops) (ho : ∀ x ∈ ops, Fine c x.2.2) :
    run c [] ops = .ok (runMemory c [] ops) :=
  run_same c hc ops start [] [] hf ho (fun _ => rfl) nofun

example : (run digits [] sample).toOption
    = some [none, none, some 1, none, some 2, none, none] := by decide +kernel

example : Forward 0 sample := by
  refine ⟨by decide, by decide, by decide, by decide, by decide, by decide, by decide, trivial⟩

/-- Expired values are not returned: a value is not there after its time to live, if the key was not set again. -/
theorem C112_expires (c : Codec V B) (s : Store B) (key : Str) (v : V) (t now later : Int) (s' : Store B)
    (ht : t ≠ 0) (h : set c now s key v (some t) = .ok s') (hl : now + t < later) :
    ∃ s'', get c later s' key = .ok (s'', none) := by
  unfold set at h
  cases hb : c.enc v with
  | none => rw [hb] at h; cases h
  | some b =>
    rw [hb] at h
    dsimp only at h
    rw [if_pos ht] at h
    unfold serverSetex at h
    by_cases h0 : t ≤ 0
    · rw [if_pos h0] at h; cases h
    · rw [if_neg h0] at h
      injection h with h
      subst h
      refine ⟨adel (aset s key (b, some (now + t))) key, ?_⟩
      unfold get serverGet
      rw [aget_aset_self]
      dsimp only
      rw [if_pos hl]

example : ∃ s', set digits 0 [] "a".toList 1 (some 5) = .ok s' := ⟨_, rfl⟩

/-- A time to live of zero: the value never expires, with both. -/
theorem C112_zero (c : Codec V B) (s : Store B) (key : Str) (v : V) (b : B) (w : V) (now later : Int)
    (hb : c.enc v = some b) (hw : c.dec b = some w) :
    ∃ s', set c now s key v (some 0) = .ok s' ∧ get c later s' key = .ok (s', some w) := by
  refine ⟨aset s key (b, none), ?_, ?_⟩
  · unfold set
    rw [hb]
    rfl
  · unfold get serverGet
    rw [aget_aset_self]
    dsimp only
    rw [hw]

example : digits.enc 1 = some '1' ∧ digits.dec '1' = some 1 := by decide +kernel

/-- "The in-memory cache matches the API of the Redis cache": a negative time to live is an error of the server with
Redis, and an expired value in memory. -/
theorem C112_negative_false (c : Codec V B) (now : Int) (s : Store B) (key : Str) (v : V) (b : B)
    (hb : c.enc v = some b) (t : Int) (ht : t < 0) :
    set c now s key v (some t) = .error .response ∧
    (Cache.step c (Cache.step c s now (.set key v (some t))).1 now (.get key)).2 = none := by
  constructor
  · unfold set
    rw [hb]
    dsimp only
    rw [if_pos (by omega)]
    unfold serverSetex
    rw [if_pos (by omega)]
  · show (syncGet c now (syncSet c now s key v (some t)) key).2 = none
    unfold syncSet
    rw [hb]
    unfold syncGet expiry
    dsimp only
    rw [if_neg (show t ≠ 0 by omega), aget_aset_self]
    dsimp only
    rw [if_pos (by omega)]

/-- A value that cannot be written raises with Redis; in memory the old value stays without a word. -/
theorem C112_encode_false (c : Codec V B) (now : Int) (s : Store B) (key : Str) (v : V) (hv : c.enc v = none)
    (ttl : Option Int) :
    set c now s key v ttl = .error .encode ∧ (Cache.step c s now (.set key v ttl)).1 = s := by
  constructor
  · unfold set
    rw [hv]
  · show syncSet c now s key v ttl = s
    unfold syncSet
    rw [hv]

example : digits.enc 10 = none := by decide +kernel

/-- A `get` cannot tell a value that is `None` from a missing one. -/
theorem C112_none_false :
    ∃ (c : Codec (Option Nat) (Option Nat)) (s : Store (Option Nat)), Reads c ∧
      set c 0 [] "k".toList none none = .ok s ∧
      (get c 1 s "k".toList).toOption.map (fun r => r.2.getD none) = (get c 1 [] "k".toList).toOption.map
        (fun r => r.2.getD none) := by
  refine ⟨⟨fun v => some v, fun b => some b⟩, aset [] "k".toList (none, none), ?_, rfl, rfl⟩
  intro v b h
  exact ⟨b, rfl⟩

/-! ### Clients and event loops -/

/-- Within one loop the client is always that loop's own, if no other loop had its address. -/
theorem C112_client_partial (calls : List Loop) (running : Loop)
    (h : ∀ l ∈ calls, l.address = running.address → l = running) :
    usable (afterCalls [] calls) running = .ok () := by
  have key : ∀ cs : Clients, (∀ l, aget cs running.address = some l → l = running) →
      ∀ calls : List Loop, (∀ l ∈ calls, l.address = running.address → l = running) →
        ∀ l, aget (afterCalls cs calls) running.address = some l → l = running := by
    intro cs hcs calls
    induction calls generalizing cs with
    | nil => exact fun _ => hcs
    | cons x rest ih =>
      intro hx
      refine ih _ ?_ fun l hl => hx l (by simp [hl])
      intro l hl
      unfold client at hl
      cases hg : aget cs x.address with
      | some y => rw [hg] at hl; exact hcs l hl
      | none =>
        rw [hg] at hl
        dsimp only at hl
        rw [aget_aset] at hl
        by_cases ha : running.address = x.address
        · rw [if_pos ha] at hl
          cases hl
          exact hx x (by simp) ha.symm
        · rw [if_neg ha] at hl
          exact hcs l hl
  unfold usable client
  cases hg : aget (afterCalls [] calls) running.address with
  | none => rw [if_pos rfl]
  | some l =>
    dsimp only
    rw [if_pos (key [] nofun calls h l hg)]

example : usable (afterCalls [] [⟨1, 1⟩, ⟨2, 2⟩]) ⟨2, 2⟩ = .ok () :=
  C112_client_partial _ _ (by decide)

/-- "Synchronous functions can be used at any time": each one has a new loop, and if the loop has the address of an
earlier one, the client of that one is used, whose loop is closed. -/
theorem C112_client_false :
    ∃ first second : Loop, first ≠ second ∧ usable (afterCalls [] [first]) second = .error .loopClosed :=
  ⟨⟨1, 1⟩, ⟨1, 2⟩, by decide, rfl⟩

/-- "Clients are shut down": every synchronous call with a new address leaves one client more. -/
theorem C112_leak_false (n : Nat) :
    kept (afterCalls [] ((List.range n).map fun i => ⟨i, i⟩)) = n := by
  have hlast : ∀ (cs : Clients) (a b : List Loop), afterCalls cs (a ++ b) = afterCalls (afterCalls cs a) b := by
    intro cs a b
    induction a generalizing cs with
    | nil => rfl
    | cons x rest ih => exact ih _
  have key : ∀ n, afterCalls [] ((List.range n).map fun i => ⟨i, i⟩) = (List.range n).map fun i => (i, ⟨i, i⟩) := by
    intro n
    induction n with
    | zero => rfl
    | succ n ih =>
      rw [List.range_succ, List.map_append, hlast, ih, List.map_append]
      have hnone : aget ((List.range n).map fun i => (i, (⟨i, i⟩ : Loop))) n = none := by
        have : ∀ l : List Nat, n ∉ l → aget (l.map fun i => (i, (⟨i, i⟩ : Loop))) n = none := by
          intro l
          induction l with
          | nil => exact fun _ => rfl
          | cons x rest ih =>
            intro h
            have hx : x ≠ n := fun e => h (by simp [e])
            simp only [List.map_cons, aget, hx, if_false]
            exact ih fun hm => h (by simp [hm])
        exact this _ (by simp)
      have hset : ∀ l : List (Nat × Loop), aget l n = none → aset l n ⟨n, n⟩ = l ++ [(n, ⟨n, n⟩)] := by
        intro l
        induction l with
        | nil => exact fun _ => rfl
        | cons x rest ih =>
          obtain ⟨a, b⟩ := x
          intro h
          by_cases ha : a = n
          · simp [aget, ha] at h
          · simp only [aget, ha, if_false] at h
            simp only [aset, ha, if_false, List.cons_append, ih h]
      show (client _ ⟨n, n⟩).1 = _
      unfold client
      dsimp only
      rw [hnone]
      exact hset _ hnone
  unfold kept
  rw [key, List.length_map, List.length_range]

end Verif.RedisCache.Props
