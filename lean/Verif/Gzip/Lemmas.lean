import Verif.Gzip.Spec
import Verif.MultiDict.Lemmas

namespace Verif.Gzip

open Verif Verif.MultiDict Spec

theorem valuesOf_eq (h : Items Str) (n : Str) : valuesOf h n = getall lower h n := by
  unfold valuesOf getall
  induction h with
  | nil => rfl
  | cons kv h ih =>
    by_cases hk : lower kv.1 = lower n
    · rw [List.filter_cons_of_pos (by simpa using hk), List.map_cons, ih,
        List.filterMap_cons_some (by rw [if_pos hk])]
    · rw [List.filter_cons_of_neg (by simpa using hk), ih, List.filterMap_cons_none (by rw [if_neg hk])]

/-- The tail of a streamed response. -/
theorem stream_tail (c : Codec) (min : Nat) (ds : List Bytes) (last : Bytes) (s : State c) (f : c.S)
    (hf : s.file = .isOpen f) (hb : s.buffer = []) (hs : s.started = true) (he : s.encodingSet = false) :
    ∃ (outs : List Bytes) (lastOut : Bytes),
      runFrom min s ((ds.map fun d => Msg.body d true) ++ [.body last false]) =
        some ((outs.map fun d => Msg.body d true) ++ [.body lastOut false]) ∧
      outs.length = ds.length ∧ outs.flatten ++ lastOut = written c f (ds ++ [last]) := by
  induction ds generalizing s f with
  | nil =>
    refine ⟨[], (c.write f last).2 ++ c.close (c.write f last).1, ?_, rfl, rfl⟩
    simp [runFrom, step, onBody, State.write, State.close, hf, hb, hs, he]
  | cons d ds ih =>
    let s' : State c := { s with file := .isOpen (c.write f d).1, buffer := [] }
    obtain ⟨outs, lo, h1, h2, h3⟩ := ih s' (c.write f d).1 rfl rfl hs he
    refine ⟨(c.write f d).2 :: outs, lo, ?_, by simp [h2], ?_⟩
    · have hstep : step min s (.body d true) = some (s', [.body (c.write f d).2 true]) := by
        simp [step, onBody, State.write, hf, hb, hs, he, s']
      rw [List.map_cons, List.cons_append, runFrom, hstep]
      simp only
      rw [h1]
      rfl
    · rw [List.flatten_cons, List.append_assoc, h3]
      rfl

theorem encoded_tail (c : Codec) (min : Nat) (ms : List (Bytes × Bool)) (s : State c)
    (hs : s.started = true) (he : s.encodingSet = true) :
    runFrom min s (ms.map fun m => Msg.body m.1 m.2) = some (ms.map fun m => Msg.body m.1 m.2) := by
  induction ms with
  | nil => rfl
  | cons m ms ih =>
    have hstep : step min s (.body m.1 m.2) = some (s, [.body m.1 m.2]) := by
      simp [step, onEncoded, hs, he]
    rw [List.map_cons, runFrom, hstep]
    simp only
    rw [ih]
    rfl

theorem response_map (h : Items Str) (ds : List Bytes) (last : Bytes) :
    response h ds last =
      .start h :: ((ds.map fun d => (d, true)) ++ [(last, false)]).map fun m => Msg.body m.1 m.2 := by
  simp [response]

theorem run_start (c : Codec) (min : Nat) (h : Items Str) (ms : List Msg) :
    run c min (.start h :: ms) = runFrom min (onStart (State.init c) h) ms := by
  unfold run
  rw [runFrom, step]
  simp only
  cases runFrom min (onStart (State.init c) h) ms <;> rfl

theorem onStart_eq (c : Codec) (h : Items Str) (b : Bool)
    (hb : (MultiDict.get lower h "content-encoding".toList).isSome = b) :
    onStart (State.init c) h = ⟨some h, false, b, .unused, []⟩ := by
  unfold onStart
  rw [hb]
  rfl

theorem lower_ne_cl : lower "Content-Length".toList ≠ lower "Content-Encoding".toList := by decide
theorem lower_ne_vary : lower "Content-Length".toList ≠ lower "vary".toList := by decide
theorem lower_ce_ne_vary : lower "Content-Encoding".toList ≠ lower "vary".toList := by decide

theorem getall_addVary_other (d : Items Str) (v k : Str) (hk : lower k ≠ lower "vary".toList) :
    getall lower (addVary d v) k = getall lower d k := by
  unfold addVary
  split <;> rw [getall_setitem, if_neg hk]

theorem getall_addVary_head (d : Items Str) (v : Str) :
    getall lower (addVary d v) "vary".toList =
      match get lower d "vary".toList with
      | some e => [commaJoin e v]
      | none => [v] := by
  unfold addVary
  split
  · rename_i h; rw [getall_setitem, if_pos rfl, h]
  · rename_i h; rw [getall_setitem, if_pos rfl, h]

/-- A message after the last one of a stream. -/
theorem stream_over (c : Codec) (min : Nat) (ds : List Bytes) (last : Bytes) (extra : Bytes) (more : Bool)
    (s : State c) (f : c.S) (h1 : s.started = true) (h2 : s.encodingSet = false) (h3 : s.file = .isOpen f) :
    runFrom min s ((ds.map fun d => Msg.body d true) ++ [.body last false, .body extra more]) = none := by
  induction ds generalizing s f with
  | nil =>
    simp [runFrom, step, onBody, State.write, State.close, h1, h2, h3]
  | cons d ds ih =>
    rw [List.map_cons, List.cons_append, runFrom]
    have hstep : step min s (.body d true) =
        some ({ s with file := .isOpen (c.write f d).1, buffer := [] }, [.body (s.buffer ++ (c.write f d).2) true]) := by
      simp [step, onBody, State.write, h1, h2, h3]
    rw [hstep]
    dsimp only
    rw [ih ⟨s.initial, s.started, s.encodingSet, .isOpen (c.write f d).1, []⟩ (c.write f d).1 h1 h2 rfl]

end Verif.Gzip
