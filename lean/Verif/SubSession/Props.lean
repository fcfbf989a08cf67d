import Verif.SubSession.Lemmas

/-!
# C83 — Applications that share a session keep their parts apart

Full statement: with `SessionContextMiddleware(sub_path=…)` several applications share one session.  Each finds in
`session` exactly what its own earlier requests left there, whatever the others do, and the rest of the session is as
if the middleware was not there.  A part that is empty leaves nothing behind, and what is deleted through
`request.session` is deleted.

Proved: all of this for any sequence of requests, for applications that leave the keys of the parts to the
middleware and send nothing before the response starts.  False: a message before the start of the response (a server
push) separates `session` from what is stored; clearing `request.session` does not clear a part, also not when
`SessionFixingMiddleware` does it; a value that is no dictionary makes `session` unusable.
-/

namespace Verif.SubSession

open Verif Verif.SubSession.Spec

/-- **C83, what an application finds**: its own part. -/
theorem C83_seen (P : List Str) (he : [] ∉ P) (s : Stored) (hs : ∀ p ∈ P, Free s p) (outer : List Str) (p : Str)
    (ho : ∀ o ∈ outer, o ∈ P) (hp : p ∈ P) : seen s (outer ++ [p]) = some (part s p) := by
  obtain ⟨st, fs, e1, h1, h2, _, _⟩ := start_inv P he s hs outer p ho hp
  unfold seen
  rw [e1]
  simp only [h2]
  exact congrArg some (h1.parts p hp)

example : seen [("a".toList, .dict [("x".toList, "1".toList)]), ("b".toList, .dict [("y".toList, "2".toList)])]
    ["a".toList, "b".toList] = some [("y".toList, "2".toList)] := by decide

/-- **C83, the parts.**  After any sequence of requests the part of each application is what its own operations made
of it; the operations of the others do not matter. -/
theorem C83_parts_partial (P : List Str) (he : [] ∉ P) (rs : List Request) (hr : ∀ r ∈ rs, Fair P r) (s : Stored)
    (hs : ∀ p ∈ P, Free s p) (p : Str) (hp : p ∈ P) :
    part (history s rs) p =
      after (part s p) ((rs.filter fun r => r.path = p).flatMap fun r => own r.before) := by
  unfold history
  induction rs generalizing s with
  | nil => rfl
  | cons r rs ih =>
    obtain ⟨s', e, h1, _⟩ := serve_saved P he s hs r (hr r (by simp))
    have h1s : one s r = s' := by unfold one; rw [e]; rfl
    rw [List.foldl_cons, h1s, ih (fun x hx => hr x (List.mem_cons_of_mem _ hx)) s' fun q hq => (h1 q hq).1,
      (h1 p hp).2]
    by_cases ep : p = r.path
    · rw [if_pos ep, List.filter_cons_of_pos (by simpa using ep.symm), List.flatMap_cons]
      unfold after
      rw [List.foldl_append]
    · rw [if_neg ep, List.filter_cons_of_neg (by simpa using fun h : r.path = p => ep h.symm)]

example : history [] [⟨[], "a".toList, [.session (.set "x".toList "1".toList)], []⟩,
    ⟨["a".toList], "b".toList, [.session (.set "x".toList "2".toList), .request (.set "n".toList "v".toList)], []⟩,
    ⟨[], "a".toList, [.session (.set "y".toList "3".toList)], []⟩,
    ⟨[], "b".toList, [.session .clear], []⟩] =
    [("a".toList, .dict [("x".toList, "1".toList), ("y".toList, "3".toList)]), ("n".toList, .text "v".toList)] := by
  decide

/-- **C83, the rest of the session.**  A key that is no path has the value that the operations through
`request.session` gave it. -/
theorem C83_rest_partial (P : List Str) (he : [] ∉ P) (rs : List Request) (hr : ∀ r ∈ rs, Fair P r) (s : Stored)
    (hs : ∀ p ∈ P, Free s p) (k : Str) (hk : k ∉ P) :
    aget (history s rs) k = valueAfter k (aget s k) (rs.flatMap fun r => direct r.before) := by
  unfold history
  induction rs generalizing s with
  | nil => rfl
  | cons r rs ih =>
    obtain ⟨s', e, h1, h2⟩ := serve_saved P he s hs r (hr r (by simp))
    have h1s : one s r = s' := by unfold one; rw [e]; rfl
    rw [List.foldl_cons, h1s, ih (fun x hx => hr x (List.mem_cons_of_mem _ hx)) s' fun q hq => (h1 q hq).1,
      h2 k hk, List.flatMap_cons]
    generalize aget s k = v
    induction direct r.before generalizing v with
    | nil => rfl
    | cons op ops ih2 =>
      rw [valueAfter_cons k v op ops, ih2, List.cons_append]
      exact (valueAfter_cons k v op _).symm

example : Fair ["a".toList, "b".toList] ⟨["a".toList], "b".toList,
    [.session (.set "x".toList "2".toList), .request (.set "n".toList "v".toList)], []⟩ :=
  ⟨by decide, by decide, by
    intro a ha
    rcases List.mem_cons.mp ha with rfl | ha
    · exact trivial
    · rw [List.mem_singleton.mp ha]
      show "n".toList ∉ ["a".toList, "b".toList]
      decide⟩

/-- **C83, nothing is left behind.**  An application that does not touch its session leaves the stored session as it
is; nothing is added for a part that does not exist. -/
theorem C83_untouched (s : Stored) (hn : (s.map (·.1)).Nodup) (p : Str) (hp : p ≠ [])
    (hs : aget s p = none ∨ ∃ x d, aget s p = some (.dict (x :: d))) (later : List Act) :
    serve s [p] (.send true :: later) = some s := by
  unfold serve
  show (steps (sent true (enter p (load s))) later).saved = _
  refine saved_stays _ _ _ ?_
  rcases hs with h | ⟨x, d, h⟩
  · have hg : aget (load s).global p = none := by rw [aget_load, h]; rfl
    have henter : enter p (load s) = ⟨aset (load s).global p .dict, fun k => if k = p then [] else (load s).heap k,
        [⟨p, .dict, false⟩], none⟩ := by
      unfold enter
      rw [if_neg hp, hg]
      rfl
    have hheap : (fun k => if k = p then [] else (load s).heap k) = (load s).heap := by
      funext k
      by_cases e : k = p
      · rw [if_pos e, e]
        show _ = match aget s p with | some (.dict d) => d | _ => []
        rw [h]
      · rw [if_neg e]
    have hh : (load s).heap p = [] := by
      show (match aget s p with | some (.dict d) => d | _ => []) = []
      rw [h]
    rw [henter, hheap]
    have hc : cleanup (load s).heap (aset (load s).global p .dict) ⟨p, .dict, false⟩ = (load s).global := by
      unfold cleanup falsy
      rw [if_neg (by simp [hp])]
      simp only [hh]
      exact adel_aset _ _ _ hg
    unfold sent
    simp only [List.foldl_cons, List.foldl_nil, hc]
    show some (save _) = _
    exact congrArg some (save_load s hn)
  · have hg : aget (load s).global p = some .dict := by rw [aget_load, h]; rfl
    have henter : enter p (load s) = ⟨(load s).global, (load s).heap, [⟨p, .dict, false⟩], none⟩ := by
      unfold enter
      rw [if_neg hp, hg]
      rfl
    have hh : (load s).heap p = x :: d := by
      show (match aget s p with | some (.dict d) => d | _ => []) = x :: d
      rw [h]
    rw [henter]
    have hc : cleanup (load s).heap (load s).global ⟨p, .dict, false⟩ = (load s).global := by
      unfold cleanup falsy
      rw [if_neg (by simp [hp])]
      simp only [hh]
      exact aset_same _ _ _ hg
    unfold sent
    simp only [List.foldl_cons, List.foldl_nil, hc]
    show some (save _) = _
    exact congrArg some (save_load s hn)

/-- **C83, without `sub_path`** the object is the session itself: an operation through it and one through
`request.session` are the same. -/
theorem C83_whole (s : Stored) (op : Op) (acts : List Act) :
    serve s [[]] (.session op :: acts) = serve s [[]] (.request op :: acts) := rfl

/-- **C83 is false with a message before the response starts.**  After a server push the changes to a part that was
empty are not stored, and a part that is emptied leaves an empty dictionary. -/
theorem C83_push_false :
    serve [] ["app".toList] [.send false, .session (.set "user".toList "1".toList), .send true] = some [] ∧
    serve [("app".toList, .dict [("user".toList, "1".toList)])] ["app".toList]
      [.send false, .session .clear, .send true] = some [("app".toList, .dict [])] := by decide

/-- **C83 is false for `request.session.clear()`**: any part that is not empty is stored again. -/
theorem C83_clear_false (p : Str) (hp : p ≠ []) (x : Str × Str) (d : Dict) :
    serve [(p, .dict (x :: d))] [p] [.request .clear, .send true] = some [(p, .dict (x :: d))] := by
  unfold serve
  show (steps (enter p (load [(p, .dict (x :: d))])) _).saved = _
  have hh : (load [(p, .dict (x :: d))]).heap p = x :: d := by
    simp [load, aget]
  have hg : aget (load [(p, .dict (x :: d))]).global p = some .dict := by
    simp [load, aget, entryOf]
  have henter : enter p (load [(p, .dict (x :: d))]) = ⟨(load [(p, .dict (x :: d))]).global,
      (load [(p, .dict (x :: d))]).heap, [⟨p, .dict, false⟩], none⟩ := by
    unfold enter
    rw [if_neg hp, hg]
    rfl
  rw [henter]
  generalize (load [(p, .dict (x :: d))]).heap = heap at hh
  show (sent true ⟨[], heap, [⟨p, .dict, false⟩], none⟩).saved = _
  have hc : cleanup heap [] ⟨p, .dict, false⟩ = [(p, .dict)] := by
    unfold cleanup falsy
    rw [if_neg (by simp [hp])]
    simp only [hh]
    rfl
  unfold sent
  simp only [List.foldl_cons, List.foldl_nil, hc]
  show some [(p, Val.dict (heap p))] = _
  rw [hh]

/-- What `SessionFixingMiddleware` does to the session when the address of the client changed
(/repo/lilya/middleware/session_fixing.py 64-78). -/
def fixing (ip : Str) : List Act := [.request .clear, .request (.set "real-clientip".toList ip)]

/-- **C83 is false with session fixing inside**: a stolen cookie keeps its part.  The handler at the new address finds
the user of the old one, and the cookie is issued for the new address. -/
theorem C83_fixing_false :
    let stolen : Stored :=
      [("real-clientip".toList, .text "10.0.0.1".toList), ("app".toList, .dict [("user".toList, "1".toList)])]
    seen stolen ["app".toList] = some [("user".toList, "1".toList)] ∧
    serve stolen ["app".toList] (fixing "10.0.0.2".toList ++ [.send true]) =
      some [("real-clientip".toList, .text "10.0.0.2".toList), ("app".toList, .dict [("user".toList, "1".toList)])] :=
          by
  decide

/-- With session fixing outside the parts are gone before the middleware looks for them. -/
theorem C83_fixing_partial (ip p : Str) (hp : p ≠ []) (hk : p ≠ "real-clientip".toList) :
    seen [("real-clientip".toList, .text ip)] [p] = some [] := by
  have hn : aget ([("real-clientip".toList, .text ip)] : Stored) p = none := by
    unfold aget
    rw [if_neg fun e => hk e.symm]
    rfl
  have h := C83_seen [p] (by simpa using hp.symm) [("real-clientip".toList, .text ip)]
    (fun q hq => by
      rw [List.mem_singleton.mp hq]
      intro v hv
      rw [hn] at hv
      cases hv) [] p (by simp) (by simp)
  rw [List.nil_append] at h
  rw [h]
  unfold part
  rw [hn]

/-- **C83 is false when the key is used otherwise**: below a value that is no dictionary `session` cannot be used,
nothing is stored for the application, and the value stays unless it counts as empty. -/
theorem C83_occupied_false (p t : Str) (hp : p ≠ []) (ht : t ≠ []) (op : Op) (acts : List Act) :
    seen [(p, .text t)] [p] = none ∧ serve [(p, .text t)] [p] (.session op :: acts) = none ∧
    serve [(p, .text t)] [p] [.send true] = some [(p, .text t)] := by
  have hg : aget (load [(p, .text t)]).global p = some (.text t) := by simp [load, aget, entryOf]
  have henter : enter p (load [(p, .text t)]) = ⟨(load [(p, .text t)]).global,
      (load [(p, .text t)]).heap, [⟨p, .text t, false⟩], none⟩ := by
    unfold enter
    rw [if_neg hp, hg]
    rfl
  refine ⟨?_, ?_, ?_⟩
  · unfold seen
    show (match (enter p (load [(p, .text t)])).frames with
      | [] => none
      | f :: _ => match f.held with
        | .dict => some ((enter p (load [(p, .text t)])).heap f.sub)
        | _ => none) = none
    rw [henter]
  · unfold serve
    show (steps (enter p (load [(p, .text t)])) _).saved = none
    rw [henter]
    show (match step _ (.session op) with | some st' => steps st' acts | none => _).saved = none
    rw [show step ⟨(load [(p, .text t)]).global, (load [(p, .text t)]).heap, [⟨p, .text t, false⟩], none⟩
      (.session op) = none from if_neg hp]
  · unfold serve
    show (sent true (enter p (load [(p, .text t)]))).saved = _
    rw [henter]
    have hc : cleanup (load [(p, .text t)]).heap (load [(p, .text t)]).global ⟨p, .text t, false⟩ =
        (load [(p, .text t)]).global := by
      unfold cleanup falsy
      rw [if_neg (by simp [hp])]
      simp only [ht]
      exact aset_same _ _ _ hg
    unfold sent
    simp only [List.foldl_cons, List.foldl_nil, hc]
    rfl

/-- **C83** (operations): deleting a key of a part takes this key and no other; setting one replaces its value;
clearing takes all. -/
theorem C83_operations (d : Dict) (k k' v : Str) :
    aget (after d [.del k]) k' = (if k' = k then none else aget d k') ∧
    aget (after d [.set k v]) k' = (if k' = k then some v else aget d k') ∧
    aget (after d [.clear]) k' = none := by
  refine ⟨?_, ?_, rfl⟩
  · show aget (adel d k) k' = _
    rw [aget_adel]
  · show aget (aset d k v) k' = _
    rw [aget_aset]

example : after [("x".toList, "1".toList), ("y".toList, "2".toList)] [.del "x".toList] =
    [("y".toList, "2".toList)] := rfl

end Verif.SubSession
