import Verif.Pages.Lemmas

/-!
# C136: a page shows its own request and what was given for it

The full statement: the page of a response shows what the handler passed, what the context processors give for its
request and its request, whatever other requests are answered before it or meanwhile; the dictionary of the handler
is left alone; and additional keyword arguments are passed to the template.

All of it fails when handlers pass one dictionary (say, of the module) more than once; see the theorems ending in
`_false`.
-/

namespace Verif.Pages.Props

open Verif Verif.Pages Verif.Pages.Spec

/-- **C136 where every request passes a dictionary of its own.**  For every history of making and sending responses in
any order, in a synchronous or an asynchronous environment, every page sent shows what belongs to its response. -/
theorem C136_partial (late : Bool) (procs : List Processor) (dicts : Nat → Dict) (h : List Action) (ho : Own h)
    (i : Nat) (page : Dict) (hs : (i, page) ∈ (run late procs dicts h).sent) :
    ∃ r d, (makes h)[i]? = some (r, d) ∧ ∀ k, page k = shows procs r (dicts d) k := by
  have hi : Inv late procs dicts [] ⟨dicts, [], []⟩ :=
    ⟨rfl, (fun _ h => nomatch h), (fun _ h => nomatch h), (fun _ _ => rfl), (fun _ h => nomatch h)⟩
  have hr := inv_run h hi ho
  obtain ⟨x, h1, h2⟩ := hr.sent _ hs
  refine ⟨x.req, x.dict, ?_, fun k => ?_⟩
  · have hm := hr.made
    rw [List.nil_append] at hm
    rw [← hm, List.getElem?_map]
    show Option.map _ ((run late procs dicts h).made[i]?) = _
    rw [show (run late procs dicts h).made[i]? = some x from h1]
    rfl
  · rw [show page = prepare procs x.req (dicts x.dict) from h2, prepare_shows]

/-- The name of the user. -/
def userKey : Str := "user".toList

/-- A processor that gives the user of requests with one, which are those with odd numbers. -/
def currentUser : Processor := fun r k => if k = userKey ∧ r % 2 = 1 then some (.data r) else none

/-- Empty dictionaries. -/
def empty : Nat → Dict := fun _ _ => none

/-- Two requests at once, with dictionaries of their own. -/
example : Own [.make 1 10, .make 2 20, .send 1, .send 0] := by
  unfold Own
  decide

example : ((run true [currentUser] empty [.make 1 10, .make 2 20, .send 1, .send 0]).sent.map fun p =>
    (p.1, p.2 userKey, p.2 requestKey)) =
    [(1, none, some (.request 2)), (0, some (.data 1), some (.request 1))] := by decide +kernel

/-- **C136, the request in the page.**  In such a history the page has its own request, if neither the processors nor
the handlers give another. -/
theorem C136_request_partial (late : Bool) (procs : List Processor) (dicts : Nat → Dict) (h : List Action)
    (ho : Own h) (hp : ∀ p ∈ procs, ∀ r, p r requestKey = none) (hd : ∀ d, dicts d requestKey = none)
    (i : Nat) (page : Dict) (hs : (i, page) ∈ (run late procs dicts h).sent) :
    ∃ r d, (makes h)[i]? = some (r, d) ∧ page requestKey = some (.request r) := by
  obtain ⟨r, d, h1, h2⟩ := C136_partial late procs dicts h ho i page hs
  refine ⟨r, d, h1, ?_⟩
  rw [h2, ← prepare_shows, prepare_request hp, hd]

/-- **C136 fails for a dictionary that is passed again: the first request stays.**  Once a dictionary was passed for a
request, every page made with it later, for whatever request, shows the first one, so its user, its session and the
links made from it. -/
theorem C136_shared_false (late : Bool) (procs : List Processor) (dicts : Nat → Dict) (r d : Nat) (h : List Action)
    (hp : ∀ p ∈ procs, ∀ r, p r requestKey = none) (hd : dicts d requestKey = none)
    (i q : Nat) (page : Dict) (hs : (i, page) ∈ (run late procs dicts (.make r d :: h)).sent)
    (hi : (makes (.make r d :: h))[i]? = some (q, d)) : page requestKey = some (.request r) := by
  have hfirst : prepare procs r (dicts d) requestKey = some (.request r) := by
    rw [prepare_request hp, hd]
  have h0 : Stuck d r (step late procs ⟨dicts, [], []⟩ (.make r d)) := by
    refine ⟨?_, ?_, (fun _ h => nomatch h), (fun _ h => nomatch h)⟩
    · show (if d = d then prepare procs r (dicts d) else dicts d) requestKey = _
      rw [if_pos rfl]
      exact hfirst
    · intro x hx _ c hc
      change x ∈ [_] at hx
      rw [List.mem_singleton] at hx
      subst hx
      cases late with
      | true => exact nomatch hc
      | false =>
        rw [← Option.some.inj hc]
        exact hfirst
  have hrun := stuck_run (late := late) hp h h0
  have hm := made_run (late := late) (procs := procs) (.make r d :: h) ⟨dicts, [], []⟩
  rw [List.map_nil, List.nil_append] at hm
  rw [← hm, List.getElem?_map] at hi
  cases hx : ((Action.make r d :: h).foldl (step late procs) ⟨dicts, [], []⟩).made[i]? with
  | none =>
    rw [hx] at hi
    exact nomatch hi
  | some x =>
    rw [hx] at hi
    exact hrun.sent (i, page) hs x hx (congrArg Prod.snd (Option.some.inj hi))

/-- The second visitor is shown the request of the first. -/
example : ((run false [] empty [.make 1 0, .send 0, .make 2 0, .send 1]).sent.map fun p => (p.1, p.2 requestKey)) =
    [(0, some (.request 1)), (1, some (.request 1))] := by decide +kernel

/-- **C136 fails for a dictionary that is passed again: data stay.**  What a processor gave for one request is shown to
the next for which it gives nothing: a visitor without a user sees the user of another. -/
theorem C136_data_false (late : Bool) (p : Processor) (dicts : Nat → Dict) (r q d : Nat) (k : Str) (v : Val)
    (hr : p r k = some v) (hq : p q k = none) (h1 : dicts d k ≠ some v) (h2 : k ≠ requestKey) :
    ((run late [p] dicts [.make r d, .send 0, .make q d, .send 1]).sent.map fun x => x.2 k) = [some v, some v] ∧
    shows [p] q (dicts d) k ≠ some v := by
  refine ⟨?_, ?_⟩
  · cases late <;> simp [run, step, prepare, setRequest, update, hr, hq]
  · have h2' : ¬ k = "request".toList := h2
    unfold shows
    have h3 : [p].reverse.findSome? (fun p => p q k) = none := by
      rw [List.reverse_singleton, List.findSome?_singleton, hq]
    rw [h3]
    dsimp only
    rw [if_neg h2']
    cases h4 : dicts d k with
    | none => exact fun h => nomatch h
    | some w =>
      rw [h4] at h1
      exact h1

example : ((run false [currentUser] empty [.make 1 0, .send 0, .make 2 0, .send 1]).sent.map fun p =>
    p.2 userKey) = [some (.data 1), some (.data 1)] := by decide +kernel

/-- **C136 fails for responses made at once in an asynchronous environment.**  The page is rendered when it is sent,
with what a later request put into the dictionary meanwhile: the first visitor sees the user of the second. -/
theorem C136_late_false (p : Processor) (dicts : Nat → Dict) (r q d : Nat) (k : Str) (v w : Val)
    (hr : p r k = some v) (hq : p q k = some w) :
    ((run true [p] dicts [.make r d, .make q d, .send 0]).sent.map fun x => x.2 k) = [some w] ∧
    ((run false [p] dicts [.make r d, .make q d, .send 0]).sent.map fun x => x.2 k) = [some v] := by
  constructor <;> simp [run, step, prepare, setRequest, update, hr, hq]

example : ((run true [currentUser] empty [.make 1 0, .make 3 0, .send 0]).sent.map fun p => p.2 userKey) =
    [some (.data 3)] := by decide +kernel

/-- **C136 fails for the dictionary of the handler**: it is changed, and always has a request afterwards. -/
theorem C136_dictionary_false (late : Bool) (procs : List Processor) (dicts : Nat → Dict) (r d : Nat) :
    (run late procs dicts [.make r d]).dicts d = shows procs r (dicts d) ∧
    ((run late procs dicts [.make r d]).dicts d requestKey).isSome = true := by
  have h : (run late procs dicts [.make r d]).dicts d = prepare procs r (dicts d) := if_pos rfl
  refine ⟨by rw [h, prepare_shows], ?_⟩
  rw [h]
  unfold prepare setRequest
  cases procs.foldl (fun c p => update c (p r)) (dicts d) requestKey with
  | some v => rfl
  | none =>
    show (if requestKey = requestKey then some (Val.request r) else none).isSome = true
    rw [if_pos rfl]
    rfl

/-- **C136 fails for additional keyword arguments.**  The documentation of `get_template_response` says that they are
passed to the template; they change nothing. -/
theorem C136_extra_false {A : Type} (args : List A) (kwargs more : Str → Option A)
    (h : ∀ k ∈ parameters, more k = kwargs k) : parse args more = parse args kwargs := by
  unfold parse
  rw [List.mapIdx_eq_mapIdx_iff]
  intro i hi
  split
  · rfl
  · exact h _ (List.getElem_mem hi)

/-- A call with a name that is no parameter. -/
example : parse [1, 2] (fun k => if k = "user".toList then some 7 else none) =
    [some 1, some 2, none, none, none, none, none] := by decide +kernel

/-- **C136, names.**  Given by name, each of the seven arguments of `get_template_response` is taken from its name. -/
theorem C136_names {A : Type} (named : Str → Option A) :
    parse [] named = [named "request".toList, named "name".toList, named "context".toList,
      named "status_code".toList, named "headers".toList, named "media_type".toList, named "background".toList] := rfl

example : parse [] (fun k => if k = "context".toList then some 7 else none) =
    [none, none, some 7, none, none, none, none] := by decide +kernel

/-- **C136, arguments.**  The arguments reach their parameters by place or by name: whichever of them come first by
place, the result is that of passing all by name. -/
theorem C136_arguments {A : Type} (named : Str → Option A) (args : List A) (hl : args.length ≤ 7)
    (ha : ∀ i (h : i < args.length), named (parameters[i]'(Nat.lt_of_lt_of_le h hl)) = some args[i]) :
    parse args named = parse [] named := by
  unfold parse
  rw [List.mapIdx_eq_mapIdx_iff]
  intro i hi
  split
  · rename_i h
    rw [if_neg (show ¬ i < ([] : List A).length from Nat.not_lt_zero i), List.getElem?_eq_getElem h]
    exact (ha i h).symm
  · rw [if_neg (show ¬ i < ([] : List A).length from Nat.not_lt_zero i)]

end Verif.Pages.Props
