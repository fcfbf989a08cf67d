import Verif.Controllers.Lemmas

/-!
# C70: which handler of a controller answers

A request to a controller is answered by the handler the class has for the request's method (`HEAD`
by the one for `GET` if there is none of its own); every other request is refused with status 405,
naming the methods that are served.
-/

namespace Verif.Controllers

open Spec

/-- A controller with two handlers and a helper. -/
def exCtrl : Attrs :=
  [("get".toList, .call 1), ("post".toList, .call 2), ("delete_all".toList, .call 3)]

theorem exCtrl_plain : Plain exCtrl := by
  intro kv hkv hm
  simp only [exCtrl, List.mem_cons, List.not_mem_nil, or_false] at hkv
  rcases hkv with h | h | h <;> subst h <;> exact ⟨_, rfl⟩

/-- **C70 (partial).**  For every method of HTTP, the handler written for it answers, or the request
is refused.

The full statement is that `Right own m (dispatch …)` holds for every text `m` and every class.
Missing: texts that are not methods of HTTP (`C70_helper_false`, `C70_case_false`), the `Allow` field
of a refusal (`C70_allow_false`, `C70_head_false`), and classes with something else than a function
under the name of a method (`C70_none_false`). -/
theorem C70_dispatch_partial (own : Attrs) (hp : Plain own) (app : Bool) (m : Str)
    (hm : m ∈ httpMethods) : RightHandler own m (dispatch (classOf own) app m) := by
  rw [RightHandler, dispatch, lookup_aget hp hm]
  cases answering own m with
  | some i => rfl
  | none => exact ⟨_, rfl⟩

example : Plain exCtrl ∧ "HEAD".toList ∈ httpMethods ∧ "PUT".toList ∈ httpMethods ∧
    dispatch (classOf exCtrl) true "HEAD".toList = .ran 1 ∧
    dispatch (classOf exCtrl) true "POST".toList = .ran 2 ∧
    dispatch (classOf exCtrl) true "PUT".toList = .refused none :=
  ⟨exCtrl_plain, by decide, by decide, by decide +kernel, by decide +kernel, by decide +kernel⟩

/-- **C70 (partial), other texts.**  A request whose method is not one of HTTP is refused if its name
in small letters is the name of no attribute of the controller, the inherited ones included.  (The
full statement has no such condition.) -/
theorem C70_other_partial (own : Attrs) (app : Bool) (m : Str) (hm : m ∉ httpMethods)
    (hn : ∀ kv ∈ classOf own, kv.1 ≠ lower m) :
    RightHandler own m (dispatch (classOf own) app m) := by
  rw [RightHandler, answering, if_neg hm, dispatch, lookup_other _ hm, aget_none hn]
  exact ⟨_, rfl⟩

example : "BREW".toList ∉ httpMethods ∧ (∀ kv ∈ classOf exCtrl, kv.1 ≠ lower "BREW".toList) :=
  ⟨by decide, by decide +kernel⟩

/-- **C70, what can be reached.**  Whatever the method of the request, the only thing that can run is
the attribute named like the method in small letters, or `get` for `HEAD`. -/
theorem C70_reach (c : Attrs) (app : Bool) (m : Str) (i : Nat) (h : dispatch c app m = .ran i) :
    (lower m, Attr.call i) ∈ c ∨ (m = "HEAD".toList ∧ ("get".toList, Attr.call i) ∈ c) := by
  have key : ∀ k, apply c app (aget c k) = .ran i → (k, Attr.call i) ∈ c := by
    intro k hk
    cases e : aget c k with
    | none => rw [e] at hk; cases hk
    | some v =>
      rw [e] at hk
      cases v with
      | call j =>
        have : j = i := by injection hk
        subst this; exact aget_mem e
      | refuse => cases hk
      | value => cases hk
      | nothing => cases hk
  rw [dispatch, lookupName] at h
  split at h
  · rename_i hc; exact Or.inr ⟨hc.1, key _ h⟩
  · exact Or.inl (key _ h)

example : dispatch (classOf exCtrl) false "GET".toList = .ran 1 := by decide +kernel

/-- **C70 (partial), the `Allow` field.**  A controller that is served outside an application names
in its refusals the methods it has handlers for, and each of them is served.  (The full statement
asks for all methods that are served, and for the field inside applications too.) -/
theorem C70_allow_partial (own : Attrs) (hp : Plain own) (m : Str) (hm : m ∈ httpMethods)
    (hn : answering own m = none) :
    ∃ l, dispatch (classOf own) false m = .refused (some l) ∧
      (∀ v, v ∈ l ↔ v ∈ httpMethods ∧ (written own v).isSome) ∧
      ∀ v ∈ l, ∃ i, dispatch (classOf own) false v = .ran i := by
  refine ⟨allowed (classOf own), ?_, fun v => mem_allowed hp v, ?_⟩
  · rw [dispatch, lookup_aget hp hm, hn]; rfl
  · intro v hv
    obtain ⟨hv1, hv2⟩ := (mem_allowed hp v).1 hv
    obtain ⟨i, hi⟩ := Option.isSome_iff_exists.1 hv2
    refine ⟨i, ?_⟩
    rw [dispatch, lookup_aget hp hv1, answering, if_pos hv1, hi]; rfl

example : Plain exCtrl ∧ "PUT".toList ∈ httpMethods ∧ answering exCtrl "PUT".toList = none ∧
    dispatch (classOf exCtrl) false "PUT".toList =
      .refused (some ["GET".toList, "POST".toList]) :=
  ⟨exCtrl_plain, by decide, by decide +kernel, by decide +kernel⟩

/-- **C70 is false of helpers.**  A request with the method `DELETE_ALL` (a valid token) runs the
helper `delete_all` of the controller, and `WITH_INIT` runs an inherited one. -/
theorem C70_helper_false :
    ∃ own m m', Plain own ∧ m ∉ httpMethods ∧ answering own m = none ∧
      dispatch (classOf own) true m = .ran 3 ∧
      m' ∉ httpMethods ∧ dispatch (classOf own) true m' = .ran 1000 :=
  ⟨exCtrl, "DELETE_ALL".toList, "WITH_INIT".toList, exCtrl_plain, by decide, by decide +kernel,
    by decide +kernel, by decide, by decide +kernel⟩

/-- The methods that name what a controller inherits. -/
def inheritedNames : List Str :=
  ["WITH_INIT".toList, "HANDLE_DISPATCH".toList, "HANDLE_NOT_ALLOWED".toList, "HANDLE_SIGNATURE".toList,
    "HANDLE_RESPONSE".toList, "HANDLE_WEBSOCKET_SESSION".toList, "EXTRACT_REQUEST_PARAMS_INFORMATION".toList,
    "IS_EXPLICITLY_BOUND".toList, "SIGNATURE".toList, "PERMISSIONS".toList, "MIDDLEWARE".toList,
    "EXCEPTION_HANDLERS".toList, "DEPENDENCIES".toList, "BEFORE_REQUEST".toList, "AFTER_REQUEST".toList]

/-- **C70 is false of what is inherited**, for every controller that leaves these names alone: seven of these methods
run a function of the framework, one is refused as it should be, seven raise. -/
theorem C70_inherited_false (own : Attrs) (h : ∀ kv ∈ own, ∀ m ∈ inheritedNames, kv.1 ≠ lower m) :
    inheritedNames.map (dispatch (classOf own) true) =
      [.ran 1000, .ran 1001, .refused none, .ran 1002, .ran 1003, .ran 1004, .ran 1005, .ran 1006, .typeError,
        .typeError, .typeError, .typeError, .typeError, .typeError, .typeError] := by
  have key : ∀ m ∈ inheritedNames, dispatch (classOf own) true m = dispatch inherited true m := by
    intro m hm
    have ho : m ∉ httpMethods := by
      have : ∀ m ∈ inheritedNames, m ∉ httpMethods := by decide +kernel
      exact this m hm
    have hd : aget (classOf own) (lower m) = aget inherited (lower m) := by
      rw [classOf, aget_append, aget_none fun kv hk => h kv hk m hm]
    have hi : ∃ v, aget inherited (lower m) = some v := by
      have : ∀ m ∈ inheritedNames, (aget inherited (lower m)).isSome = true := by decide +kernel
      exact Option.isSome_iff_exists.1 (this m hm)
    obtain ⟨v, hv⟩ := hi
    rw [dispatch, dispatch, lookup_other _ ho, lookup_other _ ho, hd, hv]
    cases v <;> rfl
  rw [List.map_congr_left key]
  decide +kernel

example : ∀ kv ∈ exCtrl, ∀ m ∈ inheritedNames, kv.1 ≠ lower m := by decide +kernel

/-- **C70 is false of letter case.**  Methods of HTTP are case-sensitive (RFC 9110 section 9.1); the
method `post` is not `POST`, and a layer that looks for `POST` lets it pass, but it runs the handler
for `POST`. -/
theorem C70_case_false :
    ∃ own m, Plain own ∧ m ∉ httpMethods ∧ answering own m = none ∧
      dispatch (classOf own) true m = .ran 2 :=
  ⟨exCtrl, "post".toList, exCtrl_plain, by decide, by decide +kernel, by decide +kernel⟩

/-- **C70 is false of other attributes.**  A method named like an attribute that is no function
raises `TypeError` (a 500) in place of a refusal. -/
theorem C70_value_false :
    ∃ own m, Plain own ∧ answering own m = none ∧ dispatch (classOf own) true m = .typeError :=
  ⟨exCtrl, "PERMISSIONS".toList, exCtrl_plain, by decide +kernel, by decide +kernel⟩

/-- **C70 is false of `Allow` in applications.**  There the refusal has no `Allow` field, which RFC
9110 section 15.5.6 requires. -/
theorem C70_allow_false :
    ∃ own m, Plain own ∧ m ∈ httpMethods ∧ answering own m = none ∧
      dispatch (classOf own) true m = .refused none :=
  ⟨exCtrl, "PUT".toList, exCtrl_plain, by decide, by decide +kernel, by decide +kernel⟩

/-- **C70 is false of `HEAD` in `Allow`.**  `HEAD` is served by the handler for `GET`, but the field
does not name it. -/
theorem C70_head_false :
    ∃ own m l, Plain own ∧ dispatch (classOf own) false m = .refused (some l) ∧
      dispatch (classOf own) false "HEAD".toList = .ran 1 ∧ "HEAD".toList ∉ l :=
  ⟨exCtrl, "PUT".toList, ["GET".toList, "POST".toList], exCtrl_plain, by decide +kernel,
    by decide +kernel, by decide⟩

/-- **C70 is false of handlers taken away.**  A subclass that sets `post = None` serves no `POST`;
its refusals do not name it, but a `POST` raises `TypeError` in place of a refusal. -/
theorem C70_none_false :
    ∃ own m l, m ∈ httpMethods ∧ answering own m = none ∧
      dispatch (classOf own) false m = .typeError ∧
      dispatch (classOf own) false "PUT".toList = .refused (some l) ∧ m ∉ l :=
  ⟨("post".toList, .nothing) :: exCtrl, "POST".toList, ["GET".toList], by decide, by decide +kernel,
    by decide +kernel, by decide +kernel, by decide⟩

end Verif.Controllers
