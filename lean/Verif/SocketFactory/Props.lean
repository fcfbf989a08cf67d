import Verif.SocketFactory.Lemmas

/-!
# Controllers with constructor arguments: properties

C128: a class made by `with_init` serves every connection with a new controller of the given class, constructed
with that connection and the given arguments; so does a subclass of it.  This is false of nested calls
(`C128_nested_false`), of subclasses (`C128_sub_false`, `C128_sub_refused_false`) and of objects that are not awaited
at once (`C128_apart_false`).
-/

namespace Verif.SocketFactory.Props

open Verif.SocketFactory Spec

variable {A C : Type}

/-- Whatever was done before, with this class and others, a connection to a class made by `with_init` is served
by a controller of the class it was made from, with this connection and the arguments of the (first) call.
Missing: the arguments of later calls, subclasses. -/
theorem C128_partial (a0 : A) (h : List (Step A C)) (c : Cls A) (n : Nat) (a : A) (hw : Wraps c n a) (conn : C) :
    serves a0 h (.connect c conn) = some ⟨n, conn, a⟩ :=
  run_wraps hw _ conn a0

/-- A class for the examples: `with_init(5)` of class 0. -/
def one : Cls Nat := .factory 1 (.plain 0) 5

/-- A subclass of it. -/
def child : Cls Nat := .sub 2 one

example : Wraps one 0 5 := .once 1 0 5

example : serves 0 [.connect child 7, .make one 8, .call one 9] (.connect one 4) = some ⟨0, 4, 5⟩ := by decide

/-- On a route with permissions or middlewares this also holds of subclasses at any depth. -/
theorem C128_call (a0 : A) (h : List (Step A C)) (c : Cls A) (n : Nat) (a : A) (hb : Below c n a) (conn : C) :
    serves a0 h (.call c conn) = some ⟨n, conn, a⟩ :=
  inner_below hb _ conn

example : Below child 0 5 := .sub 2 0 one 5 (.top one 0 5 (.once 1 0 5))

example : serves 0 [.connect one 7, .make one 8] (.call child 4) = some ⟨0, 4, 5⟩ := by decide

/-- A subclass serves every connection with its own controller if no ancestor was used before the first
connection to the subclass, whatever is used later.  Missing: other orders of use. -/
theorem C128_sub_partial (a0 : A) (h h' : List (Step A C)) (i n : Nat) (p : Cls A) (a : A) (hb : Below p n a)
    (hu : ∀ x ∈ h, ∀ k, Ancestor p k → ¬ Uses (cls x) k) (first conn : C) :
    serves a0 h (.connect (.sub i p) first) = some ⟨n, first, a⟩ ∧
    serves a0 (h ++ .connect (.sub i p) first :: h') (.connect (.sub i p) conn) = some ⟨n, conn, a⟩ := by
  have hf := fresh_found a0 h p hu
  refine ⟨run_sub_own _ i n p first a a0 hb (.inr hf), ?_⟩
  refine run_sub_own _ i n p conn a a0 hb (.inl ?_)
  rw [after_append]
  exact le_after a0 _ h' i (made_run_sub _ i p first a0 (.inr hf))

example : ∀ x ∈ ([.connect (.plain 0) 3] : List (Step Nat Nat)), ∀ k, Ancestor one k → ¬ Uses (cls x) k := by
  intro x hx k _ hu
  cases List.mem_singleton.mp hx
  cases hu

example : serves 0 [.connect child 7, .connect one 8] (.connect child 4) = some ⟨0, 4, 5⟩ := by decide

/-- Once the class made by `with_init` has served a connection, the first connection to a subclass is served on that
other connection. -/
theorem C128_sub_false (a0 : A) (h : List (Step A C)) (i j n : Nat) (a : A) (hij : i ≠ j)
    (hu : ∀ x ∈ h, ¬ Uses (cls x) i) (other conn : C) :
    serves a0 (h ++ [.connect (.factory j (.plain n) a) other]) (.connect (.sub i (.factory j (.plain n) a)) conn) =
      some ⟨n, other, a⟩ := by
  have hm : (after a0 (St.start (C := C)) h).made i = false := by
    cases hm : (after a0 (St.start (C := C)) h).made i with
    | false => rfl
    | true =>
      have ho := only_after a0 (fun k => k ≠ i) (St.start (C := C)) h
        (fun x hx k hk he => hu x hx (he ▸ hk)) i hm
      cases ho with
      | inl h1 => simp [St.start] at h1
      | inr h1 => exact absurd rfl h1
  simp [serves, after_append, after, step, run, found, inner, St.store, St.mark, hm, hij]

example : ∀ x ∈ ([.connect one 3] : List (Step Nat Nat)), ¬ Uses (cls x) 2 := by
  intro x hx hu
  cases List.mem_singleton.mp hx
  cases hu with
  | base _ _ _ _ hu => cases hu

example : serves 0 [.connect one 7] (.connect child 4) = some ⟨0, 7, 5⟩ := by decide

/-- If the class was only used on a route with permissions, a connection to a subclass is refused with an
exception. -/
theorem C128_sub_refused_false :
    ∃ (p : Cls Nat) (n a : Nat), Wraps p n a ∧ serves 0 [.call p 7] (.connect (.sub 2 p) 4) = none :=
  ⟨one, 0, 5, .once 1 0 5, by decide⟩

/-- An object of a subclass that is made and awaited later, or called, is the one of the class if there is one already:
it serves the connection stored there.  Otherwise it is one of its own and serves its own connection. -/
theorem C128_sub_apart_false (a0 : A) (i j n : Nat) (a : A) (hij : i ≠ j) (x y : C) :
    serves a0 [.make (.factory j (.plain n) a) x, .call (.sub i (.factory j (.plain n) a)) y]
      (.wait (.sub i (.factory j (.plain n) a))) = some ⟨n, x, a⟩ ∧
    serves a0 [.make (.factory j (.plain n) a) x, .make (.sub i (.factory j (.plain n) a)) y]
      (.wait (.sub i (.factory j (.plain n) a))) = some ⟨n, x, a⟩ ∧
    serves a0 [.make (.sub i (.factory j (.plain n) a)) y] (.wait (.sub i (.factory j (.plain n) a))) =
      some ⟨n, y, a⟩ ∧
    serves a0 [.call (.sub i (.factory j (.plain n) a)) x, .make (.factory j (.plain n) a) y]
      (.wait (.sub i (.factory j (.plain n) a))) = none := by
  refine ⟨?_, ?_, ?_, ?_⟩ <;>
    simp [serves, after, step, build, wait, empty, run, found, inner, St.store, St.mark, St.start, hij]

example : serves 0 [.make one 7, .call child 8] (.wait child) = some ⟨0, 7, 5⟩ := by decide

/-- The arguments of a second call of `with_init` are never used. -/
theorem C128_nested_false (a0 : A) (h : List (Step A C)) (i j n : Nat) (a b : A) (hab : a ≠ b) (conn : C) :
    serves a0 h (.connect (.factory i (.factory j (.plain n) a) b) conn) ≠ some ⟨n, conn, b⟩ := by
  rw [C128_partial a0 h _ n a (.again i n _ a b (.once j n a)) conn]
  intro he
  cases he
  exact hab rfl

example : serves 0 [] (.connect (.factory 3 one 6) 4) = some ⟨0, 4, 5⟩ := by decide

/-- If two connections are made before the first is awaited, both are served on the second. -/
theorem C128_apart_false (a0 : A) (h : List (Step A C)) (i n : Nat) (a : A) (x y : C) :
    let c : Cls A := .factory i (.plain n) a
    serves a0 (h ++ [.make c x, .make c y]) (.wait c) = some ⟨n, y, a⟩ ∧
    serves a0 (h ++ [.make c x, .make c y, .wait c]) (.wait c) = some ⟨n, y, a⟩ := by
  constructor <;>
    simp [serves, after_append, after, step, build, wait, empty, run, found, inner, St.store, St.mark]

example : serves 0 [.make one 7, .make one 8] (.wait one) = some ⟨0, 8, 5⟩ := by decide

end Verif.SocketFactory.Props
