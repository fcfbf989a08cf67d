import Verif.HandlerPlan.Lemmas

/-!
# C131: handlers that do not know of each other
-/

namespace Verif.HandlerPlan.Props

open Verif.BodyArgs (Param Req Env Conf Arg)
open Verif.HandlerPlan.Spec

variable {J V : Type}

/-! ## Witnesses -/

/-- A request with nothing in it, for the examples: a dependency gives 7, a declared field gives 8, a type gives
its number, and the body has no keys. -/
def ask (infer form : Bool) (merged : List Str) : Call Nat Nat :=
  { env :=
      { structure_ := fun a _ => match a with
          | .type n => some n
          | _ => .none
        field := fun _ _ => .none
        empty := 0
        falsy := fun _ => false
        dep := fun _ => some 7
        bound := fun _ => some 8
        request := 5
        context := 6 }
    conf := ⟨merged, infer⟩
    req := ⟨[], [], [], [], 0⟩
    form := form }

/-- `def show(page: int = 1, size: int = 10)`. -/
def show_ (openapi : Bool) : Callable :=
  ⟨0, [⟨"page".toList, .value, .type 1⟩, ⟨"size".toList, .value, .type 1⟩], [], [], openapi⟩

/-- `def create(item: "Item")`, a method of a class with an attribute `Item`. -/
def create (own : Nat) (globals : List (Str × Nat)) (openapi : Bool) : Callable :=
  ⟨1, [⟨"item".toList, .empty, .name "Item".toList⟩], [("Item".toList, own)], globals, openapi⟩

/-- `def listing(request, db=Provides())`. -/
def listing (openapi : Bool) : Callable :=
  ⟨2, [⟨"request".toList, .empty, .none⟩, ⟨"db".toList, .provides, .none⟩], [], [], openapi⟩

/-- `def profile(request, user=Query())`, or a decorator over it that fills `user` and hides it. -/
def profile (hidden : Bool) : Callable :=
  ⟨3, ⟨"request".toList, .empty, .none⟩ :: (if hidden then [] else [⟨"user".toList, .bound, .none⟩]), [], [], false⟩

/-! ## What holds -/

/-- **C131.**  After any history of routes made and requests served, a route answers as if its handler were
the only one and had never been asked before, if the routes that use the same function use it from the same
side, nothing is provided under the names `request` and `context`, and, with body inference, each argument with
an ordinary default has a name that occurs in the request.

In full, the property would hold without these conditions; C131_again_false, C131_shared_false,
C131_hidden_false and C131_inherited_false show that it does not. -/
theorem C131_partial (ops : List (Op J V)) (n : Nat) (f : Callable) (x : Call J V)
    (hn : (handlers ops)[n]? = some f) (ha : ∀ g ∈ handlers ops, Agree f g)
    (hu : Unprovided x.conf) (hs : Settled x f.sig) : answer ops n x = alone f x := by
  obtain ⟨g, same, hg, e⟩ := answer_reply hn x
  have hm := first_mem hg
  rw [resolve_agree (ha g hm.1 hm.2)] at e
  rw [e, reply_any same (settled_resolve hs) hu, alone_reply]

/-- Two routes with the same decorated handler and a request before: the conditions can be met. -/
example : ∃ (ops : List (Op Nat Nat)) (f : Callable) (x : Call Nat Nat), ops.length = 3 ∧
    (handlers ops)[1]? = some f ∧ (∀ g ∈ handlers ops, Agree f g) ∧ Unprovided x.conf ∧ Settled x f.sig :=
  ⟨[.route (listing false), .route (listing true), .request 0 (ask true false ["db".toList])], listing true,
    ask true false ["db".toList], rfl, rfl,
    (fun g hg => by
      have : g = listing false ∨ g = listing true := by simpa [handlers] using hg
      rcases this with e | e <;> subst e <;> exact fun _ => ⟨rfl, rfl, rfl⟩),
    ⟨by decide, by decide⟩,
    (fun _ p hp hd => by
      have : p = ⟨"request".toList, .empty, .none⟩ ∨ p = ⟨"db".toList, .provides, .none⟩ := by
        simpa [listing] using hp
      rcases this with e | e <;> subst e <;> exact nomatch hd)⟩

/-- A handler that is not decorated with `openapi` and whose function serves no other route answers as if it
were the only one, whatever it is asked and whatever was asked before. -/
theorem C131_own (ops : List (Op J V)) (n : Nat) (f : Callable) (x : Call J V)
    (hn : (handlers ops)[n]? = some f) (ho : f.openapi = false)
    (hu : ∀ (m : Nat) (g : Callable), (handlers ops)[m]? = some g → g.target = f.target → m = n) :
    answer ops n x = alone f x := by
  obtain ⟨rt, e, g, h1, h2, h3, h4, h5, h6⟩ := route_facts hn
  subst h2
  have hp := (inv_run ops).plans n rt h1 ho hu
  have hm := first_mem h5
  obtain ⟨m, hg⟩ := List.getElem?_of_mem hm.1
  have hmn := hu m g hg hm.2
  subst hmn
  rw [hn] at hg
  cases hg
  rw [alone_reply]
  unfold answer
  rw [h1]
  show some (serve (run ops) rt x).2 = _
  rw [serve_reply hp rfl, ← h6]
  congr 1
  exact congrArg (fun b => reply rt.handler rt.sig b x) (decide_eq_true rfl)

example : ∃ (ops : List (Op Nat Nat)) (f : Callable), ops.length = 3 ∧ (handlers ops)[1]? = some f ∧
    f.openapi = false ∧
    ∀ (m : Nat) (g : Callable), (handlers ops)[m]? = some g → g.target = f.target → m = 1 :=
  ⟨[.route (listing true), .route (show_ false), .request 0 (ask true false [])], show_ false, rfl, rfl, rfl,
    fun m g hm ht => by
      match m with
      | 0 => cases hm; exact absurd ht (by decide)
      | 1 => rfl
      | k + 2 => exact nomatch hm⟩

/-- Alone, a handler is called with what its signature says (C77 says what that is), its annotations resolved:
also one decorated with `openapi`, unless it has to read a form. -/
theorem C131_alone (f : Callable) (x : Call J V)
    (h : f.openapi = false ∨ x.form = false ∨ x.conf.infer = false) :
    (alone f x).map Answer.args = some (BodyArgs.handle x.env x.conf (resolve f) x.req) := by
  rw [alone_reply]
  show some (reply f (resolve f) true x).args = _
  rw [reply_args h]

example : (show_ true).openapi = false ∨ (ask true false []).form = false ∨
    (ask true false []).conf.infer = false := Or.inr (Or.inl rfl)

/-- The decorator `openapi` does not change what the handler is called with, unless it has to read a form;
C131_form_false shows what happens then. -/
theorem C131_openapi_partial (f : Callable) (x : Call J V) (h : x.form = false ∨ x.conf.infer = false) :
    (alone f x).map Answer.args = (alone (plain f) x).map Answer.args := by
  have hp : resolve (plain f) = resolve f := resolve_agree ⟨rfl, rfl, rfl⟩
  rw [C131_alone f x (Or.inr h), C131_alone (plain f) x (Or.inl rfl), hp]

example : (ask true false []).form = false ∨ (ask true false []).conf.infer = false := Or.inl rfl

/-- But each dependency of a decorated handler is called twice. -/
theorem C131_twice (f : Callable) (x : Call J V) (a b : Answer V) (ho : f.openapi = true)
    (h : x.form = false ∨ x.conf.infer = false) (ha : alone f x = some a) (hb : alone (plain f) x = some b)
    (hc : b.args ≠ .none) : a.deps = b.deps ++ b.deps := by
  rw [alone_reply] at ha hb
  cases ha
  cases hb
  have hp : resolve (plain f) = resolve f := resolve_agree ⟨rfl, rfl, rfl⟩
  rw [hp] at hc ⊢
  have hg : (x.form && !((resolve f).isEmpty || (BodyArgs.fast (resolve f) && true)) &&
      readsBody x (resolve f)) = false := by
    rcases h with h | h
    · rw [h]; rfl
    · unfold readsBody; rw [h, Bool.false_and, Bool.and_false]
  unfold reply at hc ⊢
  dsimp only at hc ⊢
  cases hx : (pass x (resolve f) (resolve f) true false).args with
  | none => rw [hx] at hc; exact absurd rfl hc
  | some args =>
    dsimp only
    rw [if_pos ho, hg]
    rfl

example : ∃ (f : Callable) (x : Call Nat Nat) (a b : Answer Nat), f.openapi = true ∧
    (x.form = false ∨ x.conf.infer = false) ∧ alone f x = some a ∧ alone (plain f) x = some b ∧
    b.args ≠ .none :=
  ⟨listing true, ask false false ["db".toList], _, _, rfl, Or.inl rfl, rfl, rfl, by decide +kernel⟩

/-- **Refuted**: the decorator `openapi` only adds to the documentation.  With it the dependency `db` of
`listing` is called twice for one request. -/
theorem C131_twice_false : ∃ (f : Callable) (x : Call Nat Nat),
    (alone f x).map Answer.deps = some ["db".toList, "db".toList] ∧
    (alone (plain f) x).map Answer.deps = some ["db".toList] :=
  ⟨listing true, ask false false ["db".toList], by decide +kernel, by decide +kernel⟩

/-! ## Annotations -/

/-- Resolving annotations keeps the arguments, their order and their defaults; and if every name is known and
none means one thing in the class and another in the module, every argument gets the type that its annotation
means. -/
theorem C131_types_partial (f : Callable) :
    (resolve f).map (fun p => (p.name, p.default)) = f.sig.map (fun p => (p.name, p.default)) ∧
    ((∀ p ∈ f.sig, ∀ s, p.ann = .name s → (∃ t, Means f s t) ∧
        (aget f.owner s = .none ∨ aget f.globals s = .none)) →
      ∀ (i : Nat) (p : Param Ann), f.sig[i]? = some p →
        ∃ q, (resolve f)[i]? = some q ∧ Typed f p.ann q.ann) := by
  refine ⟨resolve_shape f, ?_⟩
  intro h
  have key : ∀ s : Sig, (∀ p ∈ s, p ∈ f.sig) → ∃ s', resolveAll f s = some s' ∧
      ∀ (i : Nat) (p : Param Ann), s[i]? = some p → ∃ q, s'[i]? = some q ∧ Typed f p.ann q.ann := by
    intro s
    induction s with
    | nil => exact fun _ => ⟨[], rfl, fun _ _ h => nomatch h⟩
    | cons p ps ih =>
      intro hs
      obtain ⟨s', h1, h2⟩ := ih (fun q hq => hs q (List.mem_cons_of_mem _ hq))
      have hp : ∃ a, resolveAnn f p.ann = some a ∧ Typed f p.ann a := by
        cases ha : p.ann with
        | none => exact ⟨.none, rfl, .none⟩
        | type n => exact ⟨.type n, rfl, .type n⟩
        | name s =>
          obtain ⟨⟨t, ht⟩, hc⟩ := h p (hs p (by simp)) s ha
          refine ⟨.type t, ?_, .name s t ht⟩
          have hl : lookup f s = some t := by
            unfold lookup
            rcases ht with ht | ⟨hn, hg⟩
            · rcases hc with hc | hc
              · rw [hc] at ht; exact nomatch ht
              · rw [hc]; exact ht
            · rw [hg]
          simp [resolveAnn, hl]
      obtain ⟨a, ha, hta⟩ := hp
      refine ⟨{ p with ann := a } :: s', by simp only [resolveAll, ha, h1], ?_⟩
      intro i q hq
      cases i with
      | zero => cases hq; exact ⟨{ p with ann := a }, rfl, hta⟩
      | succ i => exact h2 i q hq
  obtain ⟨s', h1, h2⟩ := key f.sig (fun _ hp => hp)
  unfold resolve
  rw [h1]
  exact h2

example : ∃ f : Callable, f.sig.length = 1 ∧ (∀ p ∈ f.sig, ∀ s, p.ann = .name s → (∃ t, Means f s t) ∧
    (aget f.owner s = .none ∨ aget f.globals s = .none)) := by
  refine ⟨create 3 [] false, rfl, ?_⟩
  intro p hp s hs
  have : p = ⟨"item".toList, .empty, .name "Item".toList⟩ := by simpa [create] using hp
  subst this
  cases hs
  exact ⟨⟨3, Or.inl (by decide +kernel)⟩, Or.inr rfl⟩

/-- **Refuted**: a name in the annotation of a method means what it means in the class.  A name of the module
hides that of the class. -/
theorem C131_class_false : ∃ (f : Callable) (s : Str) (t : Nat), f.sig.map Param.ann = [.name s] ∧
    Means f s t ∧ (resolve f).map Param.ann ≠ [.type t] :=
  ⟨create 3 [("Item".toList, 4)] false, "Item".toList, 3, rfl, Or.inl (by decide +kernel), by decide +kernel⟩

/-- **Refuted**: a name that is known is resolved.  One unknown name leaves all others as they are, and
arguments are then not converted to their types. -/
theorem C131_unknown_false : ∃ (f : Callable) (s : Str) (t : Nat), Means f s t ∧
    (f.sig.map Param.ann)[0]? = some (.name s) ∧ ((resolve f).map Param.ann)[0]? = some (.name s) :=
  ⟨⟨0, [⟨"a".toList, .empty, .name "Item".toList⟩, ⟨"b".toList, .empty, .name "Other".toList⟩], [],
    [("Item".toList, 3)], false⟩, "Item".toList, 3, Or.inr ⟨rfl, by decide +kernel⟩, rfl, by decide +kernel⟩

/-! ## What does not hold -/

/-- **Refuted**: a handler answers the same request the same way twice.  With body inference, a decorated
handler whose arguments have defaults answers the first request and fails on the second, which is the same:
the first made a new plan, so that the second goes the full way and looks for the defaults in the body. -/
theorem C131_again_false : ∃ (f : Callable) (x : Call Nat Nat),
    (answer [.route f] 0 x).map Answer.args =
      some (some [("page".toList, .default), ("size".toList, .default)]) ∧
    (answer [.route f, .request 0 x] 0 x).map Answer.args = some .none :=
  ⟨show_ true, ask true false [], by decide +kernel, by decide +kernel⟩

/-- **Refuted**: a second route does not change the first.  With body inference, the first of two routes to
one function stops answering when the second is made. -/
theorem C131_shared_false : ∃ (f : Callable) (x : Call Nat Nat), f.openapi = false ∧
    (answer [.route f] 0 x).map Answer.args =
      some (some [("page".toList, .default), ("size".toList, .default)]) ∧
    (answer [.route f, .route f] 0 x).map Answer.args = some .none ∧
    (answer [.route f, .route f] 1 x).map Answer.args =
      some (some [("page".toList, .default), ("size".toList, .default)]) :=
  ⟨show_ false, ask true false [], rfl, by decide +kernel, by decide +kernel, by decide +kernel⟩

/-- **Refuted**: a handler is called with the arguments of its own signature.  A decorator that fills an
argument and hides it is called with that argument if the bare function was made a route before, and fails. -/
theorem C131_hidden_false : ∃ (f g : Callable) (x : Call Nat Nat), x.conf.infer = false ∧
    (alone g x).map Answer.args = some (some [("request".toList, .given 5)]) ∧
    (answer [.route f, .route g] 1 x).map Answer.args = some .none :=
  ⟨profile false, profile true, ask false false [], rfl, by decide +kernel, by decide +kernel⟩

/-- **Refuted**: an inherited method is resolved for the class it is used with.  The second class gets values of
the type that the name has in the first. -/
theorem C131_inherited_false : ∃ (f g : Callable) (x : Call Nat Nat), f.sig.map Param.ann = g.sig.map Param.ann ∧
    (alone g x).map Answer.args = some (some [("item".toList, .given 4)]) ∧
    (answer [.route f, .route g] 1 x).map Answer.args = some (some [("item".toList, .given 3)]) :=
  ⟨create 3 [] false, create 4 [] false, ask true false [], rfl, by decide +kernel, by decide +kernel⟩

/-- **Refuted**: a decorated handler can take a form.  The form is read for the arguments that the wrapper
drops, and is gone when those of the handler are collected. -/
theorem C131_form_false : ∃ (f : Callable) (x : Call Nat Nat), x.form = true ∧
    (alone (plain f) x).map Answer.args = some (some [("item".toList, .given 3)]) ∧
    (alone f x).map Answer.args = some .none :=
  ⟨create 3 [] true, ask true true [], rfl, by decide +kernel, by decide +kernel⟩

end Verif.HandlerPlan.Props
