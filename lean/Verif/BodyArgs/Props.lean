import Verif.BodyArgs.Lemmas

/-!
# C77: the arguments of a handler come from where the documentation says
-/

namespace Verif.BodyArgs

open Spec

variable {A J V : Type}

/-! ## A small world for examples -/

namespace Ex

/-- Parsed bodies for the examples: numbers and dictionaries of numbers. -/
inductive Body where
  | num (n : Nat)
  | obj (kv : List (Str × Nat))
deriving DecidableEq

/-- Annotations for the examples: `int`, `dict` and `Any`. -/
inductive Ann where
  | int
  | dict
  | any
deriving DecidableEq

/-- Reading a body by annotation. -/
def read : Ann → Body → Option Body
  | .int, .num n => some (.num n)
  | .int, .obj _ => none
  | .dict, .obj d => some (.obj d)
  | .dict, .num _ => none
  | .any, b => some b

/-- The key of a dictionary. -/
def field : Body → Str → Option Body
  | .num _, _ => none
  | .obj d, k => (aget d k).map .num

/-- The outside: dependencies give 7, declared fields 8, the request 100, the context 101. -/
def env : Env Ann Body Body where
  structure_ := read
  field := field
  empty := .obj []
  falsy := fun b => b = .num 0 || b = .obj []
  dep := fun n => if n = "db".toList then some (.num 7) else none
  bound := fun n => if n = "q".toList then some (.num 8) else none
  request := .num 100
  context := .num 101

/-- `infer_body = True` and one dependency, `db`. -/
def conf : Conf := ⟨["db".toList], true⟩

end Ex

open Ex

/-! ## The arguments -/

/-- **C77.**  With `infer_body`, for an ordinary signature, if the request has no query parameter, header or
cookie with the name of an argument left for the body and every ordinary default belongs to an argument in the
path (or the signature has nothing but defaults), the handler is called exactly when every argument has a
source, and then with exactly what its source gives.

In full, the property would hold of every request and every signature; C77_cookie_false, C77_header_false and
C77_default_false show that it does not. -/
theorem C77_args_partial (E : Env A J V) (c : Conf) (ps : List (Param A)) (r : Req J V)
    (hi : c.infer = true) (ho : Ordinary c r ps) (hq : Quiet c r ps)
    (hd : fast ps = true ∨ NoDefaults r ps) (out : List (Str × Arg V)) :
    handle E c ps r = some out ↔
      ∃ g : Param A → Arg V, (∀ p ∈ ps, Gets E c ps r p (g p)) ∧ out = ps.map fun p => (p.name, g p) :=
  handle_iff hi ho hq hd out

/-- Without `infer_body` nothing is taken from the body: a handler with an argument left over is never called,
and any other gets what the sources give, defaults included, whatever names the request uses. -/
theorem C77_off (E : Env A J V) (c : Conf) (ps : List (Param A)) (r : Req J V) (hi : c.infer = false)
    (ho : Ordinary c r ps) (out : List (Str × Arg V)) :
    handle E c ps r = some out ↔ (∀ p ∈ ps, ¬ IsBody c r p) ∧
      ∃ g : Param A → Arg V, (∀ p ∈ ps, Gets E c ps r p (g p)) ∧ out = ps.map fun p => (p.name, g p) :=
  handle_off hi ho out

/-- An argument has at most one source: what a handler gets is determined. -/
theorem C77_unique (E : Env A J V) (c : Conf) (ps : List (Param A)) (r : Req J V) (ho : Ordinary c r ps)
    (p : Param A) (hp : p ∈ ps) (a b : Arg V) (ha : Gets E c ps r p a) (hb : Gets E c ps r p b) : a = b := by
  classical
  have hqb : ∀ p ∈ ps, decide (IsBody c r p) = true ↔ IsBody c r p := fun p _ => decide_eq_true_iff
  rw [((gets_iff ho hqb hp).mp ha).2.2, ((gets_iff ho hqb hp).mp hb).2.2]

/-- A handler with a path parameter, a dependency, a declared field, the request and two arguments from the
body. -/
def sig : List (Param Ann) :=
  [⟨"id".toList, .empty, .int⟩, ⟨"db".toList, .empty, .any⟩, ⟨"q".toList, .bound, .int⟩,
    ⟨"request".toList, .empty, .any⟩, ⟨"user".toList, .empty, .int⟩, ⟨"item".toList, .empty, .int⟩]

/-- A request to it. -/
def req (cookies : List Str) : Req Body Body :=
  ⟨[("id".toList, .num 1)], ["page".toList], ["host".toList], cookies,
    .obj [("user".toList, 2), ("item".toList, 3)]⟩

example : handle env conf sig (req []) = some
    [("id".toList, .given (.num 1)), ("db".toList, .given (.num 7)), ("q".toList, .given (.num 8)),
      ("request".toList, .given (.num 100)), ("user".toList, .given (.num 2)),
      ("item".toList, .given (.num 3))] := by decide +kernel

/-- The names of the example that are not those of the framework. -/
theorem sig_ordinary (cookies : List Str) : Ordinary conf (req cookies) sig where
  names := by
    show ["id".toList, "db".toList, "q".toList, "request".toList, "user".toList, "item".toList].Nodup
    decide +kernel
  path := by show ["id".toList].Nodup; decide
  framework := by
    unfold IsFramework
    decide +kernel
  websocket := by decide +kernel

/-- The ordinary defaults of the example: none. -/
theorem sig_defaults (r : Req Body Body) : NoDefaults r sig := by
  have : ∀ p ∈ sig, p.default ≠ .value := by decide +kernel
  exact fun p hp h => absurd h (this p hp)

example : Quiet conf (req []) sig := by
  have : ∀ p ∈ sig, p.name ∉ ["page".toList] ∧ p.name ∉ ["host".toList] ∧ p.name ∉ ([] : List Str) := by
    decide +kernel
  exact fun p hp _ => this p hp

/-- One argument from the body gets the whole body. -/
example : handle env conf [⟨"user".toList, .empty, .dict⟩] (req []) = some
    [("user".toList, .given (.obj [("user".toList, 2), ("item".toList, 3)]))] := by decide +kernel

/-- Or what stands under its name. -/
example : handle env conf [⟨"user".toList, .empty, .int⟩] (req []) = some
    [("user".toList, .given (.num 2))] := by decide +kernel

/-- Without `infer_body` the handler is not called. -/
example : handle env ⟨["db".toList], false⟩ sig (req []) = none := by decide +kernel

/-- Without `infer_body` a default stays. -/
example : handle env ⟨[], false⟩
    [⟨"id".toList, .empty, .int⟩, ⟨"limit".toList, .value, .any⟩] (req []) = some
    [("id".toList, .given (.num 1)), ("limit".toList, .default)] := by decide +kernel

/-! ## Where it fails -/

/-- **Quiet is needed.**  A cookie with the name of an argument keeps the argument from being read: with a
body that has both `user` and `item`, a cookie `item` makes the call fail. -/
theorem C77_cookie_false : ∃ r : Req Body Body, Ordinary conf r sig ∧ NoDefaults r sig ∧
    (∃ g : Param Ann → Arg Body, ∀ p ∈ sig, Gets env conf sig r p (g p)) ∧ handle env conf sig r = none := by
  refine ⟨req ["item".toList], sig_ordinary _, sig_defaults _, ?_, by decide +kernel⟩
  have h := (C77_args_partial env conf sig (req []) rfl (sig_ordinary _) (by
    have : ∀ p ∈ sig, p.name ∉ ["page".toList] ∧ p.name ∉ ["host".toList] ∧ p.name ∉ ([] : List Str) := by
      decide +kernel
    exact fun p hp _ => this p hp) (.inr (sig_defaults _)) _).mp
    (show handle env conf sig (req []) = some
      [("id".toList, .given (.num 1)), ("db".toList, .given (.num 7)), ("q".toList, .given (.num 8)),
        ("request".toList, .given (.num 100)), ("user".toList, .given (.num 2)),
        ("item".toList, .given (.num 3))] by decide +kernel)
  obtain ⟨g, hg, _⟩ := h
  refine ⟨g, fun p hp => ?_⟩
  have := hg p hp
  clear hg hp
  generalize g p = a at this
  cases this with
  | bound v h1 h2 => exact .bound v h1 h2
  | dep v h1 h2 h3 => exact .dep v h1 h2 h3
  | request h => exact .request h
  | context h => exact .context h
  | path v h1 h2 h3 h4 => exact .path v h1 h2 h3 h4
  | default h1 h2 h3 => exact .default h1 h2 h3
  | body v h1 h2 =>
    refine .body v h1 ?_
    cases h2 with
    | alone j _ h3 h4 h5 => exact .alone j v h3 h4 h5
    | among q j k _ h3 h4 h5 h6 h7 h8 => exact .among q j k v h3 h4 h5 h6 h7 h8

/-- A handler with one argument, named `host`, left for the body. -/
def hostSig : List (Param Ann) := [⟨"host".toList, .empty, .int⟩]

/-- **Headers too.**  Every request has a header `host`, so an argument of that name is never read from the
body, whatever the body is. -/
theorem C77_header_false (r : Req Body Body) (h : "host".toList ∈ r.headers) (hp : r.path = []) :
    handle env conf hostSig r = none ∧
      (r.body = .num 5 → Gets env conf hostSig r ⟨"host".toList, .empty, .int⟩ (.given (.num 5))) := by
  constructor
  · have hb : hostSig.filter (fromBody conf r) = [] := by
      have hm : "host".toList ∈ reserved r := mem_reserved.mpr (.inr (.inr (.inl h)))
      unfold hostSig
      rw [List.filter_cons]
      have : fromBody conf r (⟨"host".toList, .empty, .int⟩ : Param Ann) = false := by
        unfold fromBody
        rw [show (decide ("host".toList ∉ reserved r)) = false from by simpa using hm]
        rfl
      rw [this]
      rfl
    have hs : slowArgs env conf hostSig r = some [] := by
      unfold slowArgs bodyArgs
      rw [if_pos (show conf.infer = true from rfl), hb]
      have : readPath r hostSig = [] := by unfold readPath; rw [hp]; rfl
      rw [this, show readBody env (content env r) [] = some [] from rfl]
      decide +kernel
    unfold handle
    rw [if_neg (by decide +kernel), hs]
    decide +kernel
  · intro hbody
    refine .body _ ⟨rfl, ?_, (by rw [hp]; intro v hv; cases hv), ?_⟩ 
      (.alone (.num 5) _ (.inr ?_) ?_ (.self _ rfl))
    · unfold IsDep; decide
    · unfold IsFramework; decide +kernel
    · rw [hbody]; exact ⟨by decide, rfl⟩
    · intro q hq _
      exact List.mem_singleton.mp hq

/-- A handler with a path parameter and ordinary defaults. -/
def limitSig (more : List Str) : List (Param Ann) :=
  ⟨"id".toList, .empty, .int⟩ :: more.map fun n => ⟨n, .value, .any⟩

/-- A request without a body. -/
def plain : Req Body Body := ⟨[("id".toList, .num 1)], [], [], [], .obj []⟩

/-- **Defaults are lost.**  `def handler(id: int, limit=10)` called without a body gets an empty dictionary for
`limit`; with two such arguments the call fails.  Both defaults stay in a handler without `id`. -/
theorem C77_default_false :
    (Gets env conf (limitSig ["limit".toList]) plain ⟨"limit".toList, .value, .any⟩ .default ∧
      handle env conf (limitSig ["limit".toList]) plain =
        some [("id".toList, .given (.num 1)), ("limit".toList, .given (.obj []))]) ∧
    handle env conf (limitSig ["limit".toList, "order".toList]) plain = none ∧
    handle env conf (limitSig ["limit".toList, "order".toList]).tail plain =
      some [("limit".toList, .default), ("order".toList, .default)] := by
  refine ⟨⟨.default rfl (by unfold IsFramework; decide +kernel) ?_, by decide +kernel⟩, by decide +kernel,
    by decide +kernel⟩
  intro v hv
  have : "limit".toList = "id".toList := congrArg Prod.fst (List.mem_singleton.mp hv)
  exact absurd this (by decide)

end Verif.BodyArgs
