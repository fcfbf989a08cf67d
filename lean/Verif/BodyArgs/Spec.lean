import Verif.BodyArgs.Model

/-!
# Where the arguments of a handler come from

As the documentation says (`/repo/docs/en/docs/contrib/forms-and-body-inference.md`): declared fields,
dependencies, path parameters, the request itself, the default; every argument left over comes from the body,
which is the argument itself if there is one and has one key per argument if there are several.
-/

namespace Verif.BodyArgs.Spec

variable {A J V : Type}

/-- An argument that is a dependency: it says so, or it has no default and its name is provided. -/
def IsDep (c : Conf) (p : Param A) : Prop :=
  p.default = .provides ∨ p.default = .resolve ∨ (p.default = .empty ∧ p.name ∈ c.merged)

/-- An argument that the framework fills. -/
def IsFramework (p : Param A) : Prop := p.name = "request".toList ∨ p.name = "context".toList

/-- An argument that is left for the body: no default, no dependency, not in the path, not the framework's. -/
def IsBody (c : Conf) (r : Req J V) (p : Param A) : Prop :=
  p.default = .empty ∧ ¬ IsDep c p ∧ (∀ v, (p.name, v) ∉ r.path) ∧ ¬ IsFramework p

/-- What the whole body is worth for an argument: the body itself if it has the type, otherwise what stands
under the argument's name. -/
inductive Whole (E : Env A J V) (p : Param A) (j : J) : V → Prop where
  | self (v : V) (h : E.structure_ p.ann j = some v) : Whole E p j v
  | key (k : J) (v : V) (hn : E.structure_ p.ann j = none) (hk : E.field j p.name = some k)
      (h : E.structure_ p.ann k = some v) : Whole E p j v

/-- The body that is read: an empty one counts as an empty dictionary. -/
def Content (E : Env A J V) (r : Req J V) (j : J) : Prop :=
  (E.falsy r.body = true ∧ j = E.empty) ∨ (E.falsy r.body = false ∧ j = r.body)

/-- The value of an argument taken from the body. -/
inductive FromBody (E : Env A J V) (c : Conf) (ps : List (Param A)) (r : Req J V) (p : Param A) :
    V → Prop where
  | alone (j : J) (v : V) (hj : Content E r j) (h : ∀ q ∈ ps, IsBody c r q → q = p)
      (hv : Whole E p j v) : FromBody E c ps r p v
  | among (q : Param A) (j k : J) (v : V) (hj : Content E r j) (hq : q ∈ ps) (hb : IsBody c r q)
      (hne : q.name ≠ p.name) (hk : E.field j p.name = some k) (h : E.structure_ p.ann k = some v) :
      FromBody E c ps r p v

/-- The argument that a handler should get. -/
inductive Gets (E : Env A J V) (c : Conf) (ps : List (Param A)) (r : Req J V) (p : Param A) :
    Arg V → Prop where
  | bound (v : V) (hp : p.default = .bound) (h : E.bound p.name = some v) : Gets E c ps r p (.given v)
  | dep (v : V) (hp : IsDep c p) (hm : p.default = .provides → p.name ∈ c.merged)
      (h : E.dep p.name = some v) : Gets E c ps r p (.given v)
  | request (h : p.name = "request".toList) : Gets E c ps r p (.given E.request)
  | context (h : p.name = "context".toList) : Gets E c ps r p (.given E.context)
  | path (v : V) (hp : p.default = .empty ∨ p.default = .value) (hd : ¬ IsDep c p)
      (hf : ¬ IsFramework p) (h : (p.name, v) ∈ r.path) : Gets E c ps r p (.given v)
  | default (hp : p.default = .value) (hf : ¬ IsFramework p) (h : ∀ v, (p.name, v) ∉ r.path) :
      Gets E c ps r p .default
  | body (v : V) (hp : IsBody c r p) (h : FromBody E c ps r p v) : Gets E c ps r p (.given v)

/-- The request has no query parameter, header or cookie with the name of an argument left for
the body. -/
def Quiet (c : Conf) (r : Req J V) (ps : List (Param A)) : Prop :=
  ∀ p ∈ ps, IsBody c r p → p.name ∉ r.query ∧ p.name ∉ r.headers ∧ p.name ∉ r.cookies

/-- Ordinary signatures: distinct names, path parameters with distinct names, nothing declared for the names
`request` and `context`, and no `websocket`. -/
structure Ordinary (c : Conf) (r : Req J V) (ps : List (Param A)) : Prop where
  names : (ps.map Param.name).Nodup
  path : (r.path.map Prod.fst).Nodup
  framework : ∀ p ∈ ps, IsFramework p → (p.default = .empty ∨ p.default = .value) ∧ p.name ∉ c.merged
  websocket : ∀ p ∈ ps, p.name ≠ "websocket".toList

/-- Every argument with an ordinary default is in the path or the framework's. -/
def NoDefaults (r : Req J V) (ps : List (Param A)) : Prop :=
  ∀ p ∈ ps, p.default = .value → (∃ v, (p.name, v) ∈ r.path) ∨ IsFramework p

end Verif.BodyArgs.Spec
