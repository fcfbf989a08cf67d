import Verif.Discovery.Model

/-!
# What C109 speaks about
-/

namespace Verif.Discovery.Spec

open Verif Verif.Discovery

/-- A place where an application is looked for: a file of the current folder, or of one of its folders. -/
structure Place where
  folder : Option Str
  stem : Str

/-- The name of the module at a place. -/
def Place.name (p : Place) : Str :=
  match p.folder with
  | none => p.stem
  | some f => f ++ '.' :: p.stem

/-- The files of a folder which are looked at, in their order. -/
def stems : List Str := ["application".toList, "app".toList, "main".toList]

/-- The folder below `cwd`. -/
def below (cwd : FilePath) (n : Str) : FilePath := ⟨cwd.absolute, cwd.parts ++ [n]⟩

/-- The places that exist: the files of the current folder, then those of its folders, no deeper. -/
def places (w : World) (cwd : FilePath) : List Place :=
  ((stems.filter fun s => w.file cwd (s ++ ".py".toList)).map fun s => ⟨none, s⟩) ++
  (w.folders cwd).flatMap fun n =>
    (stems.filter fun s => w.file (below cwd n) (s ++ ".py".toList)).map fun s => ⟨some n, s⟩

/-- The current folder is given by an absolute path, or is where the program runs. -/
def Direct (cwd : FilePath) : Prop := cwd.absolute = true ∨ cwd.parts = []

/-- No application is an attribute of the module. -/
def NoApp (m : Module) : Prop := ∀ kv ∈ m.attrs, kv.2.kind = .other

/-- The module has no application, and nothing with one of the names of an application or of a factory. -/
def Silent (w : World) (name : Str) : Prop :=
  ∃ m, importModule w name = .ok m ∧ NoApp m ∧
    ∀ n ∈ ["application".toList, "app".toList, "get_application".toList, "get_app".toList],
      ∀ v, aget m.attrs n = some v → v.truthy = false

/-- No import and no call raises `EnvError` by itself. -/
def Quiet (w : World) : Prop := (∀ n, w.load n ≠ .error .env) ∧ ∀ v, (w.call v).result ≠ .error .env

/-- The keys of a dictionary differ. -/
def Proper (w : World) : Prop :=
  ∀ n m, w.load n = .ok m → ∀ kv ∈ m.attrs, aget m.attrs kv.1 = some kv.2 ∧ ':' ∉ kv.1

end Verif.Discovery.Spec
