import Verif.Scaffold.Model

/-!
# What C113 speaks about
-/

namespace Verif.Scaffold.Spec

open Verif Verif.Scaffold

/-- Nothing that was there is gone or changed. -/
def Kept (before after : Fs) : Prop :=
  (∀ p text, aget before.files p = some text → aget after.files p = some text) ∧ ∀ p ∈ before.dirs, p ∈ after.dirs

/-- `Has t p f text`: a file of a template, in the directories `p`, none of which is hidden. -/
inductive Has : Tree → Path → Str → Str → Prop
  | here (n : Str) (files : List (Str × Str)) (subs : List Tree) (f text : Str) (h : (f, text) ∈ files) :
      Has (.node n files subs) [] f text
  | sub (n : Str) (files : List (Str × Str)) (subs : List Tree) (t : Tree) (p : Path) (f text : Str) (h : t ∈ subs)
      (hh : hidden t.name = false) (ht : Has t p f text) : Has (.node n files subs) (t.name :: p) f text

/-- `Directory t p`: a directory of a template that is not hidden. -/
inductive Directory : Tree → Path → Prop
  | here (t : Tree) : Directory t []
  | sub (n : Str) (files : List (Str × Str)) (subs : List Tree) (t : Tree) (p : Path) (h : t ∈ subs)
      (hh : hidden t.name = false) (ht : Directory t p) : Directory (.node n files subs) (t.name :: p)

/-- An ordinary name of a file or a directory. -/
def Plain (n : Str) : Prop := '/' ∉ n ∧ n ≠ [] ∧ n ≠ ['.'] ∧ n ≠ ['.', '.']

/-- All new names are ordinary. -/
def Tidy (x : Ctx) (t : Tree) : Prop :=
  (∀ p, Directory t p → ∀ n ∈ p, Plain (renderName x n)) ∧
  ∀ p f text, Has t p f text → compiled f = false → Plain (fileName x f) ∧ Plain (rewrite f)

/-- Where a file of a template goes: names are given for the directories. -/
def place (x : Ctx) (top : Path) (p : Path) (f : Str) : Path := top ++ p.map (renderName x) ++ [fileName x f]

/-- Below a directory. -/
def Below (top p : Path) : Prop := ∃ rest, p = top ++ rest

end Verif.Scaffold.Spec
