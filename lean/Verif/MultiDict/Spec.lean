import Verif.MultiDict.Model

/-!
# What a multi-value container means

For every name (identity of a key) the list of its values.
-/

namespace Verif.MultiDict.Spec

open Verif

variable {α : Type}

/-- Meaning of a container: the values of every name. -/
abbrev Meaning (α : Type) := Str → List α

/-- Change the values of one name. -/
def at' (m : Meaning α) (n : Str) (vs : List α) : Meaning α := fun x => if x = n then vs else m x

/-- The effect of an operation: a set leaves exactly the new value, an add appends it, a pop
removes the first value, a deletion all, a default applies only to an absent name. -/
def apply (idf : Str → Str) (m : Meaning α) : Op α → Meaning α
  | .set k v => at' m (idf k) [v]
  | .add k v => at' m (idf k) (m (idf k) ++ [v])
  | .pop k => at' m (idf k) (m (idf k)).tail
  | .del k => at' m (idf k) []
  | .setdefault k v => match m (idf k) with
    | [] => at' m (idf k) [v]
    | _ :: _ => m
  | .update kvs => kvs.foldl (fun m kv => at' m (idf kv.1) [kv.2]) m

/-- The values a list of headers names in its `Vary` fields: comma-separated, without the
surrounding blanks. -/
def Varies (headers : List (Str × Str)) (v : Str) : Prop :=
  v ≠ [] ∧ ∃ kv ∈ headers, lower kv.1 = "vary".toList ∧ ∃ t ∈ splitOn ',' kv.2, strip isSpace t = v

end Verif.MultiDict.Spec
