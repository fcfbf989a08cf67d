import Verif.FormKeys.Model

/-!
# What the fields of a form mean

A key such as `user.items[2].name` is the way to a leaf of a nested value: the entry `user`, in it the list
`items`, of that the item 2, in it the entry `name`.
-/

namespace Verif.FormKeys.Spec

variable {L : Type}

/-! ## Keys -/

/-- A name that can stand in a key: not empty, without dots, brackets and line feeds. -/
def Plain (k : Str) : Prop := k ≠ [] ∧ '.' ∉ k ∧ '[' ∉ k ∧ ']' ∉ k ∧ '\n' ∉ k

/-- The value of decimal digits, read from the left. -/
inductive Decimal : Str → Nat → Prop where
  | one (c : Char) (h : '0' ≤ c ∧ c ≤ '9') : Decimal [c] (c.toNat - '0'.toNat)
  | more (ds : Str) (n : Nat) (c : Char) (hd : Decimal ds n) (h : '0' ≤ c ∧ c ≤ '9') :
      Decimal (ds ++ [c]) (10 * n + (c.toNat - '0'.toNat))

/-- How one step of a way is written: `name` or `name[12]`. -/
inductive Writes : Str → Seg → Prop where
  | key (k : Str) (h : Plain k) : Writes k (.key k)
  | index (k ds : Str) (i : Nat) (h : Plain k) (hd : Decimal ds i) :
      Writes (k ++ ['['] ++ ds ++ [']']) (.index k i)

/-- How a way is written: its steps with dots between them. -/
inductive Spells : Str → List Seg → Prop where
  | one (s : Str) (a : Seg) (h : Writes s a) : Spells s [a]
  | more (s t : Str) (a : Seg) (p : List Seg) (h : Writes s a) (ht : Spells t p) :
      Spells (s ++ ['.'] ++ t) (a :: p)

/-! ## Ways through a value -/

/-- The name in a step. -/
def Seg.name : Seg → Str
  | .key k => k
  | .index k _ => k

/-- From a value along a way to another value. -/
inductive Leads : Val L → List Seg → Val L → Prop where
  | here (v : Val L) : Leads v [] v
  | key (d : List (Str × Val L)) (k : Str) (u : Val L) (p : List Seg) (v : Val L)
      (h : aget d k = some u) (hu : Leads u p v) : Leads (.dict d) (.key k :: p) v
  | index (d : List (Str × Val L)) (k : Str) (i : Nat) (l : List (Val L)) (u : Val L) (p : List Seg)
      (v : Val L) (h : aget d k = some (.list l)) (hi : l[i]? = some u) (hu : Leads u p v) :
      Leads (.dict d) (.index k i :: p) v

/-- Two ways that can both end at a leaf of one value: neither goes on where the other ends, and no name is
used once with an index and once without. -/
inductive Apart : List Seg → List Seg → Prop where
  | name (a b : Seg) (p q : List Seg) (h : Seg.name a ≠ Seg.name b) : Apart (a :: p) (b :: q)
  | index (k : Str) (i j : Nat) (p q : List Seg) (h : i ≠ j) : Apart (.index k i :: p) (.index k j :: q)
  | later (a : Seg) (p q : List Seg) (h : Apart p q) : Apart (a :: p) (a :: q)

/-- Every two fields at different places of a form are apart. -/
inductive AllApart : List (List Seg × L) → Prop where
  | nil : AllApart []
  | cons (p : List Seg) (x : L) (ps : List (List Seg × L)) (h : ∀ q y, (q, y) ∈ ps → Apart p q)
      (hs : AllApart ps) : AllApart ((p, x) :: ps)

/-- The fields of a form as ways. -/
inductive Form : List (Str × L) → List (List Seg × L) → Prop where
  | nil : Form [] []
  | cons (s : Str) (p : List Seg) (x : L) (form : List (Str × L)) (ps : List (List Seg × L))
      (h : Spells s p) (hs : Form form ps) : Form ((s, x) :: form) ((p, x) :: ps)

/-! ## Values written as forms -/

mutual

/-- The fields for an entry or item that stands behind the step `a`. -/
def fields (a : Seg) : Val L → List (List Seg × L)
  | .leaf x => [([a], x)]
  | .dict d => (dictFields d).map fun f => (a :: f.1, f.2)
  | .list _ => []

/-- The fields for a dictionary, entry after entry. -/
def dictFields : List (Str × Val L) → List (List Seg × L)
  | [] => []
  | (k, .list l) :: d => listFields k 0 l ++ dictFields d
  | (k, .leaf x) :: d => fields (.key k) (.leaf x) ++ dictFields d
  | (k, .dict e) :: d => fields (.key k) (.dict e) ++ dictFields d

/-- The fields for the items of a list, from a given index. -/
def listFields (k : Str) (i : Nat) : List (Val L) → List (List Seg × L)
  | [] => []
  | v :: l => fields (.index k i) v ++ listFields k (i + 1) l

end

/-- An item that shows in a form. -/
inductive Solid : Val L → Prop where
  | leaf (x : L) : Solid (.leaf x)
  | dict (e : Str × Val L) (d : List (Str × Val L)) : Solid (.dict (e :: d))

mutual

/-- Dictionaries that a form can hold: distinct keys, no empty dictionary or list as an entry, the last item
of a list shows. -/
inductive Fits : List (Str × Val L) → Prop where
  | nil : Fits []
  | leaf (k : Str) (x : L) (d : List (Str × Val L)) (hk : k ∉ d.map Prod.fst) (hd : Fits d) :
      Fits ((k, .leaf x) :: d)
  | dict (k : Str) (e d : List (Str × Val L)) (hk : k ∉ d.map Prod.fst) (hne : e ≠ []) (he : Fits e)
      (hd : Fits d) : Fits ((k, .dict e) :: d)
  | list (k : Str) (l : List (Val L)) (d : List (Str × Val L)) (hk : k ∉ d.map Prod.fst)
      (hl : FitsAll l) (hd : Fits d) : Fits ((k, .list l) :: d)

/-- Lists that a form can hold: texts and dictionaries, the last of which shows. -/
inductive FitsAll : List (Val L) → Prop where
  | leaf (x : L) : FitsAll [.leaf x]
  | dict (e : List (Str × Val L)) (hne : e ≠ []) (he : Fits e) : FitsAll [.dict e]
  | consLeaf (x : L) (l : List (Val L)) (hl : FitsAll l) : FitsAll (.leaf x :: l)
  | consDict (e : List (Str × Val L)) (l : List (Val L)) (he : Fits e) (hl : FitsAll l) :
      FitsAll (.dict e :: l)

end

/-! ## JSON in texts -/

/-- A text without white space at its ends. -/
def Trimmed (s : Str) : Prop :=
  (∀ c r, s = c :: r → isSpace c = false) ∧ (∀ c r, s = r ++ [c] → isSpace c = false)

/-- A text that begins like a JSON object or array. -/
def LooksJson (s : Str) : Prop := ∃ r, s = '{' :: r ∨ s = '[' :: r

/-- What a text means: the value it holds if it is a JSON object or array, otherwise itself. -/
inductive Means {M : Type} (text : Str → M) (loads : Str → Option M) : Str → M → Prop where
  | json (s : Str) (m : M) (h : LooksJson s) (hm : loads s = some m) : Means text loads s m
  | broken (s : Str) (h : LooksJson s) (hm : loads s = none) : Means text loads s (text s)
  | text (s : Str) (h : ¬ LooksJson s) : Means text loads s (text s)

end Verif.FormKeys.Spec
