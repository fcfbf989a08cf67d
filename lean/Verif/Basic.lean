/-!
# Shared vocabulary

Python `str` values are modelled as lists of characters and Python `dict` values
as insertion-ordered association lists.  The functions here are the small part
of the Python standard library that several models share; each cites the Python
operation it stands for.
-/

namespace Verif

/-- Python `str` (used throughout /repo/lilya): a list of characters. -/
abbrev Str := List Char

/-- Python `s.split(c)` for a one-character separator: the pieces between the
occurrences of `c`; never empty (`"".split("/") == [""]`). -/
def splitOn (c : Char) : Str → List Str
  | [] => [[]]
  | x :: xs =>
    if x = c then [] :: splitOn c xs
    else match splitOn c xs with
      | h :: t => (x :: h) :: t
      | [] => [[x]]

/-- Python `sep.join(parts)`. -/
def joinWith (sep : Str) : List Str → Str
  | [] => []
  | [p] => p
  | p :: q :: rest => p ++ sep ++ joinWith sep (q :: rest)

/-- Python `s.lstrip(chars)`. -/
def lstrip (p : Char → Bool) (s : Str) : Str := s.dropWhile p

/-- Python `s.rstrip(chars)`. -/
def rstrip (p : Char → Bool) (s : Str) : Str := (s.reverse.dropWhile p).reverse

/-- Python `s.strip(chars)`. -/
def strip (p : Char → Bool) (s : Str) : Str := rstrip p (lstrip p s)

/-- Python `str.isspace` for one character, as used by `s.strip()` and `int(s)`: the white space and
separators of Unicode. -/
def isSpace (c : Char) : Bool :=
  (9 ≤ c.toNat && c.toNat ≤ 13) || (28 ≤ c.toNat && c.toNat ≤ 32) || c.toNat = 133 || c.toNat = 160 ||
    c.toNat = 5760 || (8192 ≤ c.toNat && c.toNat ≤ 8202) || c.toNat = 8232 || c.toNat = 8233 ||
    c.toNat = 8239 || c.toNat = 8287 || c.toNat = 12288

/-- The white space that `bytes.strip()` removes. -/
def isByteSpace (c : Char) : Bool := (9 ≤ c.toNat && c.toNat ≤ 13) || c.toNat = 32

/-- Python `s.lower()` restricted to ASCII letters. -/
def lower (s : Str) : Str := s.map Char.toLower

/-- Python `s.startswith(p)`. -/
def startsWith (s p : Str) : Bool := p.isPrefixOf s

/-- Python `s.endswith(p)`. -/
def endsWith (s p : Str) : Bool := p.isSuffixOf s

/-- Python `p in s` for strings. -/
def contains (s p : Str) : Bool :=
  match s with
  | [] => p.isEmpty
  | c :: cs => p.isPrefixOf (c :: cs) || contains cs p

/-- Strip a known prefix, as `s[len(p):] if s.startswith(p)`. -/
def stripPrefix? (p s : Str) : Option Str :=
  match p, s with
  | [], s => some s
  | _ :: _, [] => none
  | a :: p, b :: s => if a = b then stripPrefix? p s else none

/-! ## Association lists as Python dictionaries -/

/-- Python `d.get(k)`. -/
def aget {κ ν : Type} [DecidableEq κ] (d : List (κ × ν)) (k : κ) : Option ν :=
  match d with
  | [] => none
  | (k', v) :: rest => if k' = k then some v else aget rest k

/-- Python `d[k] = v`: replaces in place, or appends at the end. -/
def aset {κ ν : Type} [DecidableEq κ] (d : List (κ × ν)) (k : κ) (v : ν) : List (κ × ν) :=
  match d with
  | [] => [(k, v)]
  | (k', v') :: rest => if k' = k then (k, v) :: rest else (k', v') :: aset rest k v

/-- Python `d.pop(k, None)` as an update. -/
def adel {κ ν : Type} [DecidableEq κ] (d : List (κ × ν)) (k : κ) : List (κ × ν) :=
  match d with
  | [] => []
  | (k', v) :: rest => if k' = k then adel rest k else (k', v) :: adel rest k

/-- Python `d.update(e)` / `{**d, **e}`. -/
def aupdate {κ ν : Type} [DecidableEq κ] (d e : List (κ × ν)) : List (κ × ν) :=
  e.foldl (fun acc kv => aset acc kv.1 kv.2) d

/-! ### Lemmas -/

section Lemmas

theorem splitOn_ne_nil (c : Char) (s : Str) : splitOn c s ≠ [] := by
  induction s with
  | nil => simp [splitOn]
  | cons x xs ih =>
    simp only [splitOn]
    split
    · simp
    · split <;> simp

theorem joinWith_splitOn (c : Char) (s : Str) : joinWith [c] (splitOn c s) = s := by
  induction s with
  | nil => simp [splitOn, joinWith]
  | cons x xs ih =>
    simp only [splitOn]
    split
    · rename_i h
      cases hs : splitOn c xs with
      | nil => exact absurd hs (splitOn_ne_nil c xs)
      | cons a t =>
        rw [hs] at ih
        simp [joinWith, ih, h]
    · cases hs : splitOn c xs with
      | nil => exact absurd hs (splitOn_ne_nil c xs)
      | cons a t =>
        rw [hs] at ih
        cases t with
        | nil => simpa [joinWith] using ih
        | cons b t => simp [joinWith] at ih ⊢; exact ih

theorem splitOn_no_sep (c : Char) (s : Str) : ∀ p ∈ splitOn c s, c ∉ p := by
  induction s with
  | nil => simp [splitOn]
  | cons x xs ih =>
    simp only [splitOn]
    split
    · intro p hp
      rcases List.mem_cons.1 hp with h | h
      · simp [h]
      · exact ih p h
    · rename_i hne
      cases hs : splitOn c xs with
      | nil => exact absurd hs (splitOn_ne_nil c xs)
      | cons a t =>
        rw [hs] at ih
        intro p hp
        rcases List.mem_cons.1 hp with h | h
        · subst h
          intro hc
          rcases List.mem_cons.1 hc with h' | h'
          · exact hne h'.symm
          · exact ih a (by simp) h'
        · exact ih p (by simp [h])

theorem splitOn_append_sep (c : Char) (p s : Str) (hp : c ∉ p) :
    splitOn c (p ++ c :: s) = p :: splitOn c s := by
  induction p with
  | nil => simp [splitOn]
  | cons x xs ih =>
    have hx : x ≠ c := fun h => hp (by simp [h])
    have hxs : c ∉ xs := fun h => hp (by simp [h])
    simp [splitOn, hx, ih hxs]

theorem splitOn_of_not_mem (c : Char) (p : Str) (hp : c ∉ p) : splitOn c p = [p] := by
  induction p with
  | nil => simp [splitOn]
  | cons x xs ih =>
    have hx : x ≠ c := fun h => hp (by simp [h])
    have hxs : c ∉ xs := fun h => hp (by simp [h])
    simp [splitOn, hx, ih hxs]

theorem splitOn_joinWith (c : Char) (ps : List Str) (hne : ps ≠ [])
    (h : ∀ p ∈ ps, c ∉ p) : splitOn c (joinWith [c] ps) = ps := by
  induction ps with
  | nil => exact absurd rfl hne
  | cons p ps ih =>
    cases ps with
    | nil => simpa [joinWith] using splitOn_of_not_mem c p (h p (by simp))
    | cons q qs =>
      simp only [joinWith, List.append_assoc, List.singleton_append]
      rw [splitOn_append_sep c p _ (h p (by simp)), ih (by simp) (fun r hr => h r (by simp [hr]))]

theorem splitOn_append (c : Char) (a b : Str) :
    splitOn c (a ++ c :: b) = splitOn c a ++ splitOn c b := by
  induction a with
  | nil => simp [splitOn]
  | cons x xs ih =>
    simp only [List.cons_append, splitOn, ih]
    split
    · simp
    · cases hs : splitOn c xs with
      | nil => exact absurd hs (splitOn_ne_nil c xs)
      | cons a t => simp

theorem stripPrefix?_eq_some (p s r : Str) : stripPrefix? p s = some r ↔ s = p ++ r := by
  induction p generalizing s with
  | nil => simp [stripPrefix?, eq_comm]
  | cons a p ih =>
    cases s with
    | nil => simp [stripPrefix?]
    | cons b s =>
      simp only [stripPrefix?]
      split
      · rename_i h; subst h; simp [ih]
      · rename_i h; simp; intro h'; exact absurd h'.symm h

variable {κ ν : Type} [DecidableEq κ]

theorem aget_aset_self (d : List (κ × ν)) (k : κ) (v : ν) : aget (aset d k v) k = some v := by
  induction d with
  | nil => simp [aset, aget]
  | cons kv rest ih =>
    obtain ⟨k', v'⟩ := kv
    simp only [aset]
    split
    · simp [aget]
    · rename_i h; simp [aget, h, ih]

theorem aget_aset_ne (d : List (κ × ν)) (k k' : κ) (v : ν) (h : k' ≠ k) :
    aget (aset d k v) k' = aget d k' := by
  induction d with
  | nil => simp [aset, aget, Ne.symm h]
  | cons kv rest ih =>
    obtain ⟨k'', v'⟩ := kv
    simp only [aset]
    split
    · rename_i h2; subst h2; simp [aget, Ne.symm h]
    · simp only [aget, ih]

theorem aget_aset (d : List (κ × ν)) (k k' : κ) (v : ν) :
    aget (aset d k v) k' = if k' = k then some v else aget d k' := by
  split
  · rename_i h; subst h; exact aget_aset_self d _ v
  · rename_i h; exact aget_aset_ne d k k' v h

theorem aget_adel (d : List (κ × ν)) (k k' : κ) :
    aget (adel d k) k' = if k' = k then none else aget d k' := by
  induction d with
  | nil => simp [adel, aget]
  | cons kv rest ih =>
    obtain ⟨k'', v'⟩ := kv
    simp only [adel]
    split
    · rename_i h
      subst h
      rw [ih]
      by_cases hk : k' = k''
      · simp [hk]
      · simp [hk, aget, Ne.symm hk]
    · rename_i h
      simp only [aget, ih]
      by_cases hk : k'' = k'
      · subst hk; simp [h]
      · simp [hk]

theorem aget_aupdate_of_notmem (d e : List (κ × ν)) (k : κ) (h : aget e k = none) :
    aget (aupdate d e) k = aget d k := by
  unfold aupdate
  induction e generalizing d with
  | nil => rfl
  | cons kv rest ih =>
    obtain ⟨k', v⟩ := kv
    simp only [aget] at h
    split at h
    · cases h
    · rename_i hne
      simp only [List.foldl_cons]
      rw [ih _ h, aget_aset_ne _ _ _ _ (Ne.symm hne)]

end Lemmas

end Verif
