import Verif.Environ.Lemmas

/-!
# Properties C25 and C26
-/

namespace Verif.Environ

open Verif Verif.MultiDict Spec

/-! ## C25 -/

/-- The operating system environment, when it is included. -/
def osSource (includeOs : Bool) (s : Sources) : List (Str × Val) := if includeOs then s.os else []

/-- The `.env` file, when there is one. -/
def envSource (s : Sources) : List (Str × Val) := s.envFile.getD []

/-- The YAML file, when there is one. -/
def yamlSource (ic flatten : Bool) (s : Sources) : List (Str × Val) :=
  match s.yaml with
  | some y => yamlLayer ic flatten y
  | none => []

/-- C25.  After loading, each key has the value of the first source that defines it, in the order
overrides, YAML file, `.env` file, operating system environment, initial mapping (with keys compared
in upper case when case is ignored). -/
theorem C25_precedence (str : Tree → Str) (ic flatten includeOs : Bool) (s : Sources) (key : Str) :
    MultiDict.get id (loadFiles str ic flatten includeOs s) key =
      (firstOf [normKeys ic s.overrides, yamlSource ic flatten s, normKeys ic (envSource s),
        normKeys ic (osSource includeOs s), normKeys ic s.initial] key).map (render str flatten) := by
  have hnd : ∀ d : List (Str × Val), (d.map (·.1)).Nodup → ∀ e, ((aupdate d e).map (·.1)).Nodup :=
    fun d h e => nodup_aupdate d e h
  have h1 : ((aupdate ([] : List (Str × Val)) (normKeys ic s.initial)).map (·.1)).Nodup := hnd _ (by simp) _
  have hmerged : ((merged ic flatten includeOs s).map (·.1)).Nodup := by
    unfold merged
    apply hnd
    have h2 : ((if includeOs then aupdate (aupdate [] (normKeys ic s.initial)) (normKeys ic s.os)
        else aupdate [] (normKeys ic s.initial)).map (·.1)).Nodup := by
      split
      · exact hnd _ h1 _
      · exact h1
    cases s.envFile with
    | none =>
      cases s.yaml with
      | none => exact h2
      | some y => exact hnd _ h2 _
    | some e =>
      cases s.yaml with
      | none => exact hnd _ h2 _
      | some y => exact hnd _ (hnd _ h2 _) _
  unfold loadFiles
  rw [get_fold, last_nodup _ hmerged]
  have hnil : MultiDict.get id ([] : Items Val) key = none := rfl
  rw [hnil, Option.or_none]
  congr 1
  unfold merged
  rw [aget_aupdate_last]
  simp only [firstOf, yamlSource, envSource, osSource, Option.or_none]
  congr 1
  have hos : aget (if includeOs then aupdate (aupdate [] (normKeys ic s.initial)) (normKeys ic s.os)
      else aupdate [] (normKeys ic s.initial)) key =
      (last (normKeys ic (if includeOs then s.os else [])) key).or (last (normKeys ic s.initial) key) := by
    cases includeOs with
    | false =>
      simp only [Bool.false_eq_true, if_false]
      rw [aget_aupdate_last]
      simp [normKeys, last, aget]
    | true =>
      simp only [if_true]
      rw [aget_aupdate_last, aget_aupdate_last]
      simp [aget]
  cases s.envFile with
  | none =>
    cases s.yaml with
    | none => simpa [last, normKeys, aget] using hos
    | some y =>
      simp only [aget_aupdate_last, hos]
      simp [last, normKeys, aget]
  | some e =>
    cases s.yaml with
    | none =>
      simp only [aget_aupdate_last, hos]
      simp [last, normKeys, aget]
    | some y =>
      simp only [aget_aupdate_last, hos]
      simp [last, normKeys]

theorem flattenKids_nodup (ic : Bool) (parent : Str) (kids : Kids) (acc : Flat) (h : (acc.map (·.1)).Nodup) :
    ((flattenKids ic parent acc kids).map (·.1)).Nodup := by
  match kids with
  | .nil => exact h
  | .cons k t rest =>
    simp only [flattenKids]
    exact flattenKids_nodup ic parent rest _ (nodup_aupdate _ _ h)

theorem last_map_scalar (d : Flat) (key : Str) :
    last (d.map fun kv => (kv.1, Tree.scalar kv.2)) key = (last d key).map Tree.scalar := by
  unfold last
  rw [← List.map_reverse]
  induction d.reverse with
  | nil => rfl
  | cons x xs ih =>
    simp only [List.map_cons, aget, ih]
    split <;> rfl

/-- C25, the YAML file when it is flattened: a key is defined by it exactly when it is the dotted name of
a scalar in the file, and its value is the value of such a scalar. -/
theorem C25_yaml (ic : Bool) (y : Kids) (hn : NamedKids y) (key : Str) :
    (∀ w, last (yamlLayer ic true y) key = some w →
      ∃ p v, Leaf (.obj y) p v ∧ key = norm ic (dotted p) ∧ w = .scalar v) ∧
    (∀ p v, Leaf (.obj y) p v → key = norm ic (dotted p) → last (yamlLayer ic true y) key ≠ none) := by
  have hnd := flattenKids_nodup ic [] y [] (by simp)
  have heq : last (yamlLayer ic true y) key = (aget (flattenKids ic [] [] y) key).map Tree.scalar := by
    unfold yamlLayer
    rw [if_pos rfl, last_map_scalar, last_nodup _ hnd]
  refine ⟨?_, ?_⟩
  · intro w hw
    rw [heq] at hw
    cases ha : aget (flattenKids ic [] [] y) key with
    | none => rw [ha] at hw; cases hw
    | some v =>
      rw [ha] at hw
      injection hw with hw
      rcases flattenKids_sound ic [] [] y hn (.inl rfl) key v (mem_of_aget _ _ _ ha) with
        h | ⟨k, t, p, h1, h2, h3⟩
      · cases h
      · refine ⟨k :: p, v, .obj _ _ _ _ _ h1 h2, ?_, hw.symm⟩
        rw [h3, dotted_cons]
        rfl
  · intro p v hl hk hnone
    rw [heq] at hnone
    cases hl with
    | obj _ k t p _ h1 h2 =>
      have := flattenKids_complete ic [] [] y hn k t p v h1 h2
      have hu : under [] k p = dotted (k :: p) := by rw [dotted_cons]; rfl
      rw [hu, ← hk] at this
      have h0 : aget (flattenKids ic [] [] y) key = none := by
        cases ha : aget (flattenKids ic [] [] y) key with
        | none => rfl
        | some v => rw [ha] at hnone; cases hnone
      exact (aget_none_iff _ _).1 h0 this

/-- C25, consequence: when only one scalar of the file has a dotted name and no override names it, this
is the value after loading, whatever the other sources say. -/
theorem C25_yaml_wins (str : Tree → Str) (ic includeOs : Bool) (s : Sources) (y : Kids) (hy : s.yaml = some y)
    (hn : NamedKids y) (p : List Str) (v : Str) (hl : Leaf (.obj y) p v)
    (hu : ∀ p' v', Leaf (.obj y) p' v' → norm ic (dotted p') = norm ic (dotted p) → v' = v)
    (ho : last (normKeys ic s.overrides) (norm ic (dotted p)) = none) :
    MultiDict.get id (loadFiles str ic true includeOs s) (norm ic (dotted p)) = some (.scalar v) := by
  rw [C25_precedence]
  obtain ⟨h1, h2⟩ := C25_yaml ic y hn (norm ic (dotted p))
  have h3 := h2 p v hl rfl
  cases hw : last (yamlLayer ic true y) (norm ic (dotted p)) with
  | none => exact absurd hw h3
  | some w =>
    obtain ⟨p', v', hl', hk, rfl⟩ := h1 w hw
    have := hu p' v' hl' hk.symm
    subst this
    simp only [firstOf, ho, Option.none_or, yamlSource, hy, hw]
    rfl

theorem mem_dict (y : Kids) (key : Str) (t : Tree) : (key, t) ∈ y.dict ↔ Has y key t := by
  match y with
  | .nil => simp [Kids.dict, Has]
  | .cons k v rest =>
    simp only [Kids.dict, List.mem_cons, Prod.mk.injEq, Has, mem_dict rest key t]
    constructor
    · rintro (⟨h1, h2⟩ | h)
      · exact .inl ⟨h1.symm, h2.symm⟩
      · exact .inr h
    · rintro (⟨h1, h2⟩ | h)
      · exact .inl ⟨h1.symm, h2.symm⟩
      · exact .inr h

/-- C25, the YAML file when it is not flattened: a key at its top level that no override names has its value as it is in
the file, be it a text, a mapping or a list, whatever the other sources say. -/
theorem C25_unflattened (str : Tree → Str) (ic includeOs : Bool) (s : Sources) (y : Kids) (hy : s.yaml = some y)
    (key : Str) (t : Tree) (ht : Has y key t) (hu : ∀ t', Has y key t' → t' = t)
    (ho : last (normKeys ic s.overrides) key = none) :
    MultiDict.get id (loadFiles str ic false includeOs s) key = some t := by
  rw [C25_precedence]
  have hl : last y.dict key = some t := by
    cases hw : last y.dict key with
    | none =>
      have hn := (aget_none_iff _ _).1 hw
      rw [List.map_reverse, List.mem_reverse] at hn
      exact absurd (List.mem_map.2 ⟨(key, t), (mem_dict y key t).2 ht, rfl⟩) hn
    | some w =>
      have hm := mem_of_aget _ _ _ hw
      rw [List.mem_reverse, mem_dict] at hm
      rw [hu w hm]
  have hy' : last (yamlLayer ic false y) key = some t := hl
  simp only [firstOf, ho, Option.none_or, yamlSource, hy, hy']
  cases t <;> rfl

/-- C25: when the sources are flattened, every value is a text after loading. -/
theorem C25_texts (str : Tree → Str) (ic includeOs : Bool) (s : Sources) (key : Str) (v : Val)
    (h : MultiDict.get id (loadFiles str ic true includeOs s) key = some v) : ∃ t, v = .scalar t := by
  rw [C25_precedence, Option.map_eq_some_iff] at h
  obtain ⟨w, -, rfl⟩ := h
  cases w with
  | scalar t => exact ⟨t, rfl⟩
  | obj k => exact ⟨_, rfl⟩
  | list l => exact ⟨_, rfl⟩

example (str : Tree → Str) :
    let t : Tree := .list (.cons (.scalar "1".toList) .nil)
    Has (.cons "ports".toList t .nil) "ports".toList t ∧
    MultiDict.get id (loadFiles str false false true
      ⟨[("ports".toList, .scalar "0".toList)], [], none, some (.cons "ports".toList t .nil), []⟩) "ports".toList =
          some t :=
  ⟨.inl ⟨rfl, rfl⟩, rfl⟩

/-- C25 fails when case is ignored and the YAML file is not flattened: its keys are not made upper case,
so that a value of the initial mapping is returned although the YAML file defines the key. -/
theorem C25_case_false (str : Tree → Str) :
    MultiDict.get id (loadFiles str true false false
      { initial := [("KEY".toList, .scalar "initial".toList)], os := [], envFile := none,
        yaml := some (.cons "key".toList (.scalar "yaml".toList) .nil), overrides := [] })
      (norm true "key".toList) = some (.scalar "initial".toList) := by
  rfl

/-- Instances of the hypotheses: nested YAML data with a list, and all five sources. -/
example (str : Tree → Str) :
    let y : Kids := .cons "db".toList (.obj (.cons "host".toList (.scalar "h".toList)
      (.cons "ports".toList (.list (.cons (.scalar "1".toList) (.cons (.scalar "2".toList) .nil))) .nil))) .nil
    let s : Sources :=
      { initial := [(['A'], .scalar ['1']), (['B'], .scalar ['1'])], os := [(['B'], .scalar ['2'])],
        envFile := some [(['C'], .scalar ['3'])], yaml := some y, overrides := [(['C'], .scalar ['5'])] }
    NamedKids y ∧ flattenKids false [] [] y =
      [("db.host".toList, "h".toList), ("db.ports.0".toList, "1".toList), ("db.ports.1".toList, "2".toList)] ∧
    MultiDict.get id (loadFiles str false true true s) ['A'] = some (.scalar ['1']) ∧
    MultiDict.get id (loadFiles str false true true s) ['B'] = some (.scalar ['2']) ∧
    MultiDict.get id (loadFiles str false true true s) ['C'] = some (.scalar ['5']) := by
  refine ⟨?_, by decide +kernel, rfl, rfl, rfl⟩
  simp [NamedKids, Named, NamedElems]

/-! ## C26 -/

variable {V : Type}

/-- What is fixed once a key was read. -/
theorem run_fixed (os : Str → Option V) (k : Str) (ops : List (Op V)) (l : Loader V) (h : l.key k ∈ l.read) :
    let l' := ops.foldl (Op.run os) l
    l'.key k = l.key k ∧ l'.key k ∈ l'.read ∧ l'.lookup k = l.lookup k := by
  induction ops generalizing l with
  | nil => exact ⟨rfl, h, rfl⟩
  | cons o ops ih =>
    have hstep : (Op.run os l o).key k = l.key k ∧ (Op.run os l o).key k ∈ (Op.run os l o).read ∧
        (Op.run os l o).lookup k = l.lookup k := by
      cases o with
      | env k' => exact ⟨rfl, List.mem_cons_of_mem _ h, rfl⟩
      | getitem k' =>
        simp only [Op.run, Loader.getitem]
        split
        · exact ⟨rfl, h, rfl⟩
        · exact ⟨rfl, List.mem_cons_of_mem _ h, rfl⟩
      | setitem k' v =>
        simp only [Op.run, Loader.setitem]
        split
        · exact ⟨rfl, h, rfl⟩
        · rename_i hn
          refine ⟨rfl, h, ?_⟩
          have hne : id (l.key k) ≠ id (l.key k') := fun e => hn (by
            have e' : l.key k = l.key k' := e
            rw [← e']
            exact h)
          show MultiDict.get id (MultiDict.setitem id l.items (l.key k') v) (l.key k) = _
          unfold MultiDict.get
          rw [getall_setitem, if_neg hne]
          rfl
      | delitem k' =>
        simp only [Op.run, Loader.delitem]
        split
        · exact ⟨rfl, h, rfl⟩
        · rename_i hn
          refine ⟨rfl, h, ?_⟩
          have hne : id (l.key k) ≠ id (l.key k') := fun e => hn (by
            have e' : l.key k = l.key k' := e
            rw [← e']
            exact h)
          show MultiDict.get id (delall id l.items (l.key k')) (l.key k) = _
          unfold MultiDict.get
          rw [getall_delall, if_neg hne]
          rfl
    have := ih (Op.run os l o) hstep.2.1
    exact ⟨this.1.trans hstep.1, this.2.1, this.2.2.trans hstep.2.2⟩

/-- C26.  Once a key was read with `env` (or by calling the loader), every sequence of reads,
assignments with `loader[k] = v` and deletions with `del loader[k]` leaves the value that `env`
returns unchanged, for the same operating system environment.

The full statement is about the whole mapping interface; the inherited methods are refuted below. -/
theorem C26_env_partial (os : Str → Option V) (l : Loader V) (k : Str) (ops : List (Op V)) :
    ((ops.foldl (Op.run os) (l.env os k).1).env os k).2 = (l.env os k).2 := by
  have h := run_fixed os k ops (l.env os k).1 (by show l.key k ∈ l.key k :: l.read; simp)
  simp only at h
  show ((ops.foldl (Op.run os) (l.env os k).1).lookup k).or
    (os ((ops.foldl (Op.run os) (l.env os k).1).key k)) = _
  rw [h.1, h.2.2]
  rfl

/-- C26 for `loader[k]`. -/
theorem C26_getitem_partial (os : Str → Option V) (l : Loader V) (k : Str) (v : V) (ops : List (Op V))
    (hv : (l.getitem k).2 = some v) :
    ((ops.foldl (Op.run os) (l.getitem k).1).getitem k).2 = some v := by
  have hlook : l.lookup k = some v := by
    unfold Loader.getitem at hv
    split at hv
    · cases hv
    · rename_i v' h'; rw [h', ← hv]
  have hl : (l.getitem k).1 = { l with read := l.key k :: l.read } := by
    unfold Loader.getitem
    rw [hlook]
  rw [hl]
  have h := run_fixed os k ops { l with read := l.key k :: l.read } (by
    show l.key k ∈ l.key k :: l.read; simp)
  simp only at h
  have h2 : (ops.foldl (Op.run os) { l with read := l.key k :: l.read }).lookup k = some v := by
    rw [h.2.2]; exact hlook
  unfold Loader.getitem
  rw [h2]

/-- Before a key is read, assignments take effect: the protection is not trivial. -/
theorem C26_unread (l : Loader V) (k : Str) (v : V) (h : l.key k ∉ l.read) :
    (l.setitem k v).lookup k = some v := by
  unfold Loader.setitem
  rw [if_neg h]
  show MultiDict.get id (MultiDict.setitem id l.items (l.key k) v) (l.key k) = _
  unfold MultiDict.get
  rw [getall_setitem, if_pos rfl]
  rfl

/-- C26 fails for the inherited methods: after `env("A")` returned `1`, `update`, `pop` and `clear` change
or remove the value. -/
theorem C26_inherited_false :
    let l : Loader Nat := ⟨[(['A'], 1)], [], [], false⟩
    let os : Str → Option Nat := fun _ => none
    (l.env os ['A']).2 = some 1 ∧
    (((l.env os ['A']).1.update [(['A'], 2)]).env os ['A']).2 = some 2 ∧
    (((l.env os ['A']).1.pop ['A']).env os ['A']).2 = none ∧
    (((l.env os ['A']).1.clear).env os ['A']).2 = none := by
  refine ⟨by decide, by decide, by decide, by decide⟩

/-- Instances of the hypotheses: a prefix, a key that is read, and attempts to change it. -/
example :
    let l : Loader Nat := ⟨[("APP_A".toList, 1), ("APP_B".toList, 2)], [], "APP_".toList, false⟩
    let os : Str → Option Nat := fun _ => none
    let l' := [Op.setitem ['A'] 7, Op.delitem ['A'], Op.setitem ['B'] 8, Op.env ['B']].foldl
      (Op.run os) (l.getitem ['A']).1
    (l.getitem ['A']).2 = some 1 ∧ (l'.getitem ['A']).2 = some 1 ∧ (l'.getitem ['B']).2 = some 8 := by
  refine ⟨by decide, by decide, by decide⟩

end Verif.Environ
