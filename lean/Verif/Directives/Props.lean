import Verif.Directives.Lemmas

/-!
# C110: custom directives are found and get their arguments
-/

namespace Verif.Directives.Props

open Verif Verif.Directives Verif.Directives.Spec

/-! ### Examples -/

/-- Two folders with a directive `seed`. -/
def roots : List Root :=
  [⟨"b".toList, ["operations".toList], [("seed".toList, false), ("_x".toList, false), ("pkg".toList, true)]⟩,
   ⟨"a".toList, ["operations".toList], [("seed".toList, false), ("drop".toList, false)]⟩,
   ⟨"c".toList, ["other".toList], [("none".toList, false)]⟩]

/-- The files: a class in `a`, a function in `b`. -/
def files (p : Str) : File :=
  if p = "a/operations/seed.py".toList then .content (some (.base 1)) []
  else if p = "b/operations/seed.py".toList then .content none [.command 2 true]
  else if p = "a/operations/drop.py".toList then .content (some (.base 3)) []
  else .missing

/-! ### Finding -/

/-- The directives of a project are the modules in folders `operations`, at any depth, whose names do not begin with an
underscore. -/
theorem C110_found (roots : List Root) (e : Entry) : e ∈ findDirectives roots ↔ Is roots e :=
  mem_find roots e

example : findDirectives roots
    = [⟨"seed".toList, "b/operations".toList⟩, ⟨"seed".toList, "a/operations".toList⟩,
       ⟨"drop".toList, "a/operations".toList⟩] := by decide +kernel

/-- "All custom directives must be inside a `directives/operations` package": any folder `operations` will do. -/
theorem C110_place_false :
    ∃ (roots : List Root) (e : Entry), e ∈ findDirectives roots ∧ ¬ contains e.location "directives/operations".toList
        :=
  ⟨roots, ⟨"drop".toList, "a/operations".toList⟩, by decide +kernel, by decide +kernel⟩

/-- A directive with a name that no other has is the one that runs.  Partial: not for the names `name` and
`location`. -/
theorem C110_run_partial (load : Str → File) (ds : List Entry) (e : Entry) (he : e ∈ ds) (hr : ¬ Reserved e.name)
    (hu : ∀ x ∈ ds, x.name = e.name → x.location = e.location) :
    fetchCustom load ds e.name = loadDirective (load (e.location ++ '/' :: e.name ++ ".py".toList)) := by
  unfold fetchCustom
  cases hm : lastMatch e.name none (sortEntries ds) with
  | none =>
    have := lastMatch_exists e.name (sortEntries ds) none e ((mem_sort e ds).2 he) ((keys_iff e e.name hr).2 rfl)
    rw [hm] at this
    cases this
  | some r =>
    dsimp only
    rcases lastMatch_some e.name _ none (sorted_sort ds) r hm with ⟨h, _⟩ | ⟨h1, h2, _⟩
    · cases h
    · rw [hu r ((mem_sort r ds).1 h1) ((keys_iff r e.name hr).1 h2)]
      rfl

example : fetchCustom files (findDirectives roots) "drop".toList = .runs (.base 3) := by decide +kernel

/-- Of several directives with the name, the one in the last folder runs, in the order of the paths. -/
theorem C110_last (load : Str → File) (ds : List Entry) (name : Str) (hr : ¬ Reserved name)
    (he : ∃ e ∈ ds, e.name = name) :
    ∃ e ∈ ds, e.name = name ∧ (∀ x ∈ ds, x.name = name → Before x.location e.location) ∧
      fetchCustom load ds name = loadDirective (load (e.location ++ '/' :: name ++ ".py".toList)) := by
  obtain ⟨e, he, hn⟩ := he
  cases hm : lastMatch name none (sortEntries ds) with
  | none =>
    have := lastMatch_exists name (sortEntries ds) none e ((mem_sort e ds).2 he) ((keys_iff e name hr).2 hn)
    rw [hm] at this
    cases this
  | some r =>
    rcases lastMatch_some name _ none (sorted_sort ds) r hm with ⟨h, _⟩ | ⟨h1, h2, h3⟩
    · cases h
    · refine ⟨r, (mem_sort r ds).1 h1, (keys_iff r name hr).1 h2, ?_, ?_⟩
      · intro x hx hxn
        exact leStr_before _ _ (h3 x ((mem_sort x ds).2 hx) ((keys_iff x name hr).2 hxn))
      · unfold fetchCustom
        rw [hm]
        rfl

example : fetchCustom files (findDirectives roots) "seed".toList = .runs (.command 2 true) := by decide +kernel

/-- "First Found First Executed": the first in the order of the paths is not executed if there is another. -/
theorem C110_first_false :
    ∃ (load : Str → File) (a b : Entry), a.name = b.name ∧ Before a.location b.location ∧ a.location ≠ b.location ∧
      load (fileOf a.location a.name) = .content (some (.base 1)) [] ∧ fetchCustom load [a, b] a.name = .runs (.base
          2) :=
  ⟨fun p => if p = "a/operations/seed.py".toList then .content (some (.base 1)) [] else .content (some (.base 2)) [],
    ⟨"seed".toList, "a/operations".toList⟩, ⟨"seed".toList, "z/operations".toList⟩, rfl,
    leStr_before _ _ (by decide +kernel), by decide +kernel, by rfl, by decide +kernel⟩

/-- A directive called `name` is not found if another one is in a later folder. -/
theorem C110_reserved_false :
    ∃ (load : Str → File) (ds : List Entry) (e : Entry), e ∈ ds ∧ (∀ x ∈ ds, x.name = e.name → x = e) ∧
      load (fileOf e.location e.name) = .content (some (.base 1)) [] ∧ fetchCustom load ds e.name = .noFile :=
  ⟨fun p => if p = "a/operations/name.py".toList then .content (some (.base 1)) [] else .missing,
    [⟨"name".toList, "a/operations".toList⟩, ⟨"seed".toList, "b/operations".toList⟩],
    ⟨"name".toList, "a/operations".toList⟩, by decide +kernel, by decide +kernel, by rfl, by decide +kernel⟩

/-- An unknown name is reported, if there is any directive. -/
theorem C110_unknown_partial (load : Str → File) (ds : List Entry) (hne : ds ≠ []) (name : Str) (hr : ¬ Reserved name)
    (h : ∀ e ∈ ds, e.name ≠ name) : fetchCustom load ds name = .unknown := by
  unfold fetchCustom
  rw [lastMatch_none name _ none (by
    intro e he hk
    exact h e ((mem_sort e ds).1 he) ((keys_iff e name hr).1 hk))]
  cases ds with
  | nil => exact absurd rfl hne
  | cons _ _ => rfl

example : fetchCustom files (findDirectives roots) "nothing".toList = .unknown :=
  C110_unknown_partial _ _ (by decide +kernel) _ (by unfold Reserved; decide +kernel) (by decide +kernel)

/-- In a project without directives it is an `UnboundLocalError`. -/
theorem C110_unknown_false : ∃ name, ¬ Reserved name ∧ ∀ load, fetchCustom load [] name = .unbound :=
  ⟨"seed".toList, by unfold Reserved; decide +kernel, fun _ => rfl⟩

/-- A file has to have a class `Directive` below `BaseDirective`, or a function marked with `@directive`; a class
goes before functions, and of several functions the first runs. -/
theorem C110_file (f : File) (o : Obj) :
    loadDirective f = .runs o ↔
      (∃ i cs, o = .base i ∧ f = .content (some o) cs) ∨ (∃ i s cs, o = .command i s ∧ f = .content (some o) cs) ∨
      (∃ i cs, o = .base i ∧ f = .content none (o :: cs)) ∨
      ∃ i s cs, o = .command i s ∧ f = .content none (o :: cs) := by
  cases f with
  | missing => simp [loadDirective]
  | typeError => simp [loadDirective]
  | fails => simp [loadDirective]
  | content d cs =>
    cases d with
    | some x => cases x <;> cases o <;> simp [loadDirective, exported]
    | none =>
      cases cs with
      | nil => simp [loadDirective, exported]
      | cons x cs => cases x <;> cases o <;> simp [loadDirective, exported]

/-! ### Arguments -/

/-- A class gets its name and the options after it, in the two forms of the documentation.  Partial: in the second one
no option may be `--app`. -/
theorem C110_options_partial (fromEnv : Bool) (prog loc name : Str) (opts : List Str) :
    givenClass fromEnv ([prog, "--app".toList, loc, "run".toList, "--directive".toList, name] ++ opts)
      = some ⟨some name, opts⟩ ∧
    (prog ≠ "--app".toList → name ≠ "--app".toList → "--app".toList ∉ opts →
      givenClass fromEnv ([prog, "run".toList, "--directive".toList, name] ++ opts) = some ⟨some name, opts⟩) := by
  constructor
  · have : position fromEnv ([prog, "--app".toList, loc, "run".toList, "--directive".toList, name] ++ opts) = 5 := by
      have hc : ([prog, "--app".toList, loc, "run".toList, "--directive".toList, name] ++ opts).contains
          "--app".toList = true := by
        rw [List.contains_iff_mem]
        exact List.mem_append_left _ (List.mem_cons_of_mem _ List.mem_cons_self)
      unfold position
      rw [hc]
      cases fromEnv <;> rfl
    unfold givenClass
    rw [this]
    rfl
  · intro hp hn ho
    have : position fromEnv ([prog, "run".toList, "--directive".toList, name] ++ opts) = 3 := by
      have hc : ([prog, "run".toList, "--directive".toList, name] ++ opts).contains "--app".toList = false := by
        rw [← Bool.not_eq_true, List.contains_iff_mem]
        intro hm
        rcases List.mem_append.1 hm with hm | hm
        · rcases List.mem_cons.1 hm with hm | hm
          · exact hp hm.symm
          rcases List.mem_cons.1 hm with hm | hm
          · exact absurd hm (by decide)
          rcases List.mem_cons.1 hm with hm | hm
          · exact absurd hm (by decide)
          exact hn (List.mem_singleton.1 hm).symm
        · exact ho hm
      unfold position
      rw [hc]
      cases fromEnv <;> rfl
    unfold givenClass
    rw [this]
    rfl

/-- With `--app=location` in one word the class gets its name as an option. -/
theorem C110_equals_false (fromEnv : Bool) :
    givenClass fromEnv ["lilya".toList, "--app=main:app".toList, "run".toList, "--directive".toList, "seed".toList,
      "--fast".toList] = some ⟨some "--directive".toList, ["seed".toList, "--fast".toList]⟩ := by
  cases fromEnv <;> decide +kernel

/-- With `--path` before `run` the options are not those of the directive, either. -/
theorem C110_path_false (fromEnv : Bool) :
    givenClass fromEnv ["lilya".toList, "--path".toList, "src".toList, "run".toList, "--directive".toList,
        "seed".toList]
      = some ⟨some "run".toList, ["--directive".toList, "seed".toList]⟩ := by
  cases fromEnv <;> decide +kernel

/-- Without `--directive`, as in the help of `run`, a class loses its first option. -/
theorem C110_short_false (fromEnv : Bool) :
    givenClass fromEnv ["lilya".toList, "run".toList, "seed".toList, "--fast".toList] = some ⟨some "--fast".toList,
        []⟩ ∧
    givenClass fromEnv ["lilya".toList, "run".toList, "seed".toList] = none := by
  cases fromEnv <;> exact ⟨by decide +kernel, by decide +kernel⟩

/-- A function gets the arguments after its name, with `-h` and `--h` as `--help`, in the form of its documentation. -/
theorem C110_command_partial (fromEnv : Bool) (prog loc name : Str) (opts : List Str)
    (hh : ∀ o ∈ opts, o ≠ "-h".toList ∧ o ≠ "--h".toList) :
    givenCommand fromEnv ([prog, "--app".toList, loc, "run".toList, name] ++ opts) = ⟨none, opts⟩ ∧
    (prog ≠ "--app".toList → name ≠ "--app".toList → "--app".toList ∉ opts →
      givenCommand fromEnv ([prog, "run".toList, name] ++ opts) = ⟨none, opts⟩) := by
  have hmap : (opts.map fun a => if a = "-h".toList ∨ a = "--h".toList then "--help".toList else a) = opts := by
    conv => rhs; rw [← List.map_id opts]
    apply List.map_congr_left
    intro a ha
    rw [if_neg]
    · rfl
    · rintro (h | h)
      · exact (hh a ha).1 h
      · exact (hh a ha).2 h
  constructor
  · have : position fromEnv ([prog, "--app".toList, loc, "run".toList, name] ++ opts) = 5 := by
      have hc : ([prog, "--app".toList, loc, "run".toList, name] ++ opts).contains "--app".toList = true := by
        rw [List.contains_iff_mem]
        exact List.mem_append_left _ (List.mem_cons_of_mem _ List.mem_cons_self)
      unfold position
      rw [hc]
      cases fromEnv <;> rfl
    unfold givenCommand
    rw [this]
    exact congrArg (Given.mk none) hmap
  · intro hp hn ho
    have : position fromEnv ([prog, "run".toList, name] ++ opts) = 3 := by
      have hc : ([prog, "run".toList, name] ++ opts).contains "--app".toList = false := by
        rw [← Bool.not_eq_true, List.contains_iff_mem]
        intro hm
        rcases List.mem_append.1 hm with hm | hm
        · rcases List.mem_cons.1 hm with hm | hm
          · exact hp hm.symm
          rcases List.mem_cons.1 hm with hm | hm
          · exact absurd hm (by decide)
          exact hn (List.mem_singleton.1 hm).symm
        · exact ho hm
      unfold position
      rw [hc]
      cases fromEnv <;> rfl
    unfold givenCommand
    rw [this]
    exact congrArg (Given.mk none) hmap

example : givenCommand false ["lilya".toList, "run".toList, "seed".toList, "-h".toList] = ⟨none, ["--help".toList]⟩ :=
    by
  decide +kernel

/-- "Both kinds can be called with `--directive`": a function gets its own name as an argument then. -/
theorem C110_command_false (fromEnv : Bool) :
    givenCommand fromEnv ["lilya".toList, "run".toList, "--directive".toList, "seed".toList, "--fast".toList]
      = ⟨none, ["seed".toList, "--fast".toList]⟩ := by
  cases fromEnv <;> decide +kernel

/-! ### The command line and the list -/

/-- A function with `display_in_cli` becomes a directive of its own: under a name, what the last file of this name in
the order of the search shows.  Partial: if no file raises a `TypeError`. -/
theorem C110_cli_partial (load : Str → File) (ds : List Entry)
    (h : ∀ e ∈ ds, load (fileOf e.location e.name) ≠ .typeError) (n : Str) :
    ∃ d, toCli load [] ds = some d ∧ ∀ o, (aget d n = some o ↔
      ∃ pre e post, ds = pre ++ e :: post ∧ e.name = n ∧ Shows load e o ∧
        ∀ x ∈ post, x.name = n → ∀ y, ¬ Shows load x y) := by
  obtain ⟨d, hd, hg⟩ := toCli_get load ds [] h n
  refine ⟨d, hd, fun o => (hg o).trans ⟨?_, .inl⟩⟩
  rintro (h | h)
  · exact h
  · exact nomatch h.1

example : toCli files [] (findDirectives roots) = some [("seed".toList, .command 2 true)] := by decide +kernel

/-- "Errors in the definition of a directive are ignored": a `TypeError` in one file stops the whole program. -/
theorem C110_cli_false (load : Str → File) (e : Entry) (rest : List Entry) (acc : List (Str × Obj))
    (h : load (fileOf e.location e.name) = .typeError) : toCli load acc (e :: rest) = none := by
  rw [toCli, h]

/-- `lilya seed` and `lilya run seed` may be different directives. -/
theorem C110_same_false :
    ∃ (load : Str → File) (ds : List Entry) (n : Str) (d : List (Str × Obj)), toCli load [] ds = some d ∧
      aget d n = some (.command 1 true) ∧ fetchCustom load ds n = .runs (.command 2 true) :=
  ⟨fun p => if p = "a/operations/seed.py".toList then .content none [.command 1 true] else .content none [.command 2
      true],
    [⟨"seed".toList, "b/operations".toList⟩, ⟨"seed".toList, "a/operations".toList⟩], "seed".toList,
    [("seed".toList, .command 1 true)], by decide +kernel, by decide +kernel, by decide +kernel⟩

/-- `lilya directives` lists every directive of the project. -/
theorem C110_list_partial (e : Entry) (h : ¬ Reserved e.name) : ("application".toList, e.name) ∈ listed e := by
  unfold listed
  unfold Reserved at h
  rw [if_neg h]
  exact List.mem_cons_self

/-- It lists more than that: for every directive a group with its name, in which there is `name`. -/
theorem C110_list_false :
    listed ⟨"seed".toList, "a/operations".toList⟩
      = [("application".toList, "seed".toList), ("seed".toList, "name".toList)] := by decide +kernel

/-- The rows for a directive without a full stop in its name. -/
theorem C110_rows (e : Entry) (h : '.' ∉ e.name) :
    (¬ Reserved e.name → listed e = [("application".toList, e.name), (e.name, "name".toList)]) ∧
    (Reserved e.name → listed e = [(e.name, "name".toList)]) := by
  have hl : listed.lastPart e.name = e.name := by
    unfold listed.lastPart
    rw [splitOn_of_not_mem '.' _ h]
    rfl
  unfold listed Reserved
  rw [hl]
  exact ⟨fun hr => if_neg hr, fun hr => if_pos hr⟩

example : '.' ∉ "seed".toList ∧ ¬ Reserved "seed".toList ∧ Reserved "name".toList := by
  unfold Reserved; decide +kernel

/-- Files that cannot be used: one without a directive, and one whose `Directive` is something else, are told apart. -/
theorem C110_bad_file (f : File) :
    (loadDirective f = .notInFile ↔ f = .content none []) ∧
    (loadDirective f = .directiveError ↔
      ∃ i cs, f = .content (some (.other i)) cs ∨ f = .content none (.other i :: cs)) := by
  cases f with
  | missing => simp [loadDirective]
  | typeError => simp [loadDirective]
  | fails => simp [loadDirective]
  | content d cs =>
    cases d with
    | some x => cases x <;> simp [loadDirective, exported]
    | none =>
      cases cs with
      | nil => simp [loadDirective, exported]
      | cons x cs => cases x <;> simp [loadDirective, exported]

end Verif.Directives.Props
