import Verif.Params.Lemmas

/-!
# C75: declared parameters arrive as declared

A handler whose arguments are declared with `Query`, `Header` and `Cookie` is called with values of the
declared types that say what the client sent, or the request is refused with 422.
-/

namespace Verif.Params

open Spec

/-- **C75 (partial), types.**  Whatever is converted, the result belongs to the declared type.

The full statement is for all types.  Missing: tuples of fixed length (`C75_tuple_false`). -/
theorem C75_typed_partial (c : Cast) (v w : Val) (hc : NoTuple c) (h : castTo c v = some w) :
    HasType c w := typed c v w hc h

/-- `list[int | bool | None]`. -/
def exCast : Cast := .list (.union [.int, .bool] true)

theorem exCast_noTuple : NoTuple exCast :=
  .list _ (.union _ _ (.cons _ _ .int (.cons _ _ .bool .nil)))

example : NoTuple exCast ∧ ((castTo exCast (.list [.str "7".toList, .str "yes".toList])).isSome = true) :=
  ⟨exCast_noTuple, by decide +kernel⟩

/-- **C75 (partial), calls.**  If every field has a right value, with numbers as Python writes them, then
the handler is called, every field under its name with that value; path parameters that share no name with
a field arrive as they are.  If some field has no right value, the request is refused with 422.

The full statement is for all requests, with numbers as people write them.  Missing: a number of texts that
does not suit the type (`C75_bool_false`, `C75_str_false`, `C75_tuple_false`, `C75_shape_false`), defaults
that are no text for typed fields (`C75_default_false`), unions of several types (`C75_typed_partial` and
`C75_union` only), and underscores and spaces in numbers (`C75_int_false`). -/
theorem C75_call_partial (path : List (Str × Val)) (names : List Str) (fs : List Field) (r : Sent)
    (hn : (fs.map Field.name).Nodup) (hf : ∀ f ∈ fs, Fit r f) :
    (∀ g : Field → Val, (∀ f ∈ fs, Right PyNumber r f (g f)) →
      (∀ f ∈ fs, Holds (handle path names fs r) f.name (g f)) ∧
      ∀ n ∈ names, (∀ f ∈ fs, f.name ≠ n) → ∀ v, aget path n = some v →
        Holds (handle path names fs r) n v) ∧
    ((∃ f ∈ fs, ∀ v, ¬ Right PyNumber r f v) → Refused (handle path names fs r)) := by
  refine ⟨fun g hg => ?_, ?_⟩
  · have h := arguments_ok r g fs (path.filter fun p => p.1 ∈ names)
      fun f hf => argument_right (hg f hf)
    refine ⟨fun f hf => ⟨_, h, aget_foldl_mem g fs _ hn f hf⟩, ?_⟩
    intro n hnm hno v hv
    refine ⟨_, h, ?_⟩
    rw [aget_foldl_other g n fs _ hno, aget_filter path names n hnm]
    exact hv
  · rintro ⟨f, hfm, hno⟩
    refine arguments_error r fs _ ⟨f, hfm, ?_⟩
    cases e : argument r f with
    | error x => exact ⟨x, rfl⟩
    | ok v => exact absurd (right_argument (hf f hfm) e) (hno v)

/-- `ids: … = Query(cast=list[int])` and `flag: … = Header("X-Flag", cast=bool)`. -/
def exFields : List Field :=
  [⟨"ids".toList, .query, "ids".toList, true, some (.list .int), .none, "list".toList⟩,
   ⟨"flag".toList, .header, "X-Flag".toList, false, some .bool, .none, "bool".toList⟩]

/-- `?ids=3&ids=-10` with `x-flag: Yes`. -/
def exSent : Sent :=
  ⟨[("ids".toList, "3".toList), ("q".toList, "x".toList), ("ids".toList, "-10".toList)],
   [("x-flag".toList, "Yes".toList)], []⟩

theorem decimal_3 : Decimal "3".toList 3 := .one 3 (by decide)

theorem decimal_10 : Decimal "10".toList 10 := .more ['1'] 1 0 (.one 1 (by decide)) (by decide)

example : (exFields.map Field.name).Nodup ∧ (∀ f ∈ exFields, Fit exSent f) ∧
    Right Number exSent exFields[0] (.list [.int 3, .int (-10)]) ∧
    Right Number exSent exFields[1] (.bool true) := by
  have e0 : texts exSent exFields[0] = ["3".toList, "-10".toList] := by decide +kernel
  have e1 : texts exSent exFields[1] = ["Yes".toList] := by decide +kernel
  refine ⟨by decide +kernel, ?_, ?_, ?_⟩
  · intro f hf
    rcases List.mem_cons.mp hf with e | hf
    · subst e
      exact .list .int (by decide +kernel) rfl .int
    · rcases List.mem_cons.mp hf with e | hf
      · subst e
        exact .one .bool _ e1 rfl .bool
      · cases hf
  · refine .typed (.list .int) _ rfl ?_
    rw [e0]
    exact .list _ _ _ (by simp) (.cons _ _ _ _ (.int _ _ (.plain _ _ decimal_3))
      (.cons _ _ _ _ (.int _ _ (.minus _ _ decimal_10)) .nil))
  · refine .typed .bool _ rfl ?_
    rw [e1]
    exact .one _ _ _ (.bool _ _ (by unfold Word; decide +kernel))

/-- **C75, numbers as people write them** are numbers for Python, so `C75_call_partial` calls the handler
for them. -/
theorem C75_number (r : Sent) (f : Field) (v : Val) (h : Right Number r f v) : Right PyNumber r f v :=
  right_mono h

example : Number "-10".toList (-10) := .minus _ _ decimal_10

/-- **C75, required.**  Without a text for a required field, the request is refused, whatever else
it carries. -/
theorem C75_required (path : List (Str × Val)) (names : List Str) (fs : List Field) (r : Sent) (f : Field)
    (hf : f ∈ fs) (hr : f.required = true) (h : texts r f = []) : Refused (handle path names fs r) := by
  refine arguments_error r fs _ ⟨f, hf, missingText f.key, ?_⟩
  unfold argument
  rw [raw_texts, rawOf_none, h, hr]
  rfl

example : (exFields[0]).required = true ∧ texts ⟨[], exSent.headers, []⟩ exFields[0] = [] :=
  ⟨rfl, by decide +kernel⟩

/-- **C75, either of two types.**  For `int | str` and for `str | int`, with `None` or without, a number
arrives as a number and every other text as it is. -/
theorem C75_union (cs : List Cast) (b : Bool) (hcs : cs = [.int, .str] ∨ cs = [.str, .int]) (s : Str) :
    (∀ n, PyNumber s n → castTo (.union cs b) (rawOf [s]) = some (.int n)) ∧
    ((∀ n, ¬ PyNumber s n) → castTo (.union cs b) (rawOf [s]) = some (.str s)) := by
  have h : castTo (.union cs b) (rawOf [s]) =
      match (intOf s).map Val.int with
      | some w => some w
      | none => some (.str s) := by
    rcases hcs with e | e <;> subst e <;> rw [castTo_union]
    · simp only [rawOf, Val.isNone, strLast, Val.isStr, List.any, Cast.isStr, Bool.false_and,
        Bool.false_or, Bool.true_and, Bool.or_false, List.length, castFirst, castTo, toInt,
        Bool.and_false, Bool.and_true, Bool.false_eq_true, if_false, strOf]
      cases intOf s <;> rfl
    · simp only [rawOf, Val.isNone, strLast, Val.isStr, List.any, Cast.isStr, Bool.false_and,
        Bool.true_or, Bool.true_and, List.length, castFirst, castTo, toInt,
        Bool.and_false, Bool.and_true, Bool.false_eq_true, if_false, strOf]
      cases intOf s <;> rfl
  constructor
  · intro n hn
    rw [h, (intOf_iff s n).mpr hn]
    rfl
  · intro hno
    rw [h]
    cases e : intOf s with
    | none => rfl
    | some n => exact absurd ((intOf_iff s n).mp e) (hno n)

example : PyNumber "10".toList 10 := py_of_number (.plain _ _ decimal_10)

example : ∀ n, ¬ PyNumber "ten".toList n := by
  intro n h
  have := (intOf_iff _ n).mpr h
  have e : intOf "ten".toList = none := by decide +kernel
  rw [e] at this
  cases this

/-- **C75 is false for truth values sent twice.**  `?flag=false&flag=false` is true: the truth value of a
list that is not empty. -/
theorem C75_bool_false : ∃ r f, texts r f = ["false".toList, "false".toList] ∧ f.cast = some .bool ∧
    Holds (handle [] [f.name] [f] r) f.name (.bool true) := by
  refine ⟨⟨[("flag".toList, "false".toList), ("flag".toList, "false".toList)], [], []⟩,
    ⟨"flag".toList, .query, "flag".toList, true, some .bool, .none, "bool".toList⟩,
    by decide +kernel, rfl, _, rfl, rfl⟩

/-- **C75 is false for texts sent twice.**  `?q=a&q=b` for a `str` arrives as the text
`['a', 'b']`, which no client sent. -/
theorem C75_str_false : ∃ r f, texts r f = ["a".toList, "b".toList] ∧ f.cast = some .str ∧
    Holds (handle [] [f.name] [f] r) f.name (.str "['a', 'b']".toList) := by
  refine ⟨⟨[("q".toList, "a".toList), ("q".toList, "b".toList)], [], []⟩,
    ⟨"q".toList, .query, "q".toList, true, some .str, .none, "str".toList⟩,
    by decide +kernel, rfl, _, rfl, rfl⟩

theorem haveTypes_length {cs : List Cast} {vs : List Val} (h : HasType (.tuple cs) (.tuple vs)) :
    cs.length = vs.length := by
  have aux : ∀ {cs : List Cast} {vs : List Val}, HaveTypes cs vs → cs.length = vs.length := by
    intro cs
    induction cs with
    | nil => intro vs h; cases h; rfl
    | cons c cs ih =>
      intro vs h
      cases h with
      | cons _ _ v vs _ hs => rw [List.length_cons, List.length_cons, ih hs]
  cases h with
  | tuple _ _ h => exact aux h

/-- **C75 is false for tuples.**  For `tuple[int, int]`, one number arrives as a tuple of one, and of three
numbers the last is dropped without notice. -/
theorem C75_tuple_false : ∃ r r' f, f.cast = some (.tuple [.int, .int]) ∧
    Holds (handle [] [f.name] [f] r) f.name (.tuple [.int 1]) ∧
    ¬ HasType (.tuple [.int, .int]) (.tuple [.int 1]) ∧
    texts r' f = ["1".toList, "2".toList, "3".toList] ∧
    Holds (handle [] [f.name] [f] r') f.name (.tuple [.int 1, .int 2]) := by
  refine ⟨⟨[("at".toList, "1".toList)], [], []⟩,
    ⟨[("at".toList, "1".toList), ("at".toList, "2".toList), ("at".toList, "3".toList)], [], []⟩,
    ⟨"at".toList, .query, "at".toList, true, some (.tuple [.int, .int]), .none, "tuple".toList⟩,
    rfl, ⟨_, rfl, rfl⟩, ?_, by decide +kernel, ⟨_, rfl, rfl⟩⟩
  intro h
  exact absurd (haveTypes_length h) (by decide)

theorem decimal_chars {s : Str} {n : Nat} (h : Decimal s n) : '_' ∉ s := by
  induction h with
  | one d hd =>
    intro hm
    rw [List.mem_singleton] at hm
    exact digit_not_under d hd hm.symm
  | more s n d _ hd ih =>
    intro hm
    rcases List.mem_append.mp hm with hm | hm
    · exact ih hm
    · rw [List.mem_singleton] at hm
      exact digit_not_under d hd hm.symm

/-- **C75 is false for what counts as a number.**  `?n=1_0` is taken as the number 10. -/
theorem C75_int_false : ∃ r f s, texts r f = [s] ∧ f.cast = some .int ∧ (∀ n, ¬ Number s n) ∧
    Holds (handle [] [f.name] [f] r) f.name (.int 10) := by
  refine ⟨⟨[("n".toList, "1_0".toList)], [], []⟩,
    ⟨"n".toList, .query, "n".toList, true, some .int, .none, "int".toList⟩, "1_0".toList,
    by decide +kernel, rfl, ?_, _, rfl, rfl⟩
  have aux : ∀ (s : Str) (n : Int), Number s n → '_' ∉ s := by
    intro s n h
    cases h with
    | plain s n h => exact decimal_chars h
    | plus s n h => simpa using decimal_chars h
    | minus s n h => simpa using decimal_chars h
  intro n h
  exact aux _ n h (by decide +kernel)

/-- **C75 is false for fields without type.**  The same field is a text for one client and a list
for another. -/
theorem C75_shape_false : ∃ r r' f, f.cast = none ∧
    Holds (handle [] [f.name] [f] r) f.name (.str "a".toList) ∧
    Holds (handle [] [f.name] [f] r') f.name (.list [.str "a".toList, .str "b".toList]) :=
  ⟨⟨[("q".toList, "a".toList)], [], []⟩, ⟨[("q".toList, "a".toList), ("q".toList, "b".toList)], [], []⟩,
    ⟨"q".toList, .query, "q".toList, true, none, .none, []⟩, rfl, ⟨_, rfl, rfl⟩, ⟨_, rfl, rfl⟩⟩

/-- **C75 is false for optional lists.**  Without a text, a field of type `list[int]` arrives as
`None`, which is no list. -/
theorem C75_default_false : ∃ r f, f.cast = some (.list .int) ∧
    Holds (handle [] [f.name] [f] r) f.name .none ∧ ¬ HasType (.list .int) .none :=
  ⟨⟨[], [], []⟩, ⟨"ids".toList, .query, "ids".toList, false, some (.list .int), .none, "list".toList⟩,
    rfl, ⟨_, rfl, rfl⟩, fun h => nomatch h⟩

/-- **C75 is false for the message.**  A missing header is told as a missing query parameter. -/
theorem C75_message_false : ∃ r f, f.kind = .header ∧ f.key = "X-Token".toList ∧
    handle [] [f.name] [f] r = .refused "Missing mandatory query parameter 'X-Token'".toList :=
  ⟨⟨[], [], []⟩, ⟨"token".toList, .header, "X-Token".toList, true, some .str, .none, "str".toList⟩,
    rfl, rfl, rfl⟩

/-- **C75** (defaults): a value that is no text is cast as Python does it: a truth value to 1 or 0, and to its
name; a tuple of one is written with a comma. -/
theorem C75_default_cast (b : Bool) (v : Val) :
    castTo .int (.bool b) = some (.int (if b then 1 else 0)) ∧
    castTo .str (.bool b) = some (.str (if b then "True".toList else "False".toList)) ∧
    castTo .str (.tuple [v]) = some (.str ("(".toList ++ repr v ++ ",)".toList)) := by
  refine ⟨by rw [castTo]; rfl, ?_, ?_⟩
  · cases b <;> rfl
  · have h : castTo .str (.tuple [v]) = some (.str ('(' :: (repr v ++ [',', ')']))) := rfl
    rw [h]
    rfl

example : castTo .str (.tuple [.bool false]) = some (.str "(False,)".toList) := (C75_default_cast true (.bool
    false)).2.2

/-- **C75** (defaults): a value that is no text is cast to a truth value as Python does it: false are only `None`,
`False`, zero and what is empty. -/
theorem C75_default_truth (v : Val) (hv : ∀ s, v ≠ .str s) :
    (v = .none ∨ v = .bool false ∨ v = .int 0 ∨ v = .list [] ∨ v = .tuple [] → castTo .bool v = some (.bool false)) ∧
    (¬ (v = .none ∨ v = .bool false ∨ v = .int 0 ∨ v = .list [] ∨ v = .tuple []) →
      castTo .bool v = some (.bool true)) := by
  constructor
  · rintro (rfl | rfl | rfl | rfl | rfl) <;> rfl
  · intro h
    simp only [not_or] at h
    obtain ⟨h1, h2, h3, h4, h5⟩ := h
    cases v with
    | none => exact absurd rfl h1
    | str s => exact absurd rfl (hv s)
    | bool b => cases b with | false => exact absurd rfl h2 | true => rfl
    | int n =>
      have : n ≠ 0 := fun e => h3 (e ▸ rfl)
      show some (Val.bool (n != 0)) = _
      rw [bne_iff_ne.mpr this]
    | list vs => cases vs with | nil => exact absurd rfl h4 | cons _ _ => rfl
    | tuple vs => cases vs with | nil => exact absurd rfl h5 | cons _ _ => rfl
    | obj n => rfl

example : castTo .bool .none = some (.bool false) := (C75_default_truth .none (fun _ h => nomatch h)).1 (.inl rfl)

/-- **C75, refusals say why.**  The first field without a right value is named: as missing if it is required and
nothing was sent for it, and else with the type that was expected. -/
theorem C75_message (path : List (Str × Val)) (names : List Str) (pre post : List Field) (f : Field) (r : Sent)
    (hpre : ∀ g ∈ pre, ∃ v, Right PyNumber r g v) (hf : Fit r f) (hno : ∀ v, ¬ Right PyNumber r f v) :
    (f.required = true → texts r f = [] → handle path names (pre ++ f :: post) r = .refused (missing f.key)) ∧
    (f.required = false ∨ texts r f ≠ [] →
      handle path names (pre ++ f :: post) r = .refused (invalid f.key f.castName)) := by
  have h := refusal path names pre post f r hpre hf hno
  constructor
  · intro h1 h2
    rw [h, if_pos ⟨h1, h2⟩, missing_eq]
  · intro h1
    rw [h, if_neg (fun e => h1.elim (fun a => by rw [e.1] at a; cases a) (fun a => a e.2)), invalid_eq]

example : (∃ e, handle [] ["ids".toList] exFields ⟨[("ids".toList, "x".toList)], [], []⟩ = .refused e) ∧
    invalid "ids".toList "list".toList = "Invalid value for query parameter 'ids': expected list".toList :=
  ⟨⟨_, rfl⟩, by decide⟩

end Verif.Params
