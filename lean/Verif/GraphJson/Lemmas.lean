import Verif.GraphJson.Spec
import Verif.Json.Props
import Verif.UrlQuery.Lemmas

namespace Verif.GraphJson

open Verif Verif.Json Verif.UrlQuery Verif.GraphJson.Spec

/-! ### Sorting -/

section Sorting

variable {α : Type} {le : α → α → Bool}

theorem insertBy_perm (x : α) (l : List α) : (insertBy le x l).Perm (x :: l) := by
  induction l with
  | nil => exact .refl _
  | cons y ys ih =>
    rw [insertBy]
    split
    · exact .refl _
    · exact (ih.cons y).trans (.swap x y ys)

theorem sortBy_perm (l : List α) : (sortBy le l).Perm l := by
  induction l with
  | nil => exact .refl _
  | cons x l ih => exact (insertBy_perm x _).trans (ih.cons x)

theorem insertBy_pairwise (ht : ∀ a b c, le a b = true → le b c = true → le a c = true)
    (x : α) (l : List α) (hx : ∀ y ∈ l, le x y = true ∨ le y x = true) (h : l.Pairwise (fun a b => le a b = true)) :
    (insertBy le x l).Pairwise (fun a b => le a b = true) := by
  induction l with
  | nil => simp [insertBy]
  | cons y ys ih =>
    rw [List.pairwise_cons] at h
    rw [insertBy]
    split
    · rename_i hp
      rw [List.pairwise_cons]
      refine ⟨?_, List.pairwise_cons.2 h⟩
      intro z hz
      rcases List.mem_cons.1 hz with rfl | hz
      · exact hp
      · exact ht _ _ _ hp (h.1 z hz)
    · rename_i hp
      rw [List.pairwise_cons]
      refine ⟨?_, ih (fun z hz => hx z (List.mem_cons_of_mem _ hz)) h.2⟩
      intro z hz
      rcases List.mem_cons.1 ((insertBy_perm x ys).mem_iff.1 hz) with rfl | hz
      · rcases hx y List.mem_cons_self with h' | h'
        · exact absurd h' hp
        · exact h'
      · exact h.1 z hz

theorem sortBy_pairwise (ht : ∀ a b c, le a b = true → le b c = true → le a c = true) (l : List α)
    (hl : ∀ a ∈ l, ∀ b ∈ l, le a b = true ∨ le b a = true) : (sortBy le l).Pairwise (fun a b => le a b = true) := by
  induction l with
  | nil => exact .nil
  | cons x l ih =>
    refine insertBy_pairwise ht x _ ?_
      (ih fun a ha b hb => hl a (List.mem_cons_of_mem _ ha) b (List.mem_cons_of_mem _ hb))
    intro y hy
    exact hl x List.mem_cons_self y (List.mem_cons_of_mem _ ((sortBy_perm l).mem_iff.1 hy))

theorem sortBy_congr (ht : ∀ a b c, le a b = true → le b c = true → le a c = true) {l m : List α} (h : l.Perm m)
    (hl : ∀ a ∈ l, ∀ b ∈ l, le a b = true ∨ le b a = true)
    (ha : ∀ a ∈ l, ∀ b ∈ l, le a b = true → le b a = true → a = b) : sortBy le l = sortBy le m := by
  refine List.Perm.eq_of_pairwise (le := fun a b => le a b = true) ?_ (sortBy_pairwise ht l hl)
    (sortBy_pairwise ht m fun a ha' b hb => hl a (h.mem_iff.2 ha') b (h.mem_iff.2 hb))
    ((sortBy_perm l).trans (h.trans (sortBy_perm m).symm))
  intro a b ha' hb h1 h2
  exact ha a ((sortBy_perm l).mem_iff.1 ha') b (h.mem_iff.2 ((sortBy_perm m).mem_iff.1 hb)) h1 h2

end Sorting

/-! ### Sets -/

theorem comparable_perm {l m : List Scalar} (h : l.Perm m) : comparable l = comparable m := by
  unfold comparable
  rw [h.length_eq, h.all_eq, h.all_eq]

theorem comparable_of_sortable {l : List Elem} (h : Sortable l) : comparable (l.map Elem.norm) = true := by
  unfold comparable
  rcases h with h | h | h
  · rw [List.length_map, decide_eq_true h]; rfl
  · have : (l.map Elem.norm).all (fun s => s.number?.isSome) = true := by
      rw [List.all_eq_true]
      intro s hs
      obtain ⟨e, he, rfl⟩ := List.mem_map.mp hs
      obtain ⟨n, hn⟩ := h e he
      rw [hn]; rfl
    rw [this, Bool.or_true]; rfl
  · have : (l.map Elem.norm).all Scalar.isText = true := by
      rw [List.all_eq_true]
      intro s hs
      obtain ⟨e, he, rfl⟩ := List.mem_map.mp hs
      obtain ⟨n, hn⟩ := h e he
      rw [hn]; rfl
    rw [this, Bool.or_true]

theorem le_number {a b : Scalar} {n m : Int} (ha : a.number? = some n) (hb : b.number? = some m) :
    a.le b = decide (n ≤ m) := by
  cases a <;> cases b <;> cases ha <;> cases hb <;> rfl

/-- Sorting a set forgets the order in which it was iterated. -/
theorem sort_set {l m : List Elem} (h : l.Perm m) (ha : Apart l)
    (hc : comparable (l.map Elem.norm) = true) :
    sortBy Scalar.le (l.map Elem.norm) = sortBy Scalar.le (m.map Elem.norm) := by
  have hp : (l.map Elem.norm).Perm (m.map Elem.norm) := h.map _
  unfold comparable at hc
  rw [Bool.or_eq_true, Bool.or_eq_true] at hc
  rcases hc with (hc | hc) | hc
  · have hlen := of_decide_eq_true hc
    have hl : (l.map Elem.norm) = (m.map Elem.norm) := by
      generalize l.map Elem.norm = a at hp hlen
      generalize m.map Elem.norm = b at hp
      match a, hlen with
      | [], _ => exact (List.Perm.nil_eq hp)
      | [x], _ => exact (List.perm_singleton.mp hp.symm).symm
    rw [hl]
  · have hn : ∀ a ∈ l.map Elem.norm, ∃ n, a.number? = some n := by
      intro a ha'
      exact Option.isSome_iff_exists.mp ((List.all_eq_true.mp hc) a ha')
    have key : ∀ (p q : List Scalar), (∀ a ∈ p, ∃ n, a.number? = some n) → p.Perm q →
        (∀ a ∈ p, ∀ b ∈ p, ∀ n, a.number? = some n → b.number? = some n → a = b) →
        sortBy Scalar.le p = sortBy Scalar.le q := by
      intro p q hp hpq hap
      let le' : Scalar → Scalar → Bool := fun a b => decide (a.number?.getD 0 ≤ b.number?.getD 0)
      have hins : ∀ (x : Scalar) (r : List Scalar), (∃ n, x.number? = some n) → (∀ a ∈ r, ∃ n, a.number? = some n) →
          insertBy Scalar.le x r = insertBy le' x r := by
        intro x r hx hr
        induction r with
        | nil => rfl
        | cons y r ih =>
          obtain ⟨n, hn⟩ := hx
          obtain ⟨k, hk⟩ := hr y List.mem_cons_self
          have : x.le y = le' x y := by
            rw [le_number hn hk]
            show _ = decide (x.number?.getD 0 ≤ y.number?.getD 0)
            rw [hn, hk]; rfl
          rw [insertBy, insertBy, this, ih (fun a ha => hr a (List.mem_cons_of_mem _ ha))]
      have hsort : ∀ r : List Scalar, (∀ a ∈ r, ∃ n, a.number? = some n) → sortBy Scalar.le r = sortBy le' r := by
        intro r
        induction r with
        | nil => intro _; rfl
        | cons x r ih =>
          intro hr
          rw [sortBy, sortBy, ih (fun a ha => hr a (List.mem_cons_of_mem _ ha))]
          exact hins x _ (hr x List.mem_cons_self)
            (fun a ha => hr a (List.mem_cons_of_mem _ ((sortBy_perm r).mem_iff.1 ha)))
      rw [hsort p hp, hsort q (fun a ha => hp a (hpq.mem_iff.2 ha))]
      refine sortBy_congr ?_ hpq ?_ ?_
      · intro a b c h1 h2
        exact decide_eq_true (Int.le_trans (of_decide_eq_true h1) (of_decide_eq_true h2))
      · intro a _ b _
        rcases Int.le_total (a.number?.getD 0) (b.number?.getD 0) with h | h
        · exact Or.inl (decide_eq_true h)
        · exact Or.inr (decide_eq_true h)
      · intro a ha b hb h1 h2
        obtain ⟨n, hn⟩ := hp a ha
        obtain ⟨k, hk⟩ := hp b hb
        have e1 := of_decide_eq_true h1
        have e2 := of_decide_eq_true h2
        rw [hn, hk] at e1 e2
        have : n = k := Int.le_antisymm e1 e2
        exact hap a ha b hb n hn (this ▸ hk)
    exact key _ _ hn hp ha
  · have hs : ∀ a ∈ l.map Elem.norm, ∃ s, a = Scalar.str s := by
      intro a ha'
      have := (List.all_eq_true.mp hc) a ha'
      cases a with
      | str s => exact ⟨s, rfl⟩
      | null => cases this
      | bool b => cases this
      | int n => cases this
    have key : ∀ (p q : List Scalar), (∀ a ∈ p, ∃ s, a = Scalar.str s) → p.Perm q →
        sortBy Scalar.le p = sortBy Scalar.le q := by
      intro p q hp hpq
      let text : Scalar → Str := fun a => match a with | .str s => s | _ => []
      let le' : Scalar → Scalar → Bool := fun a b => leStr (text a) (text b)
      have hins : ∀ (x : Scalar) (r : List Scalar), (∃ s, x = Scalar.str s) → (∀ a ∈ r, ∃ s, a = Scalar.str s) →
          insertBy Scalar.le x r = insertBy le' x r := by
        intro x r hx hr
        induction r with
        | nil => rfl
        | cons y r ih =>
          obtain ⟨n, rfl⟩ := hx
          obtain ⟨k, rfl⟩ := hr y List.mem_cons_self
          rw [insertBy, insertBy, ih (fun a ha => hr a (List.mem_cons_of_mem _ ha))]
          rfl
      have hsort : ∀ r : List Scalar, (∀ a ∈ r, ∃ s, a = Scalar.str s) → sortBy Scalar.le r = sortBy le' r := by
        intro r
        induction r with
        | nil => intro _; rfl
        | cons x r ih =>
          intro hr
          rw [sortBy, sortBy, ih (fun a ha => hr a (List.mem_cons_of_mem _ ha))]
          exact hins x _ (hr x List.mem_cons_self)
            (fun a ha => hr a (List.mem_cons_of_mem _ ((sortBy_perm r).mem_iff.1 ha)))
      rw [hsort p hp, hsort q (fun a ha => hp a (hpq.mem_iff.2 ha))]
      refine sortBy_congr ?_ hpq ?_ ?_
      · intro a b c h1 h2
        exact leStr_trans _ _ _ h1 h2
      · intro a _ b _
        exact leStr_total _ _
      · intro a ha b hb h1 h2
        obtain ⟨s, rfl⟩ := hp a ha
        obtain ⟨t, rfl⟩ := hp b hb
        exact congrArg Scalar.str (leStr_antisymm _ _ h1 h2)
    exact key _ _ hs hp

theorem safe_set {l m : List Elem} (h : l.Perm m) (ha : Apart l) : safe (.set l) = safe (.set m) := by
  show (if comparable (l.map Elem.norm) then some (Val.seq (ofScalars (sortBy Scalar.le (l.map Elem.norm)))) else
      none) =
    (if comparable (m.map Elem.norm) then some (Val.seq (ofScalars (sortBy Scalar.le (m.map Elem.norm)))) else none)
  rw [← comparable_perm (h.map Elem.norm)]
  by_cases hc : comparable (l.map Elem.norm) = true
  · rw [if_pos hc, if_pos hc, sort_set h ha hc]
  · rw [if_neg hc, if_neg hc]

mutual

theorem safe_same : {v w : Val} → Same v w → safe v = safe w
  | _, _, .refl v => rfl
  | _, _, .map h => congrArg (Option.map Val.map) (safeItems_same h)
  | _, _, .seq h => congrArg (Option.map Val.seq) (safeVals_same h)
  | _, _, .set h ha => safe_set h ha

theorem safeItems_same : {i j : Items} → SameItems i j → safeItems i = safeItems j
  | _, _, .nil => rfl
  | _, _, .cons k h hr => by
    rw [safeItems, safeItems, safe_same h, safeItems_same hr]

theorem safeVals_same : {a b : Vals} → SameVals a b → safeVals a = safeVals b
  | _, _, .nil => rfl
  | _, _, .cons h hr => by
    rw [safeVals, safeVals, safe_same h, safeVals_same hr]

end

/-! ### Friendly values -/

theorem plain_scalars (l : List Scalar) : PlainVals (ofScalars l) := by
  induction l with
  | nil => exact trivial
  | cons s l ih => exact ⟨trivial, ih⟩

mutual

theorem safe_friendly : (v : Val) → Friendly v → ∃ w, safe v = some w ∧ Plain w
  | .scalar s, _ => ⟨.scalar s, rfl, trivial⟩
  | .map i, h => by
    obtain ⟨j, h1, h2⟩ := safeItems_friendly i h
    exact ⟨.map j, by rw [safe, h1]; rfl, h2⟩
  | .seq a, h => by
    obtain ⟨j, h1, h2⟩ := safeVals_friendly a h
    exact ⟨.seq j, by rw [safe, h1]; rfl, h2⟩
  | .enum v, h => ⟨v, rfl, h⟩
  | .set l, h => by
    refine ⟨.seq (ofScalars (sortBy Scalar.le (l.map Elem.norm))), ?_, plain_scalars _⟩
    show (if comparable (l.map Elem.norm) then _ else _) = _
    rw [if_pos (comparable_of_sortable h)]
  | .frozen l, h => absurd h id
  | .other, h => absurd h id

theorem safeItems_friendly : (i : Items) → FriendlyItems i → ∃ j, safeItems i = some j ∧ PlainItems j
  | .nil, _ => ⟨.nil, rfl, trivial⟩
  | .cons k v i, h => by
    obtain ⟨w, h1, h2⟩ := safe_friendly v h.2.1
    obtain ⟨j, h3, h4⟩ := safeItems_friendly i h.2.2
    exact ⟨.cons k w j, by rw [safeItems, h1, h3]; rfl, h.1, h2, h4⟩

theorem safeVals_friendly : (a : Vals) → FriendlyVals a → ∃ b, safeVals a = some b ∧ PlainVals b
  | .nil, _ => ⟨.nil, rfl, trivial⟩
  | .cons v a, h => by
    obtain ⟨w, h1, h2⟩ := safe_friendly v h.1
    obtain ⟨j, h3, h4⟩ := safeVals_friendly a h.2
    exact ⟨.cons w j, by rw [safeVals, h1, h3]; rfl, h2, h4⟩

end

mutual

theorem json_plain : (v : Val) → Plain v → ∃ j, json v = some j ∧ loaded j = v
  | .scalar s, _ => ⟨s.json, rfl, by cases s <;> rfl⟩
  | .map i, h => by
    obtain ⟨j, h1, h2⟩ := jsonItems_plain i h
    exact ⟨.obj j, by rw [json, h1]; rfl, congrArg Val.map h2⟩
  | .seq a, h => by
    obtain ⟨j, h1, h2⟩ := jsonVals_plain a h
    exact ⟨.arr j, by rw [json, h1]; rfl, congrArg Val.seq h2⟩
  | .enum v, h => absurd h id
  | .set l, h => absurd h id
  | .frozen l, h => absurd h id
  | .other, h => absurd h id

theorem jsonItems_plain : (i : Items) → PlainItems i → ∃ j, jsonItems i = some j ∧ loadedMembers j = i
  | .nil, _ => ⟨.nil, rfl, rfl⟩
  | .cons k v i, h => by
    obtain ⟨s, rfl⟩ := h.1
    obtain ⟨w, h1, h2⟩ := json_plain v h.2.1
    obtain ⟨j, h3, h4⟩ := jsonItems_plain i h.2.2
    refine ⟨.cons s w j, by rw [jsonItems, h1, h3]; rfl, ?_⟩
    rw [loadedMembers, h2, h4]

theorem jsonVals_plain : (a : Vals) → PlainVals a → ∃ j, jsonVals a = some j ∧ loadedElems j = a
  | .nil, _ => ⟨.nil, rfl, rfl⟩
  | .cons v a, h => by
    obtain ⟨w, h1, h2⟩ := json_plain v h.1
    obtain ⟨j, h3, h4⟩ := jsonVals_plain a h.2
    refine ⟨.cons w j, by rw [jsonVals, h1, h3]; rfl, ?_⟩
    rw [loadedElems, h2, h4]

end

/-! ### White space -/

theorem minify_inert (s r : Str) (h : ∀ c ∈ s, white c = false ∧ c ≠ '"') :
    minify .outside (s ++ r) = s ++ minify .outside r := by
  induction s with
  | nil => rfl
  | cons c s ih =>
    obtain ⟨h1, h2⟩ := h c List.mem_cons_self
    rw [List.cons_append, minify, if_neg (by rw [h1]; exact Bool.false_ne_true), if_neg h2,
      ih (fun d hd => h d (List.mem_cons_of_mem _ hd))]
    rfl

theorem minify_one (c : Char) (r : Str) (h1 : white c = false) (h2 : c ≠ '"') :
    minify .outside (c :: r) = c :: minify .outside r := by
  rw [minify, if_neg (by rw [h1]; exact Bool.false_ne_true), if_neg h2]

theorem minify_newline (indent level : Nat) (r : Str) :
    minify .outside (newline indent level ++ r) = minify .outside r := by
  have : ∀ n : Nat, minify .outside (List.replicate n ' ' ++ r) = minify .outside r := by
    intro n
    induction n with
    | zero => rfl
    | succ n ih =>
      rw [List.replicate_succ, List.cons_append, minify, if_pos (by decide), ih]
  show minify .outside ('\n' :: (List.replicate _ ' ' ++ r)) = _
  rw [minify, if_pos (by decide), this]

theorem minify_plain (c : Char) (r : Str) (h1 : c ≠ '"') (h2 : c ≠ '\\') :
    minify .inside (c :: r) = c :: minify .inside r := by
  rw [minify, if_neg h1, if_neg h2]

theorem minify_backslash (c : Char) (r : Str) :
    minify .inside ('\\' :: c :: r) = '\\' :: c :: minify .inside r := by
  rw [minify, if_neg (by decide), if_pos rfl, minify]

theorem hex_plain {c : Char} {n : Nat} (h : Json.Spec.hexValue c = some n) : c ≠ '"' ∧ c ≠ '\\' := by
  constructor
  · rintro rfl; rw [show Json.Spec.hexValue '"' = none from by decide] at h; cases h
  · rintro rfl; rw [show Json.Spec.hexValue '\\' = none from by decide] at h; cases h

theorem minify_escape (c : Char) (r : Str) : minify .inside (escape c ++ r) = escape c ++ minify .inside r := by
  rcases escape_forms c with ⟨h1, h2, _, e⟩ | ⟨x, _, e, _⟩ | ⟨a, b, e, h⟩
  · rw [e]; exact minify_plain c r h1 h2
  · rw [e]; exact minify_backslash x r
  · rw [e]
    have hab : (a ≠ '"' ∧ a ≠ '\\') ∧ (b ≠ '"' ∧ b ≠ '\\') := by
      unfold Json.Spec.fourHex at h
      rw [show Json.Spec.hexValue '0' = some 0 from by decide] at h
      cases ha : Json.Spec.hexValue a with
      | none => rw [ha] at h; cases h
      | some x =>
        cases hb : Json.Spec.hexValue b with
        | none => rw [ha, hb] at h; cases h
        | some y => exact ⟨hex_plain ha, hex_plain hb⟩
    show minify .inside ('\\' :: 'u' :: '0' :: '0' :: a :: b :: r) = _
    rw [minify_backslash, minify_plain _ _ (by decide) (by decide), minify_plain _ _ (by decide) (by decide),
      minify_plain _ _ hab.1.1 hab.1.2, minify_plain _ _ hab.2.1 hab.2.2]
    rfl

theorem minify_quoted (s r : Str) : minify .outside (quoted s ++ r) = quoted s ++ minify .outside r := by
  have key : ∀ s : Str, minify .inside (s.flatMap escape ++ '"' :: r) =
      s.flatMap escape ++ '"' :: minify .outside r := by
    intro s
    induction s with
    | nil => show minify .inside ('"' :: r) = _; rw [minify, if_pos rfl]; rfl
    | cons c s ih =>
      rw [List.flatMap_cons, List.append_assoc, minify_escape, ih, List.append_assoc]
  rw [quoted_append, quoted_append, minify, if_neg (by decide), if_pos rfl, key]

theorem minify_int (n : Int) (r : Str) : minify .outside (intText n ++ r) = intText n ++ minify .outside r := by
  apply minify_inert
  obtain ⟨⟨-, hd⟩, -⟩ := Path.natToDec_spec n.natAbs
  have h : ∀ c ∈ Path.natToDec n.natAbs, white c = false ∧ c ≠ '"' := by
    intro c hc
    have := hd c hc
    unfold Path.Spec.Digit at this
    have key : ∀ c ∈ "0123456789".toList, white c = false ∧ c ≠ '"' := by decide
    exact key c this
  unfold intText
  split
  · intro c hc
    rcases List.mem_cons.mp hc with rfl | hc
    · decide
    · exact h c hc
  · exact h

theorem minify_word (w : Str) (hw : ∀ c ∈ w, white c = false ∧ c ≠ '"') (r : Str) :
    minify .outside (w ++ r) = w ++ minify .outside r := minify_inert w r hw

mutual

theorem minify_pretty (i : Nat) : (v : Json) → (l : Nat) → (r : Str) →
    minify .outside (pretty i l v ++ r) = encode v ++ minify .outside r
  | .null, _, r => minify_word "null".toList (by decide) r
  | .bool true, _, r => minify_word "true".toList (by decide) r
  | .bool false, _, r => minify_word "false".toList (by decide) r
  | .int n, _, r => minify_int n r
  | .str s, _, r => minify_quoted s r
  | .arr .nil, _, r => minify_word "[]".toList (by decide) r
  | .arr (.cons v es), l, r => by
    rw [pretty, encode]
    simp only [List.cons_append, List.append_assoc, List.nil_append]
    rw [minify_one _ _ (by decide) (by decide), minify_newline, minify_prettyElems i (.cons v es) (l + 1) _,
      minify_newline, minify_one _ _ (by decide) (by decide)]
  | .obj .nil, _, r => minify_word "{}".toList (by decide) r
  | .obj (.cons k v ms), l, r => by
    rw [pretty, encode]
    simp only [List.cons_append, List.append_assoc, List.nil_append]
    rw [minify_one _ _ (by decide) (by decide), minify_newline, minify_prettyMembers i (.cons k v ms) (l + 1) _,
      minify_newline, minify_one _ _ (by decide) (by decide)]

theorem minify_prettyElems (i : Nat) : (es : Elems) → (l : Nat) → (r : Str) →
    minify .outside (prettyElems i l es ++ r) = encodeElems es ++ minify .outside r
  | .nil, _, _ => rfl
  | .cons v .nil, l, r => minify_pretty i v l r
  | .cons v (.cons w es), l, r => by
    rw [prettyElems, encodeElems]
    · simp only [List.cons_append, List.append_assoc]
      rw [minify_pretty i v l _, minify_one _ _ (by decide) (by decide), minify_newline,
        minify_prettyElems i (.cons w es) l _]
    · exact fun h => by cases h
    · exact fun h => by cases h

theorem minify_prettyMembers (i : Nat) : (ms : Members) → (l : Nat) → (r : Str) →
    minify .outside (prettyMembers i l ms ++ r) = encodeMembers ms ++ minify .outside r
  | .nil, _, _ => rfl
  | .cons k v .nil, l, r => by
    rw [prettyMembers, encodeMembers]
    simp only [List.cons_append, List.append_assoc]
    rw [minify_quoted, minify_one _ _ (by decide) (by decide), minify_pretty i v l _]
  | .cons k v (.cons k' w ms), l, r => by
    rw [prettyMembers, encodeMembers]
    · simp only [List.cons_append, List.append_assoc]
      rw [minify_quoted, minify_one _ _ (by decide) (by decide), minify_pretty i v l _,
        minify_one _ _ (by decide) (by decide), minify_newline, minify_prettyMembers i (.cons k' w ms) l _]
    · exact fun h => by cases h
    · exact fun h => by cases h

end

mutual

theorem minify_encode : (v : Json) → (r : Str) → minify .outside (encode v ++ r) = encode v ++ minify .outside r
  | .null, r => minify_word "null".toList (by decide) r
  | .bool true, r => minify_word "true".toList (by decide) r
  | .bool false, r => minify_word "false".toList (by decide) r
  | .int n, r => minify_int n r
  | .str s, r => minify_quoted s r
  | .arr es, r => by
    rw [encode]
    simp only [List.cons_append, List.append_assoc, List.nil_append]
    rw [minify_one _ _ (by decide) (by decide), minify_encodeElems es _, minify_one _ _ (by decide) (by decide)]
  | .obj ms, r => by
    rw [encode]
    simp only [List.cons_append, List.append_assoc, List.nil_append]
    rw [minify_one _ _ (by decide) (by decide), minify_encodeMembers ms _, minify_one _ _ (by decide) (by decide)]

theorem minify_encodeElems : (es : Elems) → (r : Str) →
    minify .outside (encodeElems es ++ r) = encodeElems es ++ minify .outside r
  | .nil, _ => rfl
  | .cons v .nil, r => minify_encode v r
  | .cons v (.cons w es), r => by
    rw [encodeElems]
    · simp only [List.cons_append, List.append_assoc]
      rw [minify_encode v _, minify_one _ _ (by decide) (by decide), minify_encodeElems (.cons w es) _]
    · exact fun h => by cases h

theorem minify_encodeMembers : (ms : Members) → (r : Str) →
    minify .outside (encodeMembers ms ++ r) = encodeMembers ms ++ minify .outside r
  | .nil, _ => rfl
  | .cons k v .nil, r => by
    rw [encodeMembers]
    simp only [List.cons_append, List.append_assoc]
    rw [minify_quoted, minify_one _ _ (by decide) (by decide), minify_encode v _]
  | .cons k v (.cons k' w ms), r => by
    rw [encodeMembers]
    · simp only [List.cons_append, List.append_assoc]
      rw [minify_quoted, minify_one _ _ (by decide) (by decide), minify_encode v _,
        minify_one _ _ (by decide) (by decide), minify_encodeMembers (.cons k' w ms) _]
    · exact fun h => by cases h

end

theorem loads_dumps (indent : Option Nat) (j : Json) : loads (dumps indent false j) = some (loaded j) := by
  have h : minify .outside (dumps indent false j) = encode j := by
    cases indent with
    | none =>
      have := minify_encode j []
      rw [List.append_nil] at this
      show minify .outside (encode j) = _
      rw [this]
      exact List.append_nil _
    | some n =>
      have := minify_pretty n j 0 []
      rw [List.append_nil] at this
      show minify .outside (pretty n 0 j) = _
      rw [this]
      exact List.append_nil _
  unfold loads
  rw [h]
  have := C50_roundtrip j
  unfold jsonEncode at this
  rw [if_neg Bool.false_ne_true] at this
  rw [this]
  rfl

/-! ### The graph -/

theorem nodeVal_friendly (n : Node) (h : FriendlyItems n.metadata) : ∃ w, nodeVal n = some w ∧ Plain w := by
  obtain ⟨m, h1, h2⟩ := safeItems_friendly n.metadata h
  refine ⟨_, by unfold nodeVal; rw [h1]; rfl, ?_⟩
  exact ⟨⟨_, rfl⟩, trivial, ⟨_, rfl⟩, trivial, ⟨_, rfl⟩, h2, trivial⟩

theorem nodeVals_friendly (l : List Node) (h : ∀ n ∈ l, FriendlyItems n.metadata) :
    ∃ w, nodeVals l = some w ∧ PlainVals w := by
  induction l with
  | nil => exact ⟨.nil, rfl, trivial⟩
  | cons n l ih =>
    obtain ⟨v, h1, h2⟩ := nodeVal_friendly n (h n List.mem_cons_self)
    obtain ⟨w, h3, h4⟩ := ih (fun m hm => h m (List.mem_cons_of_mem _ hm))
    exact ⟨.cons v w, by rw [nodeVals, h1, h3]; rfl, h2, h4⟩

theorem edgeVals_plain (l : List Edge) : PlainVals (edgeVals l) := by
  induction l with
  | nil => exact trivial
  | cons e l ih =>
    exact ⟨⟨⟨_, rfl⟩, trivial, ⟨_, rfl⟩, trivial, ⟨_, rfl⟩, trivial, trivial⟩, ih⟩

theorem toDict_friendly (g : Graph) (h : FriendlyGraph g) : ∃ d, g.toDict = some d ∧ Plain d := by
  obtain ⟨w, h1, h2⟩ := nodeVals_friendly g.nodes h
  refine ⟨_, by unfold Graph.toDict; rw [h1]; rfl, ?_⟩
  exact ⟨⟨_, rfl⟩, h2, ⟨_, rfl⟩, edgeVals_plain g.edges, trivial⟩

/-! ### Sorted keys -/

theorem listOf_eq (ms : Members) : listOf ms = Json.Spec.Members.toList ms := by
  cases ms with
  | nil => rfl
  | cons k v ms => rw [listOf, Json.Spec.Members.toList, listOf_eq ms]

theorem listOf_sortMembers (ms : Members) :
    listOf (sortMembers ms) = (listOf ms).map (fun p => (p.1, sortKeys p.2)) := by
  cases ms with
  | nil => rfl
  | cons k v ms => rw [sortMembers, listOf, listOf, List.map_cons, listOf_sortMembers ms]

theorem sort_perm_members {l m : List (Str × Json)} (h : l.Perm m) (hd : (l.map (·.1)).Nodup) :
    sortBy (fun a b : Str × Json => leStr a.1 b.1) l = sortBy (fun a b : Str × Json => leStr a.1 b.1) m := by
  refine sortBy_congr (fun a b c h1 h2 => leStr_trans a.1 b.1 c.1 h1 h2) h (fun a _ b _ => leStr_total a.1 b.1) ?_
  intro a ha b hb h1 h2
  have hk : a.1 = b.1 := leStr_antisymm _ _ h1 h2
  clear h h1 h2
  induction l with
  | nil => cases ha
  | cons x l ih =>
    rw [List.map_cons, List.nodup_cons] at hd
    rcases List.mem_cons.mp ha with rfl | ha'
    · rcases List.mem_cons.mp hb with rfl | hb'
      · rfl
      · exact absurd (List.mem_map.mpr ⟨b, hb', hk.symm⟩) hd.1
    · rcases List.mem_cons.mp hb with rfl | hb'
      · exact absurd (List.mem_map.mpr ⟨a, ha', hk⟩ : b.1 ∈ l.map (·.1)) hd.1
      · exact ih hd.2 ha' hb'

mutual

theorem sortKeys_alike : {v w : Json} → Alike v w → sortKeys v = sortKeys w
  | _, _, .refl v => rfl
  | _, _, .arr h => congrArg Json.arr (sortElems_alike h)
  | _, _, .obj (a := a) (b := b) (c := c) h hp hd => by
    have h1 : sortMembers a = sortMembers b := sortMembers_alike h
    rw [sortKeys, sortKeys, h1, listOf_sortMembers, listOf_sortMembers]
    have hk : (listOf b).map (·.1) = (listOf a).map (·.1) := by
      have e := congrArg (fun x => (listOf x).map (·.1)) h1
      simp only [listOf_sortMembers, List.map_map] at e
      exact e.symm
    rw [listOf_eq b, listOf_eq c]
    refine congrArg (fun x => Json.obj (membersOf x)) (sort_perm_members (hp.map _) ?_)
    rw [List.map_map]
    show ((Json.Spec.Members.toList b).map (·.1)).Nodup
    rw [← listOf_eq b, hk, listOf_eq a]
    exact hd

theorem sortElems_alike : {a b : Elems} → AlikeElems a b → sortElems a = sortElems b
  | _, _, .nil => rfl
  | _, _, .cons h hr => by rw [sortElems, sortElems, sortKeys_alike h, sortElems_alike hr]

theorem sortMembers_alike : {a b : Members} → AlikeMembers a b → sortMembers a = sortMembers b
  | _, _, .nil => rfl
  | _, _, .cons k h hr => by rw [sortMembers, sortMembers, sortKeys_alike h, sortMembers_alike hr]

end

theorem listOf_membersOf (l : List (Str × Json)) : listOf (membersOf l) = l := by
  induction l with
  | nil => rfl
  | cons p l ih =>
    obtain ⟨k, v⟩ := p
    rw [membersOf, listOf, ih]

mutual

theorem alike_sorted : (v : Json) → Distinct v → Alike v (sortKeys v)
  | .null, _ => .refl _
  | .bool _, _ => .refl _
  | .int _, _ => .refl _
  | .str _, _ => .refl _
  | .arr es, h => .arr (alike_sortedElems es h)
  | .obj ms, h => by
    rw [sortKeys]
    refine .obj (alike_sortedMembers ms h.2) ?_ h.1
    rw [← listOf_eq, ← listOf_eq, listOf_membersOf]
    exact (sortBy_perm _).symm

theorem alike_sortedElems : (es : Elems) → DistinctElems es → AlikeElems es (sortElems es)
  | .nil, _ => .nil
  | .cons v es, h => .cons (alike_sorted v h.1) (alike_sortedElems es h.2)

theorem alike_sortedMembers : (ms : Members) → DistinctMembers ms → AlikeMembers ms (sortMembers ms)
  | .nil, _ => .nil
  | .cons k v ms, h => .cons k (alike_sorted v h.1) (alike_sortedMembers ms h.2)

end

/-! ### The export of a graph -/

theorem mem_place (l : List Node) (n m : Node) (h : m ∈ place l n) : m = n ∨ m ∈ l := by
  induction l with
  | nil =>
    rcases List.mem_cons.mp h with h | h
    · exact Or.inl h
    · cases h
  | cons x l ih =>
    rw [place] at h
    split at h
    · rcases List.mem_cons.mp h with h | h
      · exact Or.inl h
      · exact Or.inr (List.mem_cons_of_mem _ h)
    · rcases List.mem_cons.mp h with h | h
      · exact Or.inr (h ▸ List.mem_cons_self)
      · rcases ih h with h | h
        · exact Or.inl h
        · exact Or.inr (List.mem_cons_of_mem _ h)

theorem mem_placed (ns : List Node) : ∀ (l : List Node) (m : Node), m ∈ ns.foldl place l → m ∈ l ∨ m ∈ ns := by
  induction ns with
  | nil => intro l m h; exact Or.inl h
  | cons n ns ih =>
    intro l m h
    rcases ih (place l n) m h with h | h
    · rcases mem_place l n m h with h | h
      · exact Or.inr (h ▸ List.mem_cons_self)
      · exact Or.inl h
    · exact Or.inr (List.mem_cons_of_mem _ h)

theorem place_new (l : List Node) (n : Node) (h : ∀ m ∈ l, m.id ≠ n.id) : place l n = l ++ [n] := by
  induction l with
  | nil => rfl
  | cons x l ih =>
    rw [place, if_neg (h x List.mem_cons_self), ih (fun m hm => h m (List.mem_cons_of_mem _ hm))]
    rfl

theorem placed_new (ns : List Node) : ∀ l : List Node, ((l ++ ns).map (·.id)).Nodup → ns.foldl place l = l ++ ns := by
  induction ns with
  | nil => intro l _; exact (List.append_nil l).symm
  | cons n ns ih =>
    intro l h
    have hn : ∀ m ∈ l, m.id ≠ n.id := by
      intro m hm he
      rw [List.map_append, List.nodup_append] at h
      exact h.2.2 m.id (List.mem_map.mpr ⟨m, hm, rfl⟩) n.id (by simp) he
    show ns.foldl place (place l n) = _
    rw [place_new l n hn, ih _ (by simpa using h)]
    simp

theorem make_nodes (ns : List Node) (es : List Edge) (h : (ns.map (·.id)).Nodup) : (Graph.make ns es).nodes = ns :=
  placed_new ns [] h

theorem nodeVal_id {n : Node} {v : Val} (h : nodeVal n = some v) :
    field "id".toList v = some (.scalar (.str n.id)) := by
  unfold nodeVal at h
  cases hm : safeItems n.metadata with
  | none => rw [hm] at h; cases h
  | some m =>
    rw [hm] at h
    injection h with h
    subst h
    show find "id".toList (.cons (.text "id".toList) _ _) = _
    rw [find, if_pos rfl]
    rfl

theorem nodeVals_ids (l : List Node) : ∀ vs, nodeVals l = some vs →
    (listed vs).map (field "id".toList) = l.map (fun n => some (.scalar (.str n.id))) := by
  induction l with
  | nil => intro vs h; cases h; rfl
  | cons n l ih =>
    intro vs h
    rw [nodeVals] at h
    cases hv : nodeVal n with
    | none => rw [hv] at h; cases h
    | some v =>
      cases hr : nodeVals l with
      | none => rw [hv, hr] at h; cases h
      | some r =>
        rw [hv, hr] at h
        injection h with h
        subst h
        rw [listed, List.map_cons, List.map_cons, nodeVal_id hv, ih r hr]

theorem edgeVals_ends (l : List Edge) :
    (listed (edgeVals l)).map (fun e => (field "source".toList e, field "target".toList e)) =
      l.map (fun e => (some (.scalar (.str e.source)), some (.scalar (.str e.target)))) := by
  induction l with
  | nil => rfl
  | cons e l ih =>
    rw [edgeVals, listed, List.map_cons, List.map_cons, ih]
    congr 1

theorem field_nodes (a b : Val) : field "nodes".toList
    (.map (.cons (.text "nodes".toList) a (.cons (.text "edges".toList) b .nil))) = some a := by
  show find _ _ = _
  rw [find, if_pos rfl]

theorem field_edges (a b : Val) : field "edges".toList
    (.map (.cons (.text "nodes".toList) a (.cons (.text "edges".toList) b .nil))) = some b := by
  have hne : ¬ (Key.text "nodes".toList = Key.text "edges".toList) := by decide
  show find _ _ = _
  rw [find, if_neg hne, find, if_pos rfl]

theorem toDict_ids {g : Graph} {d : Val} (h : g.toDict = some d) :
    nodeIds d = g.nodes.map (fun n => some (.scalar (.str n.id))) ∧
    edgeEnds d = g.edges.map (fun e => (some (.scalar (.str e.source)), some (.scalar (.str e.target)))) := by
  unfold Graph.toDict at h
  cases hv : nodeVals g.nodes with
  | none => rw [hv] at h; cases h
  | some vs =>
    rw [hv] at h
    injection h with h
    subst h
    unfold nodeIds edgeEnds
    rw [field_nodes, field_edges]
    exact ⟨nodeVals_ids g.nodes vs hv, edgeVals_ends g.edges⟩

theorem texts_friendly (l : List Str) : FriendlyVals (texts l) := by
  induction l with
  | nil => exact trivial
  | cons s l ih => exact ⟨trivial, ih⟩

theorem part_friendly (p : Part) : FriendlyItems p.metadata := by
  cases p with
  | app b => exact ⟨⟨_, rfl⟩, trivial, trivial⟩
  | middleware c => exact ⟨⟨_, rfl⟩, trivial, trivial⟩
  | router => exact trivial
  | route p m => exact ⟨⟨_, rfl⟩, trivial, ⟨_, rfl⟩, texts_friendly m, trivial⟩
  | permission c => exact ⟨⟨_, rfl⟩, trivial, trivial⟩
  | incl p n =>
    refine ⟨⟨_, rfl⟩, trivial, ⟨_, rfl⟩, ?_, trivial⟩
    cases n <;> exact trivial

theorem export_friendly (g : Graph) (h : FriendlyGraph g) (indent : Option Nat) :
    ∃ d text, g.toDict = some d ∧ g.toJson indent false = some text ∧ loads text = some d := by
  obtain ⟨d, h1, h2⟩ := toDict_friendly g h
  obtain ⟨j, h3, h4⟩ := json_plain d h2
  refine ⟨d, dumps indent false j, h1, ?_, ?_⟩
  · unfold Graph.toJson
    rw [h1]
    show (json d).map _ = _
    rw [h3]; rfl
  · rw [loads_dumps, h4]

end Verif.GraphJson
