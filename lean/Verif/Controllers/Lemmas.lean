import Verif.Controllers.Spec

namespace Verif.Controllers

theorem aget_append (a b : Attrs) (k : Str) :
    aget (a ++ b) k = match aget a k with | some v => some v | none => aget b k := by
  induction a with
  | nil => rfl
  | cons kv rest ih =>
    obtain ⟨k', v⟩ := kv
    by_cases h : k' = k
    · simp [aget, h]
    · simp only [List.cons_append, aget, h, if_false]; exact ih

theorem aget_find (a : Attrs) (k : Str) :
    aget a k = (a.find? (fun kv => kv.1 = k)).map Prod.snd := by
  induction a with
  | nil => rfl
  | cons kv rest ih =>
    obtain ⟨k', v⟩ := kv
    by_cases h : k' = k
    · simp [aget, h, List.find?]
    · simp [aget, h, List.find?, ih]

theorem aget_mem {a : Attrs} {k : Str} {v : Attr} (h : aget a k = some v) : (k, v) ∈ a := by
  induction a with
  | nil => cases h
  | cons kv rest ih =>
    obtain ⟨k', v'⟩ := kv
    by_cases e : k' = k
    · simp only [aget, e, if_true, Option.some.injEq] at h
      subst h; subst e; exact List.mem_cons_self ..
    · simp only [aget, e, if_false] at h
      exact List.mem_cons_of_mem _ (ih h)

theorem aget_none {a : Attrs} {k : Str} (h : ∀ kv ∈ a, kv.1 ≠ k) : aget a k = none := by
  cases e : aget a k with
  | none => rfl
  | some v => exact absurd rfl (h _ (aget_mem e))

theorem written_aget (own : Attrs) (m : Str) :
    Spec.written own m = match aget own (lower m) with | some (.call i) => some i | _ => none := by
  rw [aget_find, Spec.written]
  cases own.find? (fun kv => kv.1 = lower m) with
  | none => rfl
  | some kv => obtain ⟨k, v⟩ := kv; cases v <;> rfl

theorem inherited_free : ∀ m ∈ Spec.httpMethods, aget inherited (lower m) = none := by decide +kernel

theorem methods_same : ∀ m, m ∈ methodList ↔ m ∈ Spec.httpMethods := by
  intro m; simp only [methodList, Spec.httpMethods, List.mem_cons, List.not_mem_nil, or_false]
  constructor <;> (rintro (h|h|h|h|h|h|h|h|h) <;> simp only [h, true_or, or_true])

theorem head_mem : "HEAD".toList ∈ Spec.httpMethods := by decide
theorem get_mem : "GET".toList ∈ Spec.httpMethods := by decide
theorem lower_head : lower "HEAD".toList = "head".toList := by decide
theorem lower_get : lower "GET".toList = "get".toList := by decide

/-- For a method of HTTP the attribute is what the author wrote. -/
theorem class_aget (own : Attrs) {m : Str} (hm : m ∈ Spec.httpMethods) :
    aget (classOf own) (lower m) = aget own (lower m) := by
  rw [classOf, aget_append, inherited_free m hm]
  cases aget own (lower m) <;> rfl

theorem plain_aget {own : Attrs} (hp : Spec.Plain own) {m : Str} (hm : m ∈ Spec.httpMethods) :
    aget own (lower m) = (Spec.written own m).map Attr.call := by
  rw [written_aget]
  cases e : aget own (lower m) with
  | none => rfl
  | some v =>
    obtain ⟨i, hi⟩ := hp _ (aget_mem e) ⟨m, hm, rfl⟩
    simp only at hi
    subst hi; rfl

theorem present_iff {own : Attrs} (hp : Spec.Plain own) {m : Str} (hm : m ∈ Spec.httpMethods) :
    present (classOf own) m = (Spec.written own m).isSome := by
  rw [present, class_aget own hm, plain_aget hp hm]
  cases Spec.written own m <;> rfl

theorem mem_allowed {own : Attrs} (hp : Spec.Plain own) (v : Str) :
    v ∈ allowed (classOf own) ↔ v ∈ Spec.httpMethods ∧ (Spec.written own v).isSome := by
  rw [allowed, List.mem_filter, methods_same]
  constructor
  · rintro ⟨a, b⟩; exact ⟨a, by rw [← present_iff hp a]; exact b⟩
  · rintro ⟨a, b⟩; exact ⟨a, by rw [present_iff hp a]; exact b⟩

/-- The name looked up for a method of HTTP. -/
theorem lookup_aget {own : Attrs} (hp : Spec.Plain own) {m : Str} (hm : m ∈ Spec.httpMethods) :
    aget (classOf own) (lookupName (classOf own) m) = (Spec.answering own m).map Attr.call := by
  have hh : aget (classOf own) "head".toList = (Spec.written own "HEAD".toList).map Attr.call := by
    rw [← lower_head, class_aget own head_mem, plain_aget hp head_mem]
  rw [Spec.answering, if_pos hm]
  by_cases e : m = "HEAD".toList
  · subst e
    cases w : Spec.written own "HEAD".toList with
    | none =>
      rw [lookupName, if_pos ⟨rfl, by rw [hh, w]; rfl⟩, ← lower_get, class_aget own get_mem,
        plain_aget hp get_mem]
      simp only [if_true]
    | some i =>
      rw [lookupName, if_neg (by rw [hh, w]; rintro ⟨_, h⟩; cases h), class_aget own hm,
        plain_aget hp hm, w]
  · rw [lookupName, if_neg (fun h => e h.1), class_aget own hm, plain_aget hp hm]
    cases Spec.written own m with
    | none => simp only [if_neg e]
    | some i => rfl

/-- The upper-case method `HEAD` aside, the method in small letters is the name. -/
theorem lookup_other (c : Attrs) {m : Str} (hm : m ∉ Spec.httpMethods) : lookupName c m = lower m := by
  rw [lookupName, if_neg]
  rintro ⟨h, _⟩
  exact hm (h ▸ head_mem)

end Verif.Controllers
