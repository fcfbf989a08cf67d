import Verif.Disposition.Lemmas

/-!
# C57: the disposition names the file
-/

namespace Verif.Disposition

open Verif Verif.Responses Spec

/-- C57: a client reads from the header of an attachment exactly the file name, for any bytes, when the
name has no slash or needs no quoting. -/
theorem C57_name_partial (kind : Option Str) (f : Str) (hk : kind = none ∨ kind = some "attachment".toList)
    (hb : Bytes f) (hs : '/' ∉ f ∨ Simple f) :
    ∃ v, header kind (some f) = some v ∧ Spec.read v = some ⟨"attachment".toList, some f⟩ := by
  refine ⟨attachment f, ?_, ?_⟩
  · rcases hk with e | e
    · rw [e]; rfl
    · rw [e]
      show (if "attachment".toList = "inline".toList then some "inline".toList
        else if "attachment".toList = "attachment".toList then some (attachment f) else none) = _
      rw [if_neg (by decide), if_pos rfl]
  · by_cases h : Simple f
    · rw [attachment_simple f hb h, read_one _ _ f (by decide) (by decide) (value_quoted f h)]
      have h1 := param_other (lower "filename".toList) "filename*".toList f (by decide)
      have h2 := param_same (lower "filename".toList) "filename".toList f (by decide)
      rw [h1, h2]
      rfl
    · have hs := hs.resolve_right h
      rw [attachment_other f hb h, read_one _ _ ("utf-8''".toList ++ quoted f) (by decide) (by decide)
        (value_token _ (by simp) (token_quoted f hb hs))]
      have h1 := param_same (lower "filename*".toList) "filename*".toList ("utf-8''".toList ++ quoted f)
        (by decide)
      rw [h1]
      show some (Reading.mk _ (match extValue ("utf-8''".toList ++ quoted f) with
        | some f => some f
        | none => _)) = _
      rw [extValue_eq, extBytes_quoted f hb hs]

example : Bytes "a \"b\".txt\r\n".toList ∧ '/' ∉ "a \"b\".txt\r\n".toList ∧
    header none (some "a \"b\".txt\r\n".toList) =
      some "attachment; filename*=utf-8''a%20%22b%22.txt%0D%0A".toList := by
  refine ⟨by unfold Bytes; decide, by decide, by decide +kernel⟩

example : Simple "a/b.txt".toList ∧
    header (some "attachment".toList) (some "a/b.txt".toList) =
      some "attachment; filename=\"a/b.txt\"".toList := by
  refine ⟨by unfold Simple; decide, by decide +kernel⟩

/-- C57: the header is printable ASCII whatever the name: no line break can be put into it. -/
theorem C57_printable (kind : Option Str) (name : Option Str) (v : Str)
    (hb : ∀ f, name = some f → Bytes f) (h : header kind name = some v) : Printable v := by
  unfold header at h
  cases kind with
  | none =>
    cases name with
    | none => cases h
    | some f =>
      have e : attachment f = v := Option.some.inj h
      rw [← e]; exact attachment_printable f (hb f rfl)
  | some k =>
    simp only at h
    by_cases h1 : k = "inline".toList
    · rw [if_pos h1] at h
      rw [← Option.some.inj h]; unfold Printable; decide
    · rw [if_neg h1] at h
      by_cases h2 : k = "attachment".toList
      · rw [if_pos h2] at h
        cases name with
        | none =>
          have e : "attachment".toList = v := Option.some.inj h
          rw [← e]; unfold Printable; decide
        | some f =>
          have e : attachment f = v := Option.some.inj h
          rw [← e]; exact attachment_printable f (hb f rfl)
      · rw [if_neg h2] at h; cases h

example : header (some "attachment".toList) (some "x\ny".toList) =
    some "attachment; filename*=utf-8''x%0Ay".toList := by decide +kernel

/-- C57: without a name an attachment is read as such, and there is no header when neither is given. -/
theorem C57_nameless :
    (header (some "attachment".toList) none).bind Spec.read = some ⟨"attachment".toList, none⟩ ∧
      header none none = none := by
  refine ⟨by decide +kernel, rfl⟩

/-- C57: an inline disposition is read as such, whatever the name. -/
theorem C57_inline (name : Option Str) :
    (header (some "inline".toList) name).bind Spec.read = some ⟨"inline".toList, none⟩ := by
  have : header (some "inline".toList) name = some "inline".toList := by
    unfold header
    simp only
    rw [if_pos trivial]
  rw [this]
  decide +kernel

/-- C57 fails for inline content: its name is lost. -/
theorem C57_inline_false : ¬ ∀ (f : Str), Bytes f → Simple f →
    (header (some "inline".toList) (some f)).bind Spec.read = some ⟨"inline".toList, some f⟩ := by
  intro h
  have := h "a.txt".toList (by unfold Bytes; decide) (by unfold Simple; decide)
  rw [C57_inline] at this
  revert this
  decide

/-- C57 fails for a name with a slash and a character that is quoted: the slash is left in the extended
value, where it is not allowed. -/
theorem C57_slash_false : ¬ ∀ (f : Str), Bytes f →
    (header none (some f)).bind Spec.read = some ⟨"attachment".toList, some f⟩ := by
  intro h
  have := h "a b/c".toList (by unfold Bytes; decide)
  have e : (header none (some "a b/c".toList)).bind Spec.read = none := by decide +kernel
  rw [e] at this
  cases this

/-- C57: the field is set once when the caller gives none, and the one of the caller is kept, in
whatever case its name is written. -/
theorem C57_caller (kind name : Option Str) (hs : Headers) (v : Str) (h : header kind name = some v) :
    fields (addDisposition kind name hs) "content-disposition".toList =
      if fields hs "content-disposition".toList = [] then [v] else fields hs "content-disposition".toList := by
  have hl : lower "content-disposition".toList = "content-disposition".toList := by decide
  unfold addDisposition
  rw [h]
  simp only
  unfold MultiDict.setdefault MultiDict.get
  rw [← fields_getall _ _ hl]
  generalize hf : fields hs "content-disposition".toList = l
  cases l with
  | nil =>
    rw [if_neg (by simp), if_pos rfl]
    unfold MultiDict.add
    rw [fields_append, hf, fields_single _ _ hl]
    rfl
  | cons a l =>
    rw [if_pos (by simp), if_neg (by simp), hf]

example : addDisposition none (some "f".toList) [("Content-Disposition".toList, "inline".toList)] =
    [("Content-Disposition".toList, "inline".toList)] := by decide +kernel

end Verif.Disposition
