import Verif.Shortcuts.Spec
import Verif.Responses.Lemmas
import Verif.Disposition.Props

/-!
# Lemmas about the shortcuts
-/

namespace Verif.Shortcuts

open Verif Responses Responses.Spec Spec

theorem silent_noLength (caller : Headers) (h : Silent caller) : NoLength caller := fun kv hkv => (h kv hkv).1

theorem ordinary_body (st : Nat) (h : Ordinary st) : hasBody st = true ∧ entityStatus st = false := by
  obtain ⟨h1, h2, h3, h4⟩ := h
  unfold hasBody entityStatus
  constructor
  · simp [h2, h3]; omega
  · simp [h3, h4]

theorem ordinary_nonzero (st : Nat) (h : Ordinary st) : st ≠ 0 := by
  obtain ⟨h1, _⟩ := h
  omega

theorem new_call (c : Conf) (b : Str) (caller : Headers) :
    (new c (.ready b) caller).call = [.start c.status (makeHeaders c (some b) caller), .body b] := rfl

theorem makeHeaders_kept (c : Conf) (b : Str) (caller : Headers) (h : entityStatus c.status = false) :
    Kept caller (makeHeaders c (some b) caller) := by
  obtain ⟨t, e, a⟩ := makeHeaders_added c (some b) caller
  rw [h] at e
  refine ⟨t, e, fun kv hkv => ?_⟩
  have := a kv hkv
  unfold added at this
  rcases List.mem_cons.mp this with h | h
  · exact .inl h
  · exact .inr (List.mem_singleton.mp h)

theorem makeHeaders_framed (c : Conf) (b : Str) (caller : Headers) (h : NoLength caller)
    (hb : hasBody c.status = true) : Framed (makeHeaders c (some b) caller) b :=
  ⟨_, fields_makeHeaders c b caller h hb, number_natToDec _⟩

theorem makeHeaders_type (c : Conf) (b t : Str) (caller : Headers) (h : Silent caller)
    (hb : hasBody c.status = true) (ht : contentType c.charset c.media = some t) :
    fields (makeHeaders c (some b) caller) "content-type".toList = [t] :=
  fields_type c (.ready b) caller t (fun kv hkv => (h kv hkv).2) hb ht

/-- Without a media type no type is stated. -/
theorem makeHeaders_typeless (st : Nat) (b : Str) (caller : Headers) (h : Silent caller) :
    fields (makeHeaders (bareConf st) (some b) caller) "content-type".toList = [] := by
  have h0 : ∀ l : Headers, (∀ kv ∈ l, kv ∈ caller) → fields l "content-type".toList = [] := fun l hl =>
    fields_nil_of _ _ fun kv hkv => (h kv (hl kv hkv)).2
  have hne : "content-length".toList ≠ "content-type".toList := by decide
  have hct : contentType (bareConf st).charset (bareConf st).media = none := rfl
  unfold makeHeaders
  simp only [hct]
  have hat : ∀ l, addType none l = l := fun _ => rfl
  by_cases hb : hasBody (bareConf st).status = true
  · rw [if_pos hb, hat, fields_addLength_other _ _ _ hne]
    split
    · exact h0 _ fun kv => removeEntity_sub caller kv
    · exact h0 _ fun _ h => h
  · rw [if_neg hb]
    split
    · exact h0 _ fun kv => removeEntity_sub caller kv
    · exact h0 _ fun _ h => h

theorem httpException_text {J : Type} (e : Env J) (st : Nat) (s : Str) (hs : Headers) (r : Option Resp) (h : s ≠ [])
    (h0 : st ≠ 0) : httpException e st s hs r = some ⟨st, s, hs, r⟩ := by
  unfold httpException
  have : s.isEmpty = false := by cases s <;> simp_all
  simp only [this, if_neg h0]
  rfl

theorem httpException_phrase {J : Type} (e : Env J) (st : Nat) (hs : Headers) (r : Option Resp) (h0 : st ≠ 0) :
    httpException e st [] hs r = (e.phrase st).map fun p => ⟨st, p, hs, r⟩ := by
  unfold httpException
  simp only [if_neg h0]
  rfl

theorem text_type {st : Nat} :
    contentType (textConf st).charset (textConf st).media = some "text/plain; charset=utf-8".toList := by
  have : contentType utf8 (some "text/plain".toList) = some "text/plain; charset=utf-8".toList := by decide
  exact this

theorem json_type {st : Nat} :
    contentType (jsonConf st).charset (jsonConf st).media = some "application/json".toList := by
  have : contentType utf8 (some "application/json".toList) = some "application/json".toList := by decide
  exact this

theorem fields_one (k d n : Str) (h : lower k = n) : fields [(k, d)] n = [d] := by
  unfold fields
  rw [List.filter_cons_of_pos (by simpa using h)]
  rfl

theorem ageHeaders_fields (d : Str) : fields [("Cache-Control".toList, d)] "cache-control".toList = [d] :=
  fields_one _ d _ (by decide)

theorem ageHeaders_other (age : Option Nat) (n : Str) (hn : lower "Cache-Control".toList ≠ n) :
    fields (ageHeaders age) n = [] := by
  cases age with
  | none => rfl
  | some a =>
    refine fields_nil_of _ _ fun kv hkv => ?_
    rw [ageHeaders, List.mem_singleton] at hkv
    rw [hkv]
    exact hn

theorem sendFile_disposition (src : Source) (att : Bool) (name : Str) (age : Option Nat) (v : Str)
    (h : Disposition.header (some (if att then "attachment".toList else "inline".toList)) (some (sendName src name))
      = some v) : fields (sendFile src att name age) "content-disposition".toList = [v] := by
  unfold sendFile
  rw [Disposition.C57_caller _ _ _ v h, if_pos (ageHeaders_other age _ (by decide))]

theorem sendFile_other (src : Source) (att : Bool) (name : Str) (age : Option Nat) (n : Str)
    (hn : lower "content-disposition".toList ≠ n) : fields (sendFile src att name age) n = fields (ageHeaders age) n
        := by
  unfold sendFile Disposition.addDisposition
  split
  · unfold MultiDict.setdefault
    split
    · rfl
    · unfold MultiDict.add
      rw [fields_append, fields_nil_of [_] n, List.append_nil]
      intro kv hkv
      rw [List.mem_singleton.mp hkv]
      exact hn
  · rfl

end Verif.Shortcuts
