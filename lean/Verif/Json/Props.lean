import Verif.Json.Lemmas

/-!
# C50: JSON bodies say what the value was

Full statement: the text written for a value reads back, as JSON, as exactly that value; it is one line without
control characters; with `exclude_none` exactly the `None` entries of lists and dictionaries are left out, at every
depth.
-/

namespace Verif.Json

open Verif Spec

/-- Reading what was written gives the value. -/
theorem C50_roundtrip (v : Json) : readJson (jsonEncode false v) = some v := by
  show readJson (encode v) = _
  unfold readJson
  have h := read_encode v (encode v).length [] (need_le v) (by intro c hc; cases hc)
  rw [List.append_nil] at h
  rw [h]
  rfl

/-- Different values have different texts. -/
theorem C50_injective (v w : Json) (h : jsonEncode false v = jsonEncode false w) : v = w := by
  have h1 := C50_roundtrip v
  rw [h, C50_roundtrip w] at h1
  exact (Option.some.inj h1).symm

/-- The text contains no control character; in particular it is one line. -/
theorem C50_one_line (exclude : Bool) (v : Json) : ∀ c ∈ jsonEncode exclude v, 32 ≤ c.toNat := by
  unfold jsonEncode
  exact printable_encode _

example : jsonEncode false (.obj (.cons "a\n\"".toList (.arr (.cons (.int (-12)) (.cons (.str "\x01é".toList) .nil)))
    (.cons "b".toList .null .nil))) = "{\"a\\n\\\"\":[-12,\"\\u0001é\"],\"b\":null}".toList := by decide +kernel

/-- With `exclude_none` the reader gets the value without its `None` entries. -/
theorem C50_exclude (v : Json) : readJson (jsonEncode true v) = some (excludeNone v) := C50_roundtrip (excludeNone v)

/-- None is left, unless the whole value is `None`. -/
theorem C50_exclude_none_left (v : Json) (hv : v ≠ .null) : noNull (excludeNone v) = true := by
  refine noNull_exclude v ?_
  cases v <;> first | exact absurd rfl hv | rfl

/-- Nothing else is left out: a list keeps its other elements in order, a dictionary its other items. -/
theorem C50_exclude_exactly (es : Elems) (ms : Members) :
    (∃ es', excludeNone (.arr es) = .arr es' ∧
      Elems.toList es' = ((Elems.toList es).filter fun v => !isNull v).map excludeNone) ∧
    ∃ ms', excludeNone (.obj ms) = .obj ms' ∧
      Members.toList ms' =
        ((Members.toList ms).filter fun p => !isNull p.2).map fun p => (p.1, excludeNone p.2) :=
  ⟨⟨_, by rw [excludeNone], excludeElems_list es⟩, ⟨_, by rw [excludeNone], excludeMembers_list ms⟩⟩

/-- A value without `None` inside is not changed, and excluding twice is excluding once (as happens when encoders
are given, _encoders.py 342-350). -/
theorem C50_exclude_stable (v : Json) :
    (noNull v = true → excludeNone v = v) ∧ excludeNone (excludeNone v) = excludeNone v := by
  refine ⟨exclude_id v, ?_⟩
  by_cases hv : v = .null
  · subst hv; rw [excludeNone, excludeNone]
  · exact exclude_id _ (C50_exclude_none_left v hv)

example : jsonEncode true (.obj (.cons "a".toList (.arr (.cons .null (.cons (.obj (.cons "x".toList .null .nil)) .nil)))
    (.cons "b".toList .null .nil))) = "{\"a\":[{}]}".toList := by decide +kernel

end Verif.Json
