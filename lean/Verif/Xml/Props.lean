import Verif.Xml.Lemmas

/-!
# C74: XML responses can be read back

The body of an `XMLResponse` is a well-formed XML document whose elements are the entries of the
value.
-/

namespace Verif.Xml

open Spec

/-- `{"user": {"name": "Ann", "tag": ["a", "b"]}, "note": ""}`. -/
def exVal : List (Str × Val) :=
  [("user".toList, .dict [("name".toList, .text "Ann".toList),
      ("tag".toList, .list [.text "a".toList, .text "b".toList])]),
   ("note".toList, .text [])]

/-- **C74 (partial), dictionaries.**  The body for a dictionary is read as one element `root` with one
element for every entry (for every item if the entry is a list), at every depth.

The full statement is for all values.  Missing: texts with `<`, `&`, control characters or a carriage
return (`C74_inject_false`, `C74_amp_false`, `C74_control_false`), keys that are not names
(`C74_name_false`), and lists at the top (`C74_list_false`). -/
theorem C74_dict_partial (es : List (Str × Val)) (hg : Good (.dict es)) :
    Spec.read (body (.dict es)) = some (.elem root (entryNodes es)) := by
  rw [Good] at hg
  have h : tokens (.data []) (body (.dict es)) =
      some (.opening root :: (entryTokens es ++ [.closing root])) := by
    have e : body (.dict es) = openTag root ++ (entriesXml es ++ (closeTag root ++ [])) := by
      simp [body]
    rw [e, tokens_openTag root_name, tokens_entries _ es hg, tokens_closeTag root_name,
      before_append, before_append]
    simp [tokens, dataToken, before]
  rw [read_of_tokens h, build_open, build_entries root [] es, build_end]
  simp

theorem exVal_good : Good (.dict exVal) := by
  simp only [exVal, Good, GoodEntries, GoodItems, and_true]
  refine ⟨by decide +kernel, ⟨by decide +kernel, ?_, by decide +kernel, ?_, ?_⟩, by decide +kernel, ?_⟩ <;>
    (unfold Clean; decide +kernel)

example : Good (.dict exVal) ∧ body (.dict exVal) =
    "<root><user><name>Ann</name><tag>a</tag><tag>b</tag></user><note></note></root>".toList :=
  ⟨exVal_good, by decide +kernel⟩

/-- **C74 (partial), single values.**  A value that is neither a dictionary nor a list nor a text is
the content of one element `root`. -/
theorem C74_text_partial (s : Str) (hg : Clean s) :
    Spec.read (body (.text s)) = some (.elem root (if s = [] then [] else [.text s])) := by
  have h : tokens (.data []) (body (.text s)) =
      some (.opening root :: (dataToken s.reverse ++ [.closing root])) := by
    have e : body (.text s) = openTag root ++ (s ++ (closeTag root ++ [])) := by simp [body]
    rw [e, tokens_openTag root_name, tokens_clean s hg, tokens_closeTag root_name, before_append]
    simp [tokens, dataToken, before]
  rw [read_of_tokens h, build_open, build_data, build_end]
  by_cases hs : s = [] <;> simp [hs]

example : Clean "3.14".toList ∧ body (.text "3.14".toList) = "<root>3.14</root>".toList :=
  ⟨by unfold Clean; decide +kernel, by decide +kernel⟩

/-- **C74 (partial), lists of one dictionary.**  A list at the top is read if it has exactly one item
and this is a dictionary. -/
theorem C74_list_partial (es : List (Str × Val)) (hg : Good (.dict es)) :
    Spec.read (body (.list [.dict es])) = some (.elem root (entryNodes es)) := by
  have e : body (.list [.dict es]) = body (.dict es) := by simp [body, itemsXml, toXml]
  rw [e]; exact C74_dict_partial es hg

example : Good (.dict exVal) := exVal_good

/-- **C74 is false of texts with markup.**  The text `1</a><admin>yes</admin><a>` in one entry gives
the body of a value with three entries. -/
theorem C74_inject_false :
    ∃ (es es' : List (Str × Val)), es.length = 1 ∧ es'.length = 3 ∧ Good (.dict es') ∧
      body (.dict es) = body (.dict es') ∧ (entryNodes es).length ≠ (entryNodes es').length := by
  refine ⟨[("a".toList, .text "1</a><admin>yes</admin><a>".toList)],
    [("a".toList, .text "1".toList), ("admin".toList, .text "yes".toList), ("a".toList, .text [])],
    rfl, rfl, ?_, by decide +kernel, by decide +kernel⟩
  simp only [Good, GoodEntries, and_true]
  refine ⟨by decide +kernel, ?_, by decide +kernel, ?_, by decide +kernel, ?_⟩ <;>
    (unfold Clean; decide +kernel)

/-- **C74 is false of ampersands.**  A text with `&` gives a body that is no XML. -/
theorem C74_amp_false :
    ∃ es : List (Str × Val), (∀ kv ∈ es, isName kv.1 = true) ∧
      (Spec.read (body (.dict es))).isNone = true :=
  ⟨[("name".toList, .text "Smith & Sons".toList)], by simp only [List.mem_singleton]; rintro _ rfl; decide +kernel,
    by decide +kernel⟩

/-- **C74 is false of control characters**, which XML cannot hold at all, and of carriage returns,
which are read as line feeds. -/
theorem C74_control_false :
    ∃ s s' : Str, (Spec.read (body (.text s))).isNone = true ∧
      s' ≠ "a\nb".toList ∧ tokens (.data []) (body (.text s')) =
        tokens (.data []) (body (.text "a\nb".toList)) :=
  ⟨[Char.ofNat 1], "a\rb".toList, by decide +kernel, by decide, by decide +kernel⟩

/-- **C74 is false of keys that are no names.** -/
theorem C74_name_false :
    ∃ (es : List (Str × Val)), (Spec.read (body (.dict es))).isNone = true ∧
      ∃ es' : List (Str × Val), (Spec.read (body (.dict es'))).isNone = true :=
  ⟨[("first name".toList, .text "Ann".toList)], by decide +kernel,
   [("1".toList, .text "one".toList)], by decide +kernel⟩

/-- **C74 is false of lists at the top.**  Two items give two outermost elements, none gives an empty
body; neither is an XML document. -/
theorem C74_list_false :
    (Spec.read (body (.list [.text "a".toList, .text "b".toList]))).isNone = true ∧
      (Spec.read (body (.list []))).isNone = true :=
  ⟨by decide +kernel, by decide +kernel⟩

end Verif.Xml
