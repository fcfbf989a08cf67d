import Verif.Multipart.Lemmas

/-!
# C30 and C31: multipart forms
-/

namespace Verif.Multipart

open Verif Verif.Url Spec

/-- A field whose text looks like a delimiter, and a file. -/
def sample : List Submitted :=
  [⟨"a".toList, none, [], "x\r\n--B".toList⟩,
   ⟨"f".toList, some "n.txt".toList, [("content-type".toList, "text/plain".toList)], "12345".toList⟩]

theorem sample_good : ∀ s ∈ sample, GoodPart "BB".toList s := by
  intro s hs
  rw [sample, List.mem_cons, List.mem_singleton] at hs
  rcases hs with rfl | rfl
  · exact ⟨⟨by decide, by decide⟩, (fun f hf => by cases hf), (fun kv hkv => by cases hkv), by decide,
      by rw [← List.isInfixOf_internal_iff_isInfix]; decide⟩
  · refine ⟨⟨by decide, by decide⟩, (fun f hf => ?_), (fun kv hkv => ?_), by decide,
      by rw [← List.isInfixOf_internal_iff_isInfix]; decide⟩
    · injection hf with hf
      rw [← hf]
      exact ⟨by decide, by decide⟩
    · rw [List.mem_singleton] at hkv
      rw [hkv]
      exact ⟨⟨by decide, by decide, by decide, by decide, by decide, by decide⟩, by decide, by decide⟩

/-! ## C30

Full statement: for all parts and every list of chunks whose concatenation is the body of the parts,
`parse` returns the parts.  It is shown for all chunks of which none ends inside a delimiter (the headers
and the data may be cut anywhere, and empty chunks may be anywhere); when a chunk ends inside a delimiter
it is false. -/

/-- **C30** Parts are read back, whatever the chunks, as long as no chunk ends inside a delimiter. -/
theorem C30_decoded_partial (boundary : Str) (hb : '\r' ∉ boundary) (rfc : Str → Str) (mf mx : Option Nat)
    (parts : List Submitted) (hne : parts ≠ []) (hg : ∀ s ∈ parts, GoodPart boundary s) (chunks : List Str)
    (hc : Chunking (bodySegs boundary parts) [] chunks) (hmf : AtMost (fileCount parts) mf)
    (hmx : AtMost (fieldCount parts) mx) :
    chunks.flatten = bodyText boundary parts ∧ parse boundary rfc mf mx chunks = some (parts.map expected) :=
  ⟨chunking_flatten (bodySegs boundary parts) [] _ hc, (parse_body boundary hb rfc mf mx parts hne hg chunks hc).1 ⟨hmf, hmx⟩⟩

/-- Chunks that cut the first line, a header and the data of the field. -/
example : ∃ chunks, Chunking (bodySegs "BB".toList sample) [] chunks ∧ chunks.length = 4 ∧
    AtMost (fileCount sample) (some 1) ∧ AtMost (fieldCount sample) (some 1) ∧ '\r' ∉ "BB".toList ∧
    (∀ s ∈ sample, GoodPart "BB".toList s) ∧ sample ≠ [] := by
  refine ⟨_, .cut "--B".toList "B\r\n".toList [] _ _ (.soft _ [] _ _ (.cut "Con".toList
    "tent-Disposition: form-data; name=\"a\"\r\n\r\n".toList _ _ _ (.soft _ [] _ _ (.cut "x\r".toList "\n--B".toList _ _ _
    (.soft _ [] _ _ (chunking_single _ _)))))), rfl, by decide, by decide, by decide, sample_good, by decide⟩

/-- **C30** A whole body in one chunk is read back. -/
theorem C30_whole (boundary : Str) (hb : '\r' ∉ boundary) (rfc : Str → Str) (mf mx : Option Nat)
    (parts : List Submitted) (hne : parts ≠ []) (hg : ∀ s ∈ parts, GoodPart boundary s)
    (hmf : AtMost (fileCount parts) mf) (hmx : AtMost (fieldCount parts) mx) :
    parse boundary rfc mf mx [bodyText boundary parts] = some (parts.map expected) :=
  (parse_body boundary hb rfc mf mx parts hne hg _ (chunking_single _ _)).1 ⟨hmf, hmx⟩

example : parse "BB".toList id none none [bodyText "BB".toList sample] =
    some [.text "a".toList "x\r\n--B".toList,
      .upload "f".toList "n.txt".toList
        [("content-disposition".toList, "form-data; name=\"f\"; filename=\"n.txt\"".toList),
         ("content-type".toList, "text/plain".toList)] "12345".toList] :=
  C30_whole "BB".toList (by decide) id none none sample (by decide) sample_good trivial trivial

/-- One field. -/
def oneField : List Submitted := [⟨"a".toList, none, [], "x".toList⟩]

/-- One file. -/
def oneFile : List Submitted := [⟨"f".toList, some "n".toList, [], "12345".toList⟩]

theorem oneField_good : ∀ s ∈ oneField, GoodPart "B".toList s := by
  intro s hs
  rw [oneField, List.mem_singleton] at hs
  rw [hs]
  exact ⟨⟨by decide, by decide⟩, (fun f hf => by cases hf), (fun kv hkv => by cases hkv), by decide,
    by rw [← List.isInfixOf_internal_iff_isInfix]; decide⟩

theorem oneFile_good : ∀ s ∈ oneFile, GoodPart "B".toList s := by
  intro s hs
  rw [oneFile, List.mem_singleton] at hs
  rw [hs]
  refine ⟨⟨by decide, by decide⟩, (fun f hf => ?_), (fun kv hkv => by cases hkv), by decide,
    by rw [← List.isInfixOf_internal_iff_isInfix]; decide⟩
  injection hf with hf
  rw [← hf]
  exact ⟨by decide, by decide⟩

/-- **C30** is false for chunks that end inside a delimiter: the delimiter is taken for data and the part
is lost. -/
theorem C30_split_false : ∃ chunks : List Str, chunks.flatten = bodyText "B".toList oneField ∧
    parse "B".toList id none none [bodyText "B".toList oneField] = some [.text "a".toList "x".toList] ∧
    parse "B".toList id none none chunks = some [] :=
  ⟨["--B\r\nContent-Disposition: form-data; name=\"a\"\r\n\r\nx\r\n-".toList, "-B--\r\n".toList],
    by decide +kernel, by decide +kernel, by decide +kernel⟩

/-- **C30** is false when the line end after the last delimiter comes in a chunk of its own: it is written
over the beginning of the last file. -/
theorem C30_overwrite_false : ∃ chunks : List Str, chunks.flatten = bodyText "B".toList oneFile ∧
    parse "B".toList id none none chunks =
      some [.upload "f".toList "n".toList
        [("content-disposition".toList, "form-data; name=\"f\"; filename=\"n\"".toList)] "345".toList] :=
  ⟨["--B\r\nContent-Disposition: form-data; name=\"f\"; filename=\"n\"\r\n\r\n12345\r\n--B--".toList, "\r\n".toList],
    by decide +kernel, by decide +kernel⟩

/-- A field name that is not in quotes is read as it stands; a quotation mark at one end only belongs to
the name. -/
theorem C30_bare_name (v : Str) (hs : ';' ∉ v) (hne : v ≠ []) (hh : ∀ c, v.head? = some c → isByteSpace c = false)
    (hl : ∀ c, v.getLast? = some c → isByteSpace c = false) (hq : ¬ ∃ w, v = '"' :: w ++ ['"']) :
    options ("form-data; name=".toList ++ v) = [("name".toList, v)] := by
  obtain ⟨i, b, rfl⟩ : ∃ i b, v = i ++ [b] := by
    rcases List.eq_nil_or_concat v with h | ⟨i, b, h⟩
    · exact absurd h hne
    · exact ⟨i, b, by rw [h, List.concat_eq_append]⟩
  have hb : isByteSpace b = false := hl b (by simp)
  have h1 : strip isByteSpace (i ++ [b]) = i ++ [b] := by
    cases i with
    | nil => simp [strip, lstrip, rstrip, hb]
    | cons a i => exact strip_ends isByteSpace a b i (hh a rfl) hb
  have h2 : strip isByteSpace (['n', 'a', 'm', 'e'] ++ '=' :: (i ++ [b])) = ['n', 'a', 'm', 'e'] ++ '=' :: (i ++ [b]) :=
    strip_ends isByteSpace 'n' b (['a', 'm', 'e'] ++ '=' :: i) (by decide) hb
  have hsplit : splitOn ';' ("form-data; name=".toList ++ (i ++ [b])) =
      ["form-data".toList, ' ' :: (['n', 'a', 'm', 'e'] ++ '=' :: (i ++ [b]))] := by
    have e : "form-data; name=".toList ++ (i ++ [b]) =
        "form-data".toList ++ ';' :: (' ' :: (['n', 'a', 'm', 'e'] ++ '=' :: (i ++ [b]))) := rfl
    rw [e, splitOn_append_sep _ _ _ (by decide), splitOn_of_not_mem]
    intro hm
    have : ';' ∉ [' ', 'n', 'a', 'm', 'e', '='] := by decide
    rcases List.mem_append.1 (show ';' ∈ [' ', 'n', 'a', 'm', 'e', '='] ++ (i ++ [b]) from hm) with hm | hm
    · exact this hm
    · exact hs hm
  unfold options
  rw [hsplit]
  show addOption [] _ = _
  rw [addOption_bare [] 'n' ['a', 'm', 'e'] (i ++ [b]) (by decide) (by decide) h1 h2 hq]
  rfl

example : options "form-data; name=\"".toList = [("name".toList, "\"".toList)] ∧
    options "form-data; name=\"\"".toList = [("name".toList, [])] := by decide +kernel

example : ';' ∉ "a\"".toList ∧ ¬ ∃ w, "a\"".toList = '"' :: w ++ ['"'] := by
  refine ⟨by decide, ?_⟩
  rintro ⟨w, h⟩
  injection h with h _
  exact absurd h (by decide)

/-- **C30** is false for names with a semicolon: the option ends at the semicolon. -/
theorem C30_semicolon_false :
    parse "B".toList id none none [bodyText "B".toList [⟨"f".toList, some "a;b".toList, [], "1".toList⟩]] =
      some [.upload "f".toList "\"a".toList
        [("content-disposition".toList, "form-data; name=\"f\"; filename=\"a;b\"".toList)] "1".toList] := by
  decide +kernel

/-- A body that ends before its closing delimiter is accepted without its last part. -/
theorem C30_truncated_false :
    parse "B".toList id none none
      ["--B\r\nContent-Disposition: form-data; name=\"a\"\r\n\r\nx\r\n--B\r\nContent-Disposition: form-data; name=\"b\"\r\n\r\ny".toList] =
      some [.text "a".toList "x".toList] := by
  decide +kernel

/-! ## C31

Full statement: for every list of chunks, if `parse` returns entries then their numbers of files and
fields are within the limits, and the body of parts is refused exactly when a limit is exceeded.  The
first part is shown for every body in one chunk (and is false in general), the second for all chunks of
which none ends inside a delimiter. -/

/-- **C31** A form is refused exactly when it has too many files or too many fields. -/
theorem C31_exact_partial (boundary : Str) (hb : '\r' ∉ boundary) (rfc : Str → Str) (mf mx : Option Nat)
    (parts : List Submitted) (hne : parts ≠ []) (hg : ∀ s ∈ parts, GoodPart boundary s) (chunks : List Str)
    (hc : Chunking (bodySegs boundary parts) [] chunks) :
    parse boundary rfc mf mx chunks = none ↔ ¬ (AtMost (fileCount parts) mf ∧ AtMost (fieldCount parts) mx) := by
  obtain ⟨h1, h2⟩ := parse_body boundary hb rfc mf mx parts hne hg chunks hc
  refine ⟨fun h hlim => ?_, h2⟩
  rw [h1 hlim] at h
  cases h

/-- One file with a limit of no files, and with a limit of one. -/
example : parse "B".toList id (some 0) none [bodyText "B".toList oneFile] = none ∧
    parse "B".toList id (some 1) (some 0) [bodyText "B".toList oneFile] ≠ none :=
  ⟨(C31_exact_partial "B".toList (by decide) id (some 0) none oneFile (by decide) oneFile_good _
      (chunking_single _ _)).2 (fun h => absurd h.1 (by decide)),
   fun h => (C31_exact_partial "B".toList (by decide) id (some 1) (some 0) oneFile (by decide) oneFile_good _
      (chunking_single _ _)).1 h ⟨by decide, by decide⟩⟩

/-- **C31** Whatever is accepted from a body in one chunk is within the limits. -/
theorem C31_accepted_partial (boundary : Str) (rfc : Str → Str) (mf mx : Option Nat) (chunk : Str) (es : List Entry)
    (h : parse boundary rfc mf mx [chunk] = some es) :
    AtMost (es.filter IsUpload).length mf ∧ AtMost (es.filter fun e => !IsUpload e).length mx :=
  single_counted boundary rfc mf mx chunk es h

/-- A body with garbage before the first delimiter and a missing end. -/
example : parse "B".toList id (some 1) (some 1)
    ["junk\r\n--B\r\nContent-Disposition: form-data; name=\"a\"\r\n\r\nx\r\n--B\r\nZ: 1\r\n".toList] =
      some [.text "a".toList "x".toList] := by
  decide +kernel

/-- **C31** is false for bodies in several chunks: a chunk after the closing delimiter that holds the
closing delimiter again adds the last part again. -/
theorem C31_repeated_false : ∃ chunks : List Str,
    parse "B".toList id none (some 1) chunks = some (List.replicate 3 (.text "a".toList "x".toList)) :=
  ⟨[bodyText "B".toList oneField, "\r\n--B--".toList, "\r\n--B--".toList], by decide +kernel⟩

end Verif.Multipart
