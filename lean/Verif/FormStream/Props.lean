import Verif.FormStream.Lemmas

/-!
# C94: the streaming form parser reports what was submitted

Full statement: for each of the three content types, for every body that is made from fields and files and however it is
divided into chunks, the callbacks are called for the fields and files in their order, with their names and contents,
and
then once for the end; a body that is not complete or that is longer than `MAX_BODY_SIZE` ends with an error.  Shown for
multipart bodies of which no delimiter is divided and whose names have no semicolon, and, for all divisions, for
URL-encoded bodies without `+` and for octet streams that are not empty.  The rest is false.
-/

namespace Verif.FormStream

open Verif

/-! ## Multipart -/

/-- A field and a file. -/
def sample : List Multipart.Spec.Submitted :=
  [⟨"a".toList, none, [], "x\r\n--B".toList⟩,
   ⟨"f".toList, some "n.txt".toList, [("content-type".toList, "text/plain".toList)], "12345".toList⟩]

theorem sample_good : ∀ s ∈ sample, Multipart.Spec.GoodPart "BB".toList s := by
  intro s hs
  rw [sample, List.mem_cons, List.mem_singleton] at hs
  rcases hs with rfl | rfl
  · exact ⟨⟨by decide, by decide⟩, (fun f hf => by cases hf), (fun kv hkv => by cases hkv), by decide,
      by rw [← List.isInfixOf_internal_iff_isInfix]; decide⟩
  · refine ⟨⟨by decide, by decide⟩, (fun f hf => ?_), (fun kv hkv => ?_), by decide,
      by rw [← List.isInfixOf_internal_iff_isInfix]; decide⟩
    · injection hf with hf
      rw [← hf]
      exact ⟨by decide, by decide⟩
    · rw [List.mem_singleton] at hkv
      rw [hkv]
      exact ⟨⟨by decide, by decide, by decide, by decide, by decide, by decide⟩, by decide, by decide⟩

/-- **C94** (partial): the parts of a multipart body are reported in their order, and then the end, for every division
into chunks that divides no delimiter. -/
theorem C94_multipart_partial (codec : Str → Option (Str → Str)) (boundary : Str) (hb : Spec.GoodBoundary boundary)
    (name : Option Str) (parts : List Multipart.Spec.Submitted) (hne : parts ≠ [])
    (hg : ∀ s ∈ parts, Multipart.Spec.GoodPart boundary s) (hn : ∀ s ∈ parts, Spec.GoodField s ∧ Spec.GoodFile s)
    (chunks : List Str) (hc : Multipart.Spec.Chunking (Multipart.Spec.bodySegs boundary parts) [] chunks) :
    run codec (Spec.multipartType boundary) name none chunks = .ok (parts.map Spec.expected ++ [.done]) := by
  rw [run_multipart codec boundary hb, cutChunks_none]
  exact multipart_good boundary (fun hm => (boundary_char _ (hb.2 _ hm)).2.2.2 rfl) _ parts hne hg hn chunks hc

example : Spec.GoodBoundary "BB".toList ∧ (∀ s ∈ sample, Spec.GoodField s ∧ Spec.GoodFile s) ∧
    ∃ chunks, Multipart.Spec.Chunking (Multipart.Spec.bodySegs "BB".toList sample) [] chunks ∧ chunks.length = 4 := by
  refine ⟨by unfold Spec.GoodBoundary; decide, ?_, _, .cut "--B".toList "B\r\n".toList [] _ _ (.soft _ [] _ _
    (.cut "Con".toList "tent-Disposition: form-data; name=\"a\"\r\n\r\n".toList _ _ _ (.soft _ [] _ _
    (.cut "x\r".toList "\n--B".toList _ _ _ (.soft _ [] _ _ (Multipart.chunking_single _ _)))))), rfl⟩
  unfold Spec.GoodField Spec.GoodFile
  decide

example : run (fun _ => none) (Spec.multipartType "BB".toList) none none
      [Multipart.Spec.bodyText "BB".toList sample] =
    .ok [.field "a".toList "x\r\n--B".toList,
      .file "n.txt".toList "f".toList (some "text/plain".toList)
        (some [("content-disposition".toList, "form-data; name=\"f\"; filename=\"n.txt\"".toList),
          ("content-type".toList, "text/plain".toList)]) "12345".toList,
      .done] := by
  exact C94_multipart_partial _ "BB".toList (by unfold Spec.GoodBoundary; decide) none sample (by decide) sample_good
    (by unfold Spec.GoodField Spec.GoodFile; decide) _ (Multipart.chunking_single _ _)

/-! ## URL-encoded forms -/

/-- **C94** (partial): the fields of a URL-encoded body are reported in their order, and then the end, for every
division
into chunks. -/
theorem C94_urlencoded_partial (codec : Str → Option (Str → Str)) (name : Option Str) (ps : List (Str × Str))
    (es : List Str) (h : Spec.EncodesForm ps es) (chunks : List Str) (hc : chunks.flatten = joinWith ['&'] es) :
    run codec "application/x-www-form-urlencoded".toList name none chunks =
      .ok (ps.map (fun kv => .field kv.1 kv.2) ++ [.done]) := by
  obtain ⟨h1, h2⟩ := form_fields h
  rw [run_url codec _ (by decide), cutChunks_none, urlencoded_eq, hc, rawFields_join es h2, h1]

/-- A name with a space and a value with a letter outside ASCII; the chunks cut an escape. -/
example : Spec.EncodesForm [("a b".toList, "é".toList)] ["a%20b=%c3%A9".toList] ∧
    ["a%2".toList, "0b=%c".toList, "3%A9".toList].flatten = joinWith ['&'] ["a%20b=%c3%A9".toList] := by
  refine ⟨.cons _ _ "a%20b".toList "%c3%A9".toList _ _ ⟨?_, by decide, by decide⟩ ⟨?_, by decide, by decide⟩ .nil, rfl⟩
  · exact .plain 'a' _ _ (by decide) (.escape 2 0 '2' '0' _ _ (by decide) (by decide)
      (.plain 'b' _ _ (by decide) .nil))
  · exact .escape 12 3 'c' '3' _ _ (by decide) (by decide) (.escape 10 9 'A' '9' _ _ (by decide) (by decide) .nil)

example : run (fun _ => none) "application/x-www-form-urlencoded".toList none none
      ["a%2".toList, "0b=%c".toList, "3%A9&".toList, "x".toList] =
    .ok [.field "a b".toList "é".toList, .field "x".toList [], .done] := by
  rw [run_url _ _ (by decide), cutChunks_none]
  exact congrArg _ (by decide +kernel)

/-- Any two divisions of a URL-encoded body give the same reports, whatever the body is. -/
theorem C94_urlencoded_chunks (codec : Str → Option (Str → Str)) (name : Option Str) (chunks chunks' : List Str)
    (h : chunks.flatten = chunks'.flatten) :
    run codec "application/x-www-form-urlencoded".toList name none chunks =
      run codec "application/x-www-form-urlencoded".toList name none chunks' := by
  rw [run_url codec _ (by decide), run_url codec _ (by decide), cutChunks_none, cutChunks_none, urlencoded_eq,
    urlencoded_eq, h]

example : ["a=1&b".toList, "=2".toList].flatten = ["a".toList, "=1&b=2".toList].flatten := by decide

/-! ## Octet streams -/

/-- **C94** (partial): an octet stream that is not empty is reported as one file with the given name, or `upload`, and
with the whole body, and then the end, for every division into chunks. -/
theorem C94_octet_partial (codec : Str → Option (Str → Str)) (name : Option Str) (hn : name ≠ some [])
    (chunks : List Str) (hc : chunks.flatten ≠ []) :
    run codec "application/octet-stream".toList name none chunks =
      .ok [.file (name.getD "upload".toList) "file".toList none none chunks.flatten, .done] := by
  rw [run_octet codec _ (by decide), cutChunks_none]
  unfold octet
  rw [octet_fold, if_neg (fun h => hc h.2)]
  cases name with
  | none => rfl
  | some n =>
    dsimp only
    rw [if_neg (fun h => hn (by rw [h]))]
    rfl

example : (some "n".toList : Option Str) ≠ some [] ∧ [[], "ab".toList, [], "c".toList].flatten ≠ ([] : Str) := by decide

/-- **C94**: an empty name for an octet stream is no name. -/
theorem C94_octet_unnamed (codec : Str → Option (Str → Str)) (chunks : List Str) :
    run codec "application/octet-stream".toList (some []) none chunks =
      run codec "application/octet-stream".toList none none chunks := by
  rw [run_octet codec _ (by decide), run_octet codec _ (by decide)]
  rfl

/-- **C94**: without a name, or with an empty one, the extended value gives the name of a field and of a file; the
extended value of a field is not decoded. -/
theorem C94_extended (rfc : Str → Str) (opts : List (Str × Str)) (v : Str) :
    (aget opts "filename".toList = none ∨ aget opts "filename".toList = some [] →
      aget opts "filename*".toList = some v → fileName rfc opts = some (rfc (ExtValue.utf8Decode v))) ∧
    (aget opts "name".toList = none ∨ aget opts "name".toList = some [] →
      aget opts "name*".toList = some v → endsWith v ['*'] = false →
      fieldName rfc opts = ExtValue.utf8Decode v) := by
  refine ⟨fun h hv => ?_, fun h hv he => ?_⟩
  · unfold fileName
    rcases h with h | h <;> (rw [h, hv]; rfl)
  · unfold fieldName
    rcases h with h | h <;> (rw [h, hv]; dsimp only [Option.getD_some]; simp [he])

example : fileName id [("filename*".toList, "utf-8''a".toList)] = some (ExtValue.utf8Decode "utf-8''a".toList) :=
  (C94_extended id _ "utf-8''a".toList).1 (.inl rfl) rfl

/-! ## The maximum size -/

/-- With a maximum the parser reads the beginning of the body up to the maximum, whatever the content type is. -/
theorem C94_limit (codec : Str → Option (Str → Str)) (contentType : Str) (name : Option Str) (m : Nat)
    (chunks : List Str) :
    ∃ chunks', chunks'.flatten = chunks.flatten.take m ∧ chunks'.length = chunks.length ∧
      run codec contentType name (some m) chunks = run codec contentType name none chunks' := by
  refine ⟨cutChunks (some m) 0 chunks, cutChunks_flatten m 0 (Nat.zero_le m) chunks, ?_, ?_⟩
  · generalize 0 = k
    induction chunks generalizing k with
    | nil => rfl
    | cons c cs ih =>
      rw [cutChunks]
      simp only [List.length_cons, ih]
  · unfold run
    rw [cutChunks_none]

example : cutChunks (some 3) 0 ["ab".toList, "cd".toList, "e".toList] = ["ab".toList, "c".toList, []] := by decide

/-! ## The content type -/

/-- A content type other than the four is refused, with or without parameters and in any case of the letters; the other
three than `multipart/form-data` are accepted. -/
theorem C94_types (codec : Str → Option (Str → Str)) (t rest : Str) (ht : ';' ∉ t)
    (hs : strip isByteSpace t = t) (hm : lower t ≠ "multipart/form-data".toList) (name : Option Str)
    (max : Option Nat) (chunks : List Str) (ct : Str) (hct : ct = t ∨ ct = t ++ ';' :: rest) :
    run codec ct name max chunks = .error .refused ↔
      lower t ∉ ["application/octet-stream".toList, "application/x-www-form-urlencoded".toList,
        "text/plain".toList] := by
  have hmain : mainValue ct = lower t := by
    unfold mainValue
    rcases hct with rfl | rfl
    · rw [splitOn_of_not_mem _ _ ht]
      show lower (strip isByteSpace ct) = _
      rw [hs]
    · rw [splitOn_append_sep _ _ _ ht]
      show lower (strip isByteSpace t) = _
      rw [hs]
  unfold run
  dsimp only
  rw [hmain, if_neg hm]
  simp only [List.mem_cons, List.not_mem_nil, or_false, not_or]
  by_cases h1 : lower t = "application/octet-stream".toList
  · rw [if_pos h1]
    refine iff_of_false ?_ (fun h => h.1 h1)
    unfold octet
    cases List.foldl octetWrite none (cutChunks max 0 chunks) with
    | none => exact (fun e => by cases e)
    | some c => exact (fun e => by cases e)
  · rw [if_neg h1]
    by_cases h2 : lower t = "application/x-www-form-urlencoded".toList ∨ lower t = "text/plain".toList
    · rw [if_pos h2]
      refine iff_of_false (fun e => by cases e) ?_
      rintro ⟨_, h3, h4⟩
      exact h2.elim h3 h4
    · rw [if_neg h2]
      refine iff_of_true rfl ⟨h1, fun h => h2 (Or.inl h), fun h => h2 (Or.inr h)⟩

example : ';' ∉ "Text/Plain".toList ∧ strip isByteSpace "Text/Plain".toList = "Text/Plain".toList ∧
    lower "Text/Plain".toList ≠ "multipart/form-data".toList := by decide

/-- A multipart type without a boundary is refused. -/
theorem C94_no_boundary (codec : Str → Option (Str → Str)) (name : Option Str) (max : Option Nat)
    (chunks : List Str) :
    run codec "multipart/form-data".toList name max chunks = .error .refused ∧
      run codec "multipart/form-data; boundary=".toList name max chunks = .error .refused := by
  have h1 : mainValue "multipart/form-data".toList = "multipart/form-data".toList := by decide
  have h2 : mainValue "multipart/form-data; boundary=".toList = "multipart/form-data".toList := by decide +kernel
  have h3 : aget (Multipart.options "multipart/form-data".toList) "boundary".toList = none := by decide +kernel
  have h4 : aget (Multipart.options "multipart/form-data; boundary=".toList) "boundary".toList = some [] := by
    decide +kernel
  unfold run
  dsimp only
  rw [h1, h2, if_pos rfl, if_pos rfl, h3, h4]
  exact ⟨rfl, if_pos rfl⟩

example : ∃ r, run (fun _ => none) "multipart/form-data; boundary=B".toList none none [] = .ok r := ⟨_, rfl⟩

/-! ## `parse_form` -/

/-- `parse_form` parses what is read before the end of the input. -/
theorem C94_parse_form (codec : Str → Option (Str → Str)) (contentType : Str) (reads later : List Str)
    (h : ∀ r ∈ reads, r ≠ []) :
    parseForm codec contentType (reads ++ [] :: later) = run codec contentType none none reads := by
  unfold parseForm
  have e : (reads ++ [] :: later).takeWhile (fun r => decide (r ≠ [])) = reads := by
    induction reads with
    | nil => rfl
    | cons r rs ih =>
      rw [List.cons_append, List.takeWhile_cons_of_pos (by simpa using h r (by simp)),
        ih (fun x hx => h x (by simp [hx]))]
  rw [e]

example : parseForm (fun _ => none) "text/plain".toList ["a=1&".toList, "b=2".toList, []] =
    .ok [.field "a".toList "1".toList, .field "b".toList "2".toList, .done] := by rfl

/-! ## What is false -/

/-- The body of a file that is empty is not reported: the end of an empty octet stream raises `AssertionError`, however
many empty chunks were written. -/
theorem C94_empty_false (codec : Str → Option (Str → Str)) (name : Option Str) (n : Nat) :
    run codec "application/octet-stream".toList name none (List.replicate n []) = .error .assertion := by
  rw [run_octet codec _ (by decide), cutChunks_none]
  unfold octet
  rw [octet_fold, if_pos ⟨rfl, by simp⟩]

example : (List.replicate 2 ([] : Str)).flatten = [] := rfl

/-- A space that is written as `+`, as browsers do, is reported as `+`; the parser of `Request.form()` makes it a
space. -/
theorem C94_plus_false (codec : Str → Option (Str → Str)) :
    run codec "application/x-www-form-urlencoded".toList none none ["q=a+b".toList] =
        .ok [.field "q".toList "a+b".toList, .done] ∧
      Forms.parse none ["q=a+b".toList, []] = [("q".toList, "a b".toList)] := by
  refine ⟨?_, by decide +kernel⟩
  rw [run_url codec _ (by decide), cutChunks_none]
  rfl

/-- A file whose name is empty, which a browser sends when no file is chosen, is reported as a field. -/
theorem C94_filename_false (codec : Str → Option (Str → Str)) :
    run codec (Spec.multipartType "B".toList) none none
        [Multipart.Spec.bodyText "B".toList [⟨"f".toList, some [], [], "1".toList⟩]] =
      .ok [.field "f".toList "1".toList, .done] := by
  rw [run_multipart codec _ (by unfold Spec.GoodBoundary; decide), cutChunks_none]
  rfl

/-- A field whose name ends in a star loses its name: the name is taken for an extended value. -/
theorem C94_star_false (codec : Str → Option (Str → Str)) :
    run codec (Spec.multipartType "B".toList) none none
        [Multipart.Spec.bodyText "B".toList [⟨"a*".toList, none, [], "1".toList⟩]] =
      .ok [.field [] "1".toList, .done] := by
  rw [run_multipart codec _ (by unfold Spec.GoodBoundary; decide), cutChunks_none]
  rfl

/-- A body that ends before its closing delimiter makes no error: the last part is not reported, and neither is the
end. -/
theorem C94_truncated_false (codec : Str → Option (Str → Str)) :
    run codec (Spec.multipartType "B".toList) none none
        ["--B\r\nContent-Disposition: form-data; name=\"a\"\r\n\r\nx".toList] = .ok [] := by
  rw [run_multipart codec _ (by unfold Spec.GoodBoundary; decide), cutChunks_none]
  rfl

/-- A body longer than the maximum makes no error: what is read of it is reported, and the end. -/
theorem C94_limit_false (codec : Str → Option (Str → Str)) :
    run codec "application/octet-stream".toList none (some 3) ["abcde".toList] =
      .ok [.file "upload".toList "file".toList none none "abc".toList, .done] := by
  rw [run_octet codec _ (by decide)]
  rfl

/-- When a chunk ends inside a delimiter the delimiter is taken for data: the part is not reported, and neither is the
end. -/
theorem C94_split_false (codec : Str → Option (Str → Str)) : ∃ chunks : List Str,
    chunks.flatten = Multipart.Spec.bodyText "B".toList [⟨"a".toList, none, [], "x".toList⟩] ∧
      run codec (Spec.multipartType "B".toList) none none chunks = .ok [] := by
  refine ⟨["--B\r\nContent-Disposition: form-data; name=\"a\"\r\n\r\nx\r\n-".toList, "-B--\r\n".toList],
    by decide +kernel, ?_⟩
  rw [run_multipart codec _ (by unfold Spec.GoodBoundary; decide), cutChunks_none]
  rfl

end Verif.FormStream
