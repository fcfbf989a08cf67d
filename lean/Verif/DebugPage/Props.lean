import Verif.DebugPage.Select

/-!
# C84 — The debug page shows the exception and nothing of it becomes markup

Full statement: in debug mode an exception is answered with a page for clients that accept HTML, and with the traceback
as text otherwise; without debug mode the answer says nothing about the exception.  Whatever the text of the exception,
the names and the source lines contain, the page has the same tags.  It shows the exception, and for each active
function, the innermost first, the file, the line, the name and the source around the line with that line marked.  The
button of a function opens and closes its source.

Proved: for any exception, any names and any source, read by a small HTML reader.  False: a semicolon after a space is
lost (`&nbsp` is written without its own); two activations of one line (recursion) share one id, so that a button moves
the source of another; `Accept: text/html;q=0` is answered with HTML.
-/

namespace Verif.DebugPage

open Verif Verif.DebugPage.Spec

/-- **C84, no markup.**  The tags of the page are those of the page of any other exception in functions at the same
lines of files of the same length. -/
theorem C84_shape (type text type' text' : Str) (active active' : List Active)
    (h : (active.map fun a => (a.lineno, a.source.map List.length)) =
      active'.map fun a => (a.lineno, a.source.map List.length)) :
    shape (readHtml (page type text active)) = shape (readHtml (page type' text' active')) := by
  rw [read_page, read_page]
  apply shape_head
  rw [shape_append, shape_append, shape_txt, shape_txt, List.nil_append, List.nil_append]
  apply shape_mid
  rw [shape_append, shape_append]
  refine congrArg (· ++ _) (shape_frames _ _ _ ?_)
  rw [List.map_reverse, List.map_reverse, List.map_map, List.map_map]
  have g : ∀ a : Active, ((fun f : Frame => (f.index, f.context.length)) ∘ frameInfo) a =
      (fun x : Nat × Option Nat => match x.2 with
        | none => (0, 0)
        | some len => (x.1 - 1 - min (x.1 - 1 - 7 / 2) (len - 7), min 7 (len - min (x.1 - 1 - 7 / 2) (len - 7))))
      (a.lineno, a.source.map List.length) := by
    intro a
    unfold frameInfo
    cases hs : a.source with
    | none => simp [hs]
    | some lines => simp [hs]
  rw [List.map_congr_left fun a _ => g a, List.map_congr_left fun a _ => g a]
  have := congrArg (List.map fun x : Nat × Option Nat => match x.2 with
        | none => (0, 0)
        | some len => (x.1 - 1 - min (x.1 - 1 - 7 / 2) (len - 7), min 7 (len - min (x.1 - 1 - 7 / 2) (len - 7)))) h
  rw [List.map_map, List.map_map] at this
  exact congrArg List.reverse this

example : ([⟨"<b>".toList, "f".toList, 1, some ["<script>".toList]⟩].map fun a : Active =>
    (a.lineno, a.source.map List.length)) = [⟨"g".toList, "f".toList, 1, some [[]]⟩].map fun a : Active =>
    (a.lineno, a.source.map List.length) := by decide

/-- The reader does see markup: `<b>` in a text that is not escaped changes the tags. -/
example : shape (readHtml "<h2>a <b>c</b></h2>".toList) ≠ shape (readHtml "<h2>a c</h2>".toList) := by decide +kernel

/-- **C84, the exception.**  The heading is the name of its class, a colon and its text, character by character. -/
theorem C84_heading (type text : Str) (active : List Active) :
    texts (opens "h2".toList none) (closes "h2".toList) (page type text active) = [type ++ ": ".toList ++ text] :=
  page_h2 type text active

example : texts (opens "h2".toList none) (closes "h2".toList) "<h2>E: &lt;b&gt; &amp;amp; &#x27;</h2>".toList =
    ["E: <b> &amp; '".toList] := by decide +kernel

/-- **C84, the functions.**  The innermost first: file, line and name, character by character. -/
theorem C84_functions (type text : Str) (active : List Active) :
    texts (opens "span".toList (some "frame-filename".toList)) (closes "span".toList) (page type text active) =
        active.reverse.map Active.filename ∧
      texts (opens "i".toList none) (closes "i".toList) (page type text active) =
        active.reverse.map (fun a => Path.natToDec a.lineno) ∧
      texts (opens "b".toList none) (closes "b".toList) (page type text active) = active.reverse.map Active.function := by
  have e : ∀ a, (frameInfo a).filename = a.filename ∧ (frameInfo a).lineno = a.lineno ∧
      (frameInfo a).function = a.function := by
    intro a
    unfold frameInfo
    cases a.source <;> exact ⟨rfl, rfl, rfl⟩
  have g : ∀ {β : Type} (k : Frame → β) (k' : Active → β), (∀ a, k (frameInfo a) = k' a) →
      (active.map frameInfo).reverse.flatMap (fun f => [k f]) = active.reverse.map k' := by
    intro β k k' hk
    rw [← List.map_reverse, List.flatMap_map, ← List.map_eq_flatMap]
    exact List.map_congr_left fun a _ => hk a
  refine ⟨?_, ?_, ?_⟩
  · rw [page_frames only_file frame_file]
    exact g Frame.filename Active.filename fun a => (e a).1
  · rw [page_frames only_i frame_i]
    exact g (fun f => Path.natToDec f.lineno) (fun a => Path.natToDec a.lineno) fun a => by rw [(e a).2.1]
  · rw [page_frames only_b frame_b]
    exact g Frame.function Active.function fun a => (e a).2.2

example : [⟨"<a>.py".toList, "<lambda>".toList, 3, none⟩, ⟨"b.py".toList, "f".toList, 1, none⟩].reverse.map
    Active.function = ["f".toList, "<lambda>".toList] := by decide

/-- **C84, the source.**  For each function whose source is found: the lines around its line, with their numbers. -/
theorem C84_lines (type text : Str) (active : List Active) (h : ∀ a ∈ active, 1 ≤ a.lineno) :
    texts lineTag (closes "p".toList) (page type text active) =
      active.reverse.flatMap fun a =>
        match a.source with
        | none => []
        | some file => (around a.lineno file).map fun kl => lineText kl.1 kl.2 := by
  rw [page_frames only_line frame_line, ← List.map_reverse, List.flatMap_map]
  apply flatMap_congr
  intro a ha
  have hl := h a (List.mem_reverse.1 ha)
  unfold frameInfo
  cases hs : a.source with
  | none => rfl
  | some file =>
    simp only []
    rw [around_eq, show a.lineno - 1 - 7 / 2 = a.lineno - 4 by omega]
    rw [show a.lineno - (a.lineno - 1 - min (a.lineno - 4) (file.length - 7)) =
      min (a.lineno - 4) (file.length - 7) + 1 by omega]

example : (around 9 ((List.range 12).map fun k => Path.natToDec (k + 1))).map Prod.fst = [6, 7, 8, 9, 10, 11, 12] ∧
    (around 8 ((List.range 12).map fun k => Path.natToDec (k + 1))).map Prod.fst = [5, 6, 7, 8, 9, 10, 11] ∧
    (around 1 ["x = 1".toList, "y".toList]) = [(1, "x = 1".toList), (2, "y".toList)] ∧
    (around 6 ((List.range 12).map fun k => Path.natToDec (k + 1)))[3]? = some (6, "6".toList) := by decide +kernel

/-- **C84, the line.**  The line where the function was is marked, and no other. -/
theorem C84_marked (type text : Str) (active : List Active) (h : ∀ a ∈ active, 1 ≤ a.lineno) :
    texts markTag (closes "p".toList) (page type text active) =
      active.reverse.flatMap fun a =>
        match a.source with
        | none => []
        | some file => (file[a.lineno - 1]?.map (lineText a.lineno)).toList := by
  rw [page_frames only_mark frame_mark, ← List.map_reverse, List.flatMap_map]
  apply flatMap_congr
  intro a ha
  have hl := h a (List.mem_reverse.1 ha)
  unfold frameInfo
  cases hs : a.source with
  | none => rfl
  | some file =>
    simp only []
    rw [show a.lineno - 1 - 7 / 2 = a.lineno - 4 by omega]
    rw [numbered_filter]
    generalize hst : min (a.lineno - 4) (file.length - 7) = s
    rw [show a.lineno - (a.lineno - 1 - s) + (a.lineno - 1 - s) = a.lineno by omega]
    rw [List.getElem?_take, List.getElem?_drop, show s + (a.lineno - 1 - s) = a.lineno - 1 by omega]
    by_cases hc : a.lineno - 1 - s < 7
    · rw [if_pos hc]
      cases file[a.lineno - 1]? <;> rfl
    · rw [if_neg hc]
      have : file[a.lineno - 1]? = none := by rw [List.getElem?_eq_none_iff]; omega
      rw [this]
      rfl

example : texts markTag (closes "p".toList) (page "E".toList [] [⟨"f".toList, "g".toList, 2,
    some ["a".toList, "b c".toList, "d".toList]⟩]) = [lineText 2 "b c".toList] := by
  rw [C84_marked _ _ _ (by simp)]
  rfl

/-- **C84, a line.**  A line without a semicolon right after a space is shown character by character, spaces as spaces
that do not break. -/
theorem C84_line_partial (l : Str) (h : contains l " ;".toList = false) :
    shown l = l.map fun c => if c = ' ' then nbsp else c := shown_map l h

example : contains "x = a[1]; y = '&nbsp;'".toList " ;".toList = false := by decide +kernel

/-- **C84, a line, fails** for a semicolon right after a space: two lines of source look the same. -/
theorem C84_line_false : ∃ l l' : Str, l ≠ l' ∧ ∀ type text file function,
    texts lineTag (closes "p".toList) (page type text [⟨file, function, 1, some [l]⟩]) =
      texts lineTag (closes "p".toList) (page type text [⟨file, function, 1, some [l']⟩]) := by
  refine ⟨"a ;b".toList, "a b".toList, by decide, fun type text file function => ?_⟩
  rw [C84_lines _ _ _ (by simp), C84_lines _ _ _ (by simp)]
  have e : (around 1 ["a ;b".toList]).map (fun kl => lineText kl.1 kl.2) =
    (around 1 ["a b".toList]).map (fun kl => lineText kl.1 kl.2) := by decide +kernel
  exact congrArg (· ++ []) e

/-- **C84, buttons.**  The buttons refer to the sources in their order, and if no two functions were at the same line
of the same file, each to its own only. -/
theorem C84_buttons_partial (type text : Str) (active : List Active) :
    (buttons (readHtml (page type text active)) = ids (readHtml (page type text active)) ∧
      (ids (readHtml (page type text active))).length = active.length) ∧
    ((active.map fun a => (a.filename, a.lineno)).Nodup → (ids (readHtml (page type text active))).Nodup) := by
  obtain ⟨h1, h2⟩ := ids_page type text active
  rw [h1, h2]
  refine ⟨⟨rfl, by simp⟩, fun hn => ?_⟩
  rw [List.map_reverse, List.map_map]
  apply nodup_reverse
  unfold List.Nodup at hn ⊢
  rw [List.pairwise_map] at hn ⊢
  refine hn.imp fun {a b} hab e => hab ?_
  have g : ∀ a, (frameId ∘ frameInfo) a = a.filename ++ '-' :: Path.natToDec a.lineno := by
    intro a
    unfold frameInfo frameId
    cases hs : a.source <;> simp [hs]
  rw [g, g] at e
  obtain ⟨h3, h4⟩ := name_inj _ _ _ _ e
  rw [h3, h4]

example : ([⟨"a-1".toList, "f".toList, 1, none⟩, ⟨"a".toList, "f".toList, 11, none⟩].map
    fun a : Active => (a.filename, a.lineno)).Nodup := by decide

/-- **C84, buttons, fails** for a function that calls itself: every activation at one line has the same id, so that
each of their buttons refers to the source of the innermost. -/
theorem C84_button_false (type text file function : Str) (line : Nat) (source : Option (List Str)) (n : Nat) :
    ∃ name, buttons (readHtml (page type text (List.replicate n ⟨file, function, line, source⟩))) =
      List.replicate n name ∧
    ids (readHtml (page type text (List.replicate n ⟨file, function, line, source⟩))) = List.replicate n name := by
  obtain ⟨h1, h2⟩ := ids_page type text (List.replicate n ⟨file, function, line, source⟩)
  refine ⟨frameId (frameInfo ⟨file, function, line, source⟩), ?_, ?_⟩
  · rw [h2]; simp
  · rw [h1]; simp

example : List.replicate 2 "f.py-3".toList = ["f.py-3".toList, "f.py-3".toList] := by decide

/-- **C84, without debug mode** the answer is the handler's, or a text that is the same for every exception. -/
theorem C84_private (hasHandler : Bool) (accept type text trace : Str) (active : List Active) :
    answer false hasHandler accept type text trace active =
      if hasHandler then .handler else .plain "Internal Server Error".toList := rfl

example : answer false false "text/html".toList "E".toList "secret".toList "trace".toList [] =
    .plain "Internal Server Error".toList := rfl

/-- **C84, debug mode**: HTML if the header mentions it, the traceback otherwise; the handler is not asked. -/
theorem C84_debug (hasHandler : Bool) (accept type text trace : Str) (active : List Active) :
    ((∃ before after, accept = before ++ "text/html".toList ++ after) →
      answer true hasHandler accept type text trace active = .html (page type text active)) ∧
    ((¬ ∃ before after, accept = before ++ "text/html".toList ++ after) →
      answer true hasHandler accept type text trace active = .plain trace) := by
  unfold answer
  simp only [if_true]
  constructor
  · intro h
    rw [if_pos ((contains_iff _ _).2 (by obtain ⟨b, a, e⟩ := h; exact ⟨b, a, e⟩))]
  · intro h
    rw [if_neg fun e => h ((contains_iff _ _).1 e)]

/-- **C84, debug mode, fails** for a client that refuses HTML by its weight. -/
theorem C84_accept_false (type text trace : Str) (active : List Active) :
    answer true false "text/html;q=0, text/plain".toList type text trace active = .html (page type text active) :=
  (C84_debug false _ type text trace active).1 ⟨[], ";q=0, text/plain".toList, by decide⟩

end Verif.DebugPage
