import Verif.Bodies.Lemmas

/-!
# C134: what a handler returns, or a response is given, is what the client reads

The full statement: a value returned by a handler, or given to a JSON response, is read back by the client from the
body; a text or bytes given to a text response arrive unchanged, also through `make_response`; contents that are
awaited are treated like others; and every content that the encoders know may be given to every response.

Texts changed by `make_response`, values refused or lost by the text responses, and the arguments forgotten for awaited
contents are the exceptions; see the theorems ending in `_false`.
-/

namespace Verif.Bodies.Props

open Verif Verif.Json Verif.Bodies Verif.Bodies.Spec

/-- A content with some value for it. -/
def sample : Json := .obj (.cons "a".toList .null (.cons "b".toList (.str "x\"y".toList) .nil))

/-- **C134, returned values.**  For every value a handler returns that can be encoded, a body is sent, and the client
reads the value from it; bytes are read as base64 text of them.  What cannot be encoded is refused. -/
theorem C134_returned (c : Content) :
    (∀ j, toJson false c = some j → Means c j ∧ ∃ body, returned c = some body ∧ readsJson body = some j) ∧
    (toJson false c = none → returned c = none) := by
  refine ⟨fun j h => ⟨toJson_means h, _, returned_of_toJson h, reads_utf8 j⟩, fun h => ?_⟩
  cases c with
  | noReturn => rfl
  | array b => rfl
  | bytes b => exact nomatch h
  | view b => exact nomatch h
  | object v => cases (show v = none from h); rfl
  | value v => exact nomatch h

example : (returned (.value sample)).bind readsJson = some sample := by
  obtain ⟨body, h1, h2⟩ := ((C134_returned (.value sample)).1 sample rfl).2
  rw [h1]
  exact h2

example : returned (.bytes "hi".toList) = some "\"aGk=\"".toList := by decide +kernel

/-- **C134, JSON responses.**  A JSON response made directly sends the same body as the handler that returns the
content, so the client reads the same value. -/
theorem C134_json (c : Content) (hc : c ≠ .noReturn) :
    build .json none c = returned c ∧
    ∀ j, toJson false c = some j → ∃ body, build .json none c = some body ∧ readsJson body = some j := by
  refine ⟨?_, fun j h => ⟨_, jsonBody_of_toJson (ctx := none) h, reads_utf8 j⟩⟩
  show jsonBody none c = returned c
  rw [jsonBody_eq hc]
  cases h : toJson (leaves none) c with
  | none => exact ((C134_returned c).2 h).symm
  | some j => exact (returned_of_toJson h).symm

example : (build .json none (.value (.arr .nil))) = some "[]".toList := by decide +kernel

/-- **C134, `make_response` with the default class.**  The client reads the value, without its null members if
`exclude_none` is asked for and the content is a plain value. -/
theorem C134_made_json (kw : Kw) (j : Json) :
    ∃ body, make .json kw false (.value j) = some body ∧
      readsJson body = some (if kw.exclude then excludeNone j else j) :=
  ⟨ExtValue.utf8 (encode (if kw.exclude then excludeNone j else j)),
    jsonBody_of_toJson (ctx := some kw) (c := .value j) (j := if kw.exclude then excludeNone j else j) rfl,
    reads_utf8 _⟩

example : make .json ⟨true⟩ false (.value sample) = some "{\"b\":\"x\\\"y\"}".toList := by decide +kernel

/-- **C134, texts and bytes.**  A text given to a text response is the text of the body; bytes, of whichever type, are
the body, also through `make_response`, awaited or not. -/
theorem C134_text :
    (∀ s : Str, ∃ body, build .plain none (.value (.str s)) = some body ∧ text body = s) ∧
    (∀ (ctx : Option Kw) (b : Str), build .plain ctx (.bytes b) = some b ∧ build .plain ctx (.view b) = some b ∧
      build .plain ctx (.array b) = some b) ∧
    ∀ ctx : Option Kw, build .plain ctx (.value .null) = some [] ∧ build .plain ctx .noReturn = some [] := by
  refine ⟨fun s => ?_, fun _ _ => ⟨rfl, rfl, rfl⟩, fun _ => ⟨rfl, rfl⟩⟩
  cases s with
  | nil => exact ⟨[], rfl, rfl⟩
  | cons c s => exact ⟨_, rfl, text_utf8 (c :: s)⟩

example : build .plain none (.value (.str "né\"".toList)) = some (ExtValue.utf8 "né\"".toList) := by decide +kernel

/-- **C134, texts through `make_response`.**  A text given to `make_response` with a text class arrives unchanged
exactly if no character of it is a quote, a backslash or a control character. -/
theorem C134_made_text (kw : Kw) (s : Str) :
    ∃ body, make .plain kw false (.value (.str s)) = some body ∧ (text body = s ↔ ∀ c ∈ s, Harmless c) := by
  have h : make .plain kw false (.value (.str s)) = some (ExtValue.utf8 (stripQuotes (quoted s))) := by
    cases kw with
    | mk e => cases e <;> rfl
  exact ⟨_, h, by rw [text_utf8]; exact strip_iff s⟩

example : ∀ c ∈ "<b>hé</b>".toList, Harmless c := by
  unfold Harmless
  decide +kernel

/-- **C134 fails for markup.**  `make_response` with `HTMLResponse` sends an attribute's quotes with backslashes, drops
a closing quote of a text, sends two characters for a line break, and calls all of it JSON. -/
theorem C134_made_false :
    make .plain ⟨false⟩ false (.value (.str "<a href=\"x\">".toList)) = some "<a href=\\\"x\\\">".toList ∧
    make .plain ⟨false⟩ false (.value (.str "\"hi\"".toList)) = some "\\\"hi\\".toList ∧
    make .plain ⟨false⟩ false (.value (.str "a\nb".toList)) = some "a\\nb".toList ∧
    ∀ own : Str, mediaOf true own = "application/json".toList := by
  refine ⟨?_, ?_, ?_, fun _ => rfl⟩ <;> decide +kernel

/-- **C134 fails for values in text responses.**  A value other than a text sends nothing if Python holds it for false
(so a client reads nothing for `0` or `False`), and is refused otherwise; an object is refused even if an encoder
takes it.  Through `make_response` the encoders are used. -/
theorem C134_plain_false :
    (∀ j : Json, (∀ s, j ≠ .str s) → build .plain none (.value j) = if falsy j then some [] else none) ∧
    (∀ j : Option Json, build .plain none (.object j) = none) ∧
    falsy (.int 0) = true ∧ falsy (.bool false) = true ∧ falsy (.int 1) = false ∧
    make .plain ⟨false⟩ false (.value (.int 0)) = some "0".toList ∧
    make .plain ⟨false⟩ false (.object (some (.int 5))) = some "5".toList := by
  refine ⟨fun j hj => ?_, fun _ => rfl, rfl, rfl, rfl, by decide +kernel, by decide +kernel⟩
  cases j with
  | str s => exact absurd rfl (hj s)
  | null => rfl
  | bool b => cases b <;> rfl
  | int n =>
    show (if falsy (.int n) = true then some [] else _) = _
    rfl
  | arr l => cases l <;> rfl
  | obj l => cases l <;> rfl

/-- **C134, what Python holds for false.**  These are null, false, zero, the empty text, the empty list and the empty
object, and nothing else. -/
theorem C134_falsy (j : Json) : falsy j = true ↔
    j = .null ∨ j = .bool false ∨ j = .int 0 ∨ j = .str [] ∨ j = .arr .nil ∨ j = .obj .nil := by
  cases j with
  | null => simp [falsy]
  | bool b => cases b <;> simp [falsy]
  | int n => simp [falsy]
  | str s => cases s <;> simp [falsy]
  | arr l => cases l <;> simp [falsy]
  | obj l => cases l <;> simp [falsy]

example : falsy (.arr (.cons .null .nil)) = false ∧ falsy (.obj .nil) = true := ⟨rfl, rfl⟩

/-- Nothing is stripped from what starts and ends with other characters. -/
theorem strip_other (a b : Char) (ha : a ≠ '"') (hb : b ≠ '"') (s : Str) :
    stripQuotes (a :: s ++ [b]) = a :: s ++ [b] := by
  have h1 : (a == '"') = false := by simpa using ha
  have h2 : (b == '"') = false := by simpa using hb
  unfold stripQuotes
  rw [List.cons_append, List.dropWhile_cons, h1]
  simp only [Bool.false_eq_true, if_false]
  rw [← List.cons_append, List.reverse_append, List.reverse_singleton, List.singleton_append, List.dropWhile_cons, h2]
  simp

/-- **C134, lists and objects through `make_response` with a text class.**  The client reads the value, without its
null members if `exclude_none` is asked for. -/
theorem C134_made_plain (kw : Kw) (j : Json) (hj : (∃ l, j = .arr l) ∨ ∃ m, j = .obj m) :
    ∃ body, make .plain kw false (.value j) = some body ∧
      readsJson body = some (if kw.exclude then excludeNone j else j) := by
  have key : ∀ k : Json, ((∃ l, k = .arr l) ∨ ∃ m, k = .obj m) → stripQuotes (encode k) = encode k := by
    intro k hk
    rcases hk with ⟨l, rfl⟩ | ⟨m, rfl⟩
    · exact strip_other '[' ']' (by decide) (by decide) _
    · exact strip_other '{' '}' (by decide) (by decide) _
  have hk : (∃ l, (if kw.exclude then excludeNone j else j) = .arr l) ∨
      ∃ m, (if kw.exclude then excludeNone j else j) = .obj m := by
    rcases hj with ⟨l, rfl⟩ | ⟨m, rfl⟩ <;> cases kw.exclude
    · exact Or.inl ⟨l, rfl⟩
    · exact Or.inl ⟨_, rfl⟩
    · exact Or.inr ⟨m, rfl⟩
    · exact Or.inr ⟨_, rfl⟩
  have e : make .plain kw false (.value j) =
      some (ExtValue.utf8 (stripQuotes (encode (if kw.exclude then excludeNone j else j)))) := by
    rcases hj with ⟨l, rfl⟩ | ⟨m, rfl⟩ <;> rfl
  exact ⟨_, e, by rw [key _ hk]; exact reads_utf8 _⟩

example : make .plain ⟨true⟩ false (.value sample) = some "{\"b\":\"x\\\"y\"}".toList ∧
    make .plain ⟨false⟩ false (.value (.arr (.cons .null .nil))) = some "[null]".toList := by decide +kernel

/-- **C134 fails for awaited contents.**  The arguments of `make_response` are not used for a content that is awaited:
the null members asked to be left out are sent; a text class sends texts unchanged, but no other values. -/
theorem C134_lazy_false :
    (∀ (cls : Class) (kw : Kw) (c : Content), make cls kw true c = build cls none c) ∧
    make .json ⟨true⟩ false (.value sample) = some "{\"b\":\"x\\\"y\"}".toList ∧
    make .json ⟨true⟩ true (.value sample) = some "{\"a\":null,\"b\":\"x\\\"y\"}".toList ∧
    make .plain ⟨false⟩ false (.value (.int 5)) = some "5".toList ∧
    make .plain ⟨false⟩ true (.value (.int 5)) = none := by
  refine ⟨fun _ _ _ => rfl, ?_, ?_, ?_, ?_⟩ <;> decide +kernel

/-- **C134 fails for bytes in JSON responses.**  The documentation says types passed through are not encoded again, and
that bytes are among them; a JSON response sends every bytes as base64 in quotes, never as they are. -/
theorem C134_passthrough_false (ctx : Option Kw) (b : Str) :
    build .json ctx (.bytes b) = some (ExtValue.utf8 (quoted (Base64.Spec.encode b))) ∧
    build .json ctx (.array b) = none ∧
    build .json none (.bytes "{}".toList) = some "\"e30=\"".toList := by
  refine ⟨?_, ?_, by decide +kernel⟩
  · cases ctx <;> rfl
  · cases ctx <;> rfl

/-- **C134 fails for objects with null members.**  `exclude_none` leaves out the null members of plain values, not
those of objects written by an encoder; `NoReturn` is an empty body in a response, and an error from a handler. -/
theorem C134_object_false :
    (∀ (kw : Kw) (j : Json), make .json kw false (.object (some j)) = make .json ⟨false⟩ false (.value j)) ∧
    make .json ⟨true⟩ false (.object (some sample)) ≠ make .json ⟨true⟩ false (.value sample) ∧
    build .json none .noReturn = some [] ∧ returned .noReturn = none := by
  refine ⟨fun _ _ => rfl, ?_, rfl, rfl⟩
  decide +kernel

end Verif.Bodies.Props
