import Verif.AiStream.Spec
import Verif.Sse.Lemmas

/-!
# Lemmas for C100
-/

namespace Verif.AiStream

open Verif Verif.Json Spec Verif.Sse.Spec

/-! ### Lines -/

theorem split_lines (cr : Bool) (cur s : Str) (hb : ∀ c ∈ s, Sse.pyBreak c = true → c = '\n' ∨ c = '\r')
    (hcr : cr = true → cur = [])
    (hl : (s = [] ∧ cur = []) ∨ s.getLast? = some '\n' ∨ s.getLast? = some '\r') :
    Sse.splitlinesFrom cr cur s = linesFrom cr cur s := by
  induction s generalizing cr cur with
  | nil =>
    rcases hl with ⟨_, h⟩ | h | h
    · subst h; rfl
    · simp at h
    · simp at h
  | cons c s ih =>
    have hb' : ∀ x ∈ s, Sse.pyBreak x = true → x = '\n' ∨ x = '\r' := fun x hx => hb x (List.mem_cons_of_mem _ hx)
    have hl' : s ≠ [] → s.getLast? = some '\n' ∨ s.getLast? = some '\r' := by
      intro hs
      rcases hl with ⟨h, _⟩ | h
      · cases h
      · rwa [List.getLast?_cons_of_ne_nil hs] at h
    unfold Sse.splitlinesFrom linesFrom
    by_cases h1 : cr = true ∧ c = '\n'
    · rw [if_pos h1, if_pos h1]
      refine ih _ _ hb' (fun h => by cases h) ?_
      by_cases hs : s = []
      · exact .inl ⟨hs, hcr h1.1⟩
      · exact .inr (hl' hs)
    · rw [if_neg h1, if_neg h1]
      by_cases h2 : Sse.pyBreak c = true
      · rw [if_pos h2, if_pos (hb c (by simp) h2)]
        congr 1
        refine ih _ _ hb' (fun _ => rfl) ?_
        by_cases hs : s = []
        · exact .inl ⟨hs, rfl⟩
        · exact .inr (hl' hs)
      · have h3 : ¬ (c = '\n' ∨ c = '\r') := by
          rintro (rfl | rfl) <;> exact h2 (by decide)
        rw [if_neg h2, if_neg h3]
        refine ih _ _ hb' (fun h => by cases h) (.inr (hl' ?_))
        rintro rfl
        rcases hl with ⟨h, _⟩ | h | h
        · cases h
        · simp at h; exact h3 (.inl h)
        · simp at h; exact h3 (.inr h)

theorem split_text (cur a rest : Str) (h : ∀ c ∈ a, Sse.pyBreak c = false) :
    Sse.splitlinesFrom false cur (a ++ rest) = Sse.splitlinesFrom false (cur ++ a) rest := by
  induction a generalizing cur with
  | nil => simp
  | cons c a ih =>
    rw [List.cons_append, Sse.splitlinesFrom, if_neg (by simp), if_neg (by rw [h c (by simp)]; simp),
      ih _ (fun x hx => h x (List.mem_cons_of_mem _ hx))]
    simp

theorem field_other (c : Client) (name v : Str) (h : name ≠ "data".toList) :
    (c.field name v).data = c.data ∧ (c.field name v).out = c.out := by
  unfold Client.field
  split
  · exact ⟨rfl, rfl⟩
  · split
    · split <;> exact ⟨rfl, rfl⟩
    · split
      · split <;> exact ⟨rfl, rfl⟩
      · exact ⟨rfl, rfl⟩

theorem lstrip_dropSpace (v : Str) (h : ∀ c, (dropSpace v).head? = some c → isSpace c = false) :
    lstrip isSpace v = dropSpace v := by
  cases v with
  | nil => rfl
  | cons a s =>
    by_cases ha : a = ' '
    · subst ha
      have h1 : dropSpace (' ' :: s) = s := by simp [dropSpace]
      rw [h1] at h ⊢
      have h2 : lstrip isSpace (' ' :: s) = lstrip isSpace s := by
        unfold lstrip
        rw [List.dropWhile_cons, if_pos (by decide)]
      rw [h2]
      cases s with
      | nil => rfl
      | cons b s =>
        unfold lstrip
        rw [List.dropWhile_cons, if_neg]
        rw [h b rfl]; simp
    · have h1 : dropSpace (a :: s) = a :: s := by simp [dropSpace, ha]
      rw [h1] at h ⊢
      unfold lstrip
      rw [List.dropWhile_cons, if_neg]
      rw [h a rfl]; simp

theorem starts_iff (p s : Str) : startsWith s p = true ↔ ∃ r, s = p ++ r := by
  unfold startsWith
  rw [List.isPrefixOf_iff_prefix]
  exact ⟨fun ⟨r, h⟩ => ⟨r, h.symm⟩, fun ⟨r, h⟩ => ⟨r, h.symm⟩⟩

/-- A line that is no data. -/
theorem line_other (c : Client) (l : Str) (hl : l ≠ []) (h1 : l ≠ "data".toList)
    (h2 : ∀ r, l ≠ "data:".toList ++ r) : (c.line l).data = c.data ∧ (c.line l).out = c.out := by
  unfold Client.line
  rw [if_neg hl]
  split
  · exact ⟨rfl, rfl⟩
  · refine field_other _ _ _ ?_
    intro h
    have h3 := Url.partition_eq ':' l
    rw [h] at h3
    cases h4 : (Url.partition ':' l).2 with
    | none => rw [h4] at h3; exact h1 (by simpa using h3)
    | some r => rw [h4] at h3; exact h2 r h3

theorem line_data (c : Client) (v : Str) :
    c.line ("data:".toList ++ v) = { c with data := c.data ++ dropSpace v ++ ['\n'] } := by
  have h : Url.partition ':' ("data:".toList ++ v) = ("data".toList, some v) :=
    Url.partition_append ':' "data".toList v (by decide)
  unfold Client.line
  rw [if_neg (by simp), if_neg (by simp), h]
  unfold Client.field
  rw [if_neg (show ¬ "data".toList = "event".toList by decide), if_pos rfl]
  rfl

theorem data_lines (ls : List Str) (c : Client) (buffer : List Str) (hd : c.data = Sse.textOf ['\n'] buffer)
    (he : ls = [] → buffer = []) (hlast : ls ≠ [] → ls.getLast? = some [])
    (hcolon : "data".toList ∉ ls)
    (ht : ∀ v, "data:".toList ++ v ∈ ls → ∀ x, (dropSpace v).head? = some x → isSpace x = false) :
    (ls.foldl Client.line c).out.map (·.data) = c.out.map (·.data) ++ sseData buffer ls := by
  induction ls generalizing c buffer with
  | nil => simp [sseData, he rfl]
  | cons l ls ih =>
    have hlast' : ls ≠ [] → ls.getLast? = some [] := by
      intro hs
      have := hlast (by simp)
      rwa [List.getLast?_cons_of_ne_nil hs] at this
    have hcolon' : "data".toList ∉ ls := fun h => hcolon (List.mem_cons_of_mem _ h)
    have ht' : ∀ v, "data:".toList ++ v ∈ ls → ∀ x, (dropSpace v).head? = some x → isSpace x = false :=
      fun v h => ht v (List.mem_cons_of_mem _ h)
    rw [List.foldl_cons]
    by_cases hl : l = []
    · subst hl
      have hline : c.line [] = c.dispatch := if_pos rfl
      rw [hline]
      unfold sseData
      rw [if_pos rfl]
      by_cases hbuf : buffer = []
      · subst hbuf
        have hd' : c.data = [] := hd
        have e : c.dispatch = { c with type := [] } := if_pos hd'
        rw [if_pos rfl, ih c.dispatch [] (by rw [e]; exact hd) (fun _ => rfl) hlast' hcolon' ht', e]
      · have hne : c.data ≠ [] := by rw [hd]; exact Sse.textOf_ne_nil _ hbuf
        have e : c.dispatch = _ := if_neg hne
        rw [if_neg hbuf, ih c.dispatch [] (by rw [e]; rfl) (fun _ => rfl) hlast' hcolon' ht', e]
        simp [hd, Sse.textOf_dropLast _ hbuf]
    · have hls : ls ≠ [] := by
        rintro rfl
        have := hlast (by simp)
        simp at this
        exact hl this
      unfold sseData
      rw [if_neg hl]
      by_cases hst : ∃ v, l = "data:".toList ++ v
      · obtain ⟨v, rfl⟩ := hst
        have hdo : dataOf ("data:".toList ++ v) = some (dropSpace v) := by
          unfold dataOf
          rw [if_pos ((starts_iff _ _).mpr ⟨v, rfl⟩)]
          exact congrArg some (lstrip_dropSpace v (ht v (by simp)))
        rw [hdo, line_data]
        refine (ih _ (buffer ++ [dropSpace v]) ?_ (fun h => absurd h hls) hlast' hcolon' ht').trans rfl
        show c.data ++ dropSpace v ++ ['\n'] = _
        rw [hd, Sse.textOf_append]
        simp [Sse.textOf]
      · have hst' : ∀ r, l ≠ "data:".toList ++ r := fun r h => hst ⟨r, h⟩
        have hdo : dataOf l = none := by
          unfold dataOf
          rw [if_neg]
          intro h
          exact hst ((starts_iff _ _).mp h)
        obtain ⟨e1, e2⟩ := line_other c l hl (fun h => hcolon (by rw [h]; exact List.mem_cons_self)) hst'
        rw [hdo, ih (c.line l) buffer (by rw [e1, hd]) (fun h => absurd h hls) hlast' hcolon' ht', e2]

/-! ### Members -/

theorem get?_pairs : ∀ (ms : Members) (k : Str), (∀ p ∈ pairs ms, p.1 ≠ k) → get? ms k = none
  | .nil, _, _ => rfl
  | .cons k' v ms, k, h => by
    have h1 := get?_pairs ms k (fun p hp => h p (List.mem_cons_of_mem _ hp))
    have h2 : k' ≠ k := h (k', v) List.mem_cons_self
    rw [get?, h1]
    exact if_neg h2

theorem get?_member : ∀ (ms : Members) (k : Str) (v : Json), Member ms k v → get? ms k = some v
  | .nil, _, _, h => by
    obtain ⟨a, b, h, _⟩ := h
    cases a <;> cases h
  | .cons k' w ms, k, v, h => by
    obtain ⟨a, b, h, hn⟩ := h
    cases a with
    | nil =>
      simp only [pairs, List.nil_append, List.cons.injEq, Prod.mk.injEq] at h hn
      obtain ⟨⟨rfl, rfl⟩, rfl⟩ := h
      rw [get?, get?_pairs ms k' hn]
      exact if_pos rfl
    | cons x a =>
      simp only [pairs, List.cons_append, List.cons.injEq] at h
      have := get?_member ms k v ⟨a, b, h.2, fun p hp => hn p (by
        rw [List.cons_append]; exact List.mem_cons_of_mem _ hp)⟩
      rw [get?, this]

theorem get_member {ms : Members} {k : Str} {v : Json} (h : Member ms k v) : get ms k = v := by
  unfold get
  rw [get?_member ms k v h]
  rfl

theorem get_missing {ms : Members} {k : Str} (h : Missing ms k) : get ms k = .null := by
  rcases h with h | h
  · unfold get
    rw [get?_pairs ms k h]
    rfl
  · exact get_member h

/-- A text or nothing as a value. -/
def ofText : Option Str → Json
  | some t => .str t
  | none => .null

theorem get_holds {ms : Members} {k : Str} {t : Option Str} (h : Holds ms k t) : get ms k = ofText t := by
  cases t with
  | some t => exact get_member h
  | none => exact get_missing h

theorem truthy_ofText (t : Option Str) : truthy (ofText t) = true ↔ ∃ s, t = some s ∧ s ≠ [] := by
  cases t with
  | none => simp [ofText, truthy]
  | some s => simp [ofText, truthy]

theorem orEmpty_ofText (t : Option Str) : orEmpty (ofText t) = .str (t.getD []) := by
  cases t with
  | none => rfl
  | some s =>
    cases s with
    | nil => rfl
    | cons c s => rfl

theorem getIn_obj (delta : Members) (k : Str) (t : Option Str) (h : Holds delta k t) :
    getIn (.obj delta) k = some (ofText t) := by
  unfold getIn
  by_cases hn : truthy (.obj delta) = true
  · rw [if_pos hn]
    exact congrArg some (get_holds h)
  · rw [if_neg hn]
    cases delta with
    | cons k v ms => exact absurd rfl hn
    | nil =>
      have := get_holds h
      rw [← this]
      rfl

/-- What `_parse_stream_event` makes of an event of OpenAI. -/
theorem openai_event (data : Members) (t r : Option Str) (h : OpenAi data t r) :
    openaiEvent data = some (if (∃ s, t = some s ∧ s ≠ []) ∨ (∃ s, r = some s ∧ s ≠ []) then
      some ⟨.str (t.getD []), get data "model".toList, ofText r⟩ else none) := by
  obtain ⟨choice, delta, rest, _, _, h1, h2, h3, h4⟩ := h
  unfold openaiEvent firstChoice
  rw [get_member h1]
  simp only
  rw [get_member h2, getIn_obj _ _ _ h3]
  simp only
  rw [get_holds h4, orEmpty_ofText]
  simp only [truthy_ofText]
  split <;> rfl

theorem isText_str (s t : Str) : isText (.str s) t = true ↔ s = t := by
  simp [isText]

end Verif.AiStream
