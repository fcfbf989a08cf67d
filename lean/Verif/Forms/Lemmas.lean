import Verif.Forms.Spec
import Verif.Url.Lemmas

/-!
# Lemmas about URL-encoded forms
-/

namespace Verif.Forms

open Verif Verif.Url Spec

theorem scan_eq (acc s : Str) (h : '&' ∉ acc) : (scan acc s).1 ++ [(scan acc s).2] = splitOn '&' (acc ++ s) := by
  induction s generalizing acc with
  | nil => simp [scan, splitOn_of_not_mem _ _ h]
  | cons c cs ih =>
    unfold scan
    split
    · rename_i hc
      subst hc
      rw [splitOn_append_sep _ _ _ h]
      have := ih [] (by simp)
      simp only [List.nil_append] at this
      simp [this]
    · rename_i hc
      rw [ih (acc ++ [c]) (by simp [h]; exact fun e => hc e.symm)]
      simp

theorem scan_rest (acc s : Str) (h : '&' ∉ acc) : '&' ∉ (scan acc s).2 := by
  have := scan_eq acc s h
  exact splitOn_no_sep '&' (acc ++ s) _ (by rw [← this]; simp)

theorem flush_foldl (f : Fields) (raw : Str) :
    ((flush raw).foldl Fields.on f).items = f.items ++ [item raw] := by
  unfold flush dataCb item
  split <;> split <;> simp_all [Fields.on]

theorem flushes_foldl (f : Fields) (raws : List Str) :
    ((raws.flatMap flush).foldl Fields.on f).items = f.items ++ raws.map item := by
  induction raws generalizing f with
  | nil => simp
  | cons r rs ih =>
    rw [List.flatMap_cons, List.foldl_append, ih, flush_foldl]
    simp

/-- The items of the raw fields that end in `&`, and of the rest. -/
theorem finalize_foldl (p : Parser) (f : Fields) :
    (p.finalize.foldl Fields.on f).items = f.items ++ (if p.buffer = [] then [] else [item p.buffer]) := by
  unfold Parser.finalize
  split
  · simp [Fields.on]
  · rw [List.foldl_append]
    show ((flush p.buffer).foldl Fields.on f).items = _
    exact flush_foldl _ _

/-- What the pieces of the buffer and the bytes still accepted give. -/
def outcome (pieces : List Str) : List (Str × Str) :=
  (if pieces.getLast? = some [] then pieces.dropLast else pieces).map item

theorem outcome_snoc (l : List Str) (x : Str) :
    outcome (l ++ [x]) = l.map item ++ (if x = [] then [] else [item x]) := by
  unfold outcome
  by_cases hx : x = []
  · simp [hx]
  · simp [hx]

/-- The bytes a parser still accepts. -/
def Parser.accepted (p : Parser) (s : Str) : Str :=
  match p.maxSize with
  | none => s
  | some m => s.take (m - p.consumed)

theorem room_take (p : Parser) (c t : Str) :
    p.accepted (c ++ t) = c.take (p.room c.length) ++
      ({ p with consumed := p.consumed + p.room c.length } : Parser).accepted t := by
  unfold Parser.accepted Parser.room
  cases p.maxSize with
  | none => simp
  | some m =>
    dsimp only
    rw [List.take_append]
    split
    · rename_i h
      rw [show m - (p.consumed + (m - p.consumed)) = 0 by omega, show m - p.consumed - c.length = 0 by omega]
    · rename_i h
      rw [List.take_of_length_le (by omega), List.take_length]
      congr 2
      omega

theorem loop_chunks (chunks : List Str) (hne : ∀ c ∈ chunks, c ≠ []) (p : Parser) (f : Fields)
    (hb : '&' ∉ p.buffer) :
    (loop p f (chunks ++ [[]])).items =
      f.items ++ outcome (splitOn '&' (p.buffer ++ p.accepted chunks.flatten)) := by
  induction chunks generalizing p f with
  | nil =>
    have hacc : p.accepted [] = [] := by unfold Parser.accepted; split <;> simp
    simp only [List.nil_append, List.flatten_nil]
    rw [hacc, List.append_nil, splitOn_of_not_mem _ _ hb]
    have := outcome_snoc [] p.buffer
    simp only [List.nil_append, List.map_nil] at this
    rw [this]
    simp only [loop, if_true]
    exact finalize_foldl p f
  | cons c cs ih =>
    have hne' : ∀ c ∈ cs, c ≠ [] := fun x hx => hne x (List.mem_cons_of_mem _ hx)
    have hc : c ≠ [] := hne c (List.mem_cons_self ..)
    have hroom := room_take p c cs.flatten
    simp only [List.cons_append, loop, if_neg hc, List.flatten_cons]
    rw [hroom]
    unfold Parser.write
    split
    · rename_i h0
      rw [show ((p, ([] : List Cb)).2.foldl Fields.on f) = f from rfl, ih hne' p f hb, h0]
      simp
    · rw [ih hne' _ _ (scan_rest [] _ (by simp)), flushes_foldl, List.append_assoc]
      congr 1
      have h1 := scan_eq [] (p.buffer ++ c.take (p.room c.length)) (by simp)
      simp only [List.nil_append] at h1
      have hacc : ∀ x : Str, ({ p with consumed := p.consumed + p.room c.length, buffer := x } : Parser).accepted
          cs.flatten = ({ p with consumed := p.consumed + p.room c.length } : Parser).accepted cs.flatten :=
        fun _ => rfl
      dsimp only
      rw [hacc]
      generalize ({ p with consumed := p.consumed + p.room c.length } : Parser).accepted cs.flatten = t
      generalize hr : scan [] (p.buffer ++ c.take (p.room c.length)) = r at h1 ⊢
      have hsplit : splitOn '&' (p.buffer ++ (c.take (p.room c.length) ++ t)) =
          r.1 ++ splitOn '&' (r.2 ++ t) := by
        rw [← List.append_assoc]
        have h2 : p.buffer ++ c.take (p.room c.length) = joinWith ['&'] (r.1 ++ [r.2]) := by
          rw [h1, joinWith_splitOn]
        have hno : ∀ x ∈ r.1, '&' ∉ x := by
          intro x hx
          exact splitOn_no_sep '&' _ x (by rw [← h1]; simp [hx])
        rw [h2]
        generalize r.2 = last
        revert hno
        generalize r.1 = l
        intro hno
        induction l with
        | nil => simp [joinWith]
        | cons a l ih2 =>
          have hj : joinWith ['&'] (a :: l ++ [last]) = a ++ '&' :: joinWith ['&'] (l ++ [last]) := by
            cases l <;> simp [joinWith]
          rw [hj, List.append_assoc, List.cons_append, splitOn_append_sep _ _ _ (hno a (by simp)),
            ih2 (fun x hx => hno x (by simp [hx]))]
          simp
      rw [hsplit]
      have hlast : ∃ l x, splitOn '&' (r.2 ++ t) = l ++ [x] := by
        rcases List.eq_nil_or_concat (splitOn '&' (r.2 ++ t)) with h | ⟨l, x, h⟩
        · exact absurd h (splitOn_ne_nil _ _)
        · exact ⟨l, x, by rw [h, List.concat_eq_append]⟩
      obtain ⟨l, x, hlx⟩ := hlast
      rw [hlx, ← List.append_assoc, outcome_snoc, outcome_snoc]
      simp

/-! ### Decoding -/

theorem encodes_not_mem {s e : Str} (h : Encodes s e) : '&' ∉ e ∧ '=' ∉ e := by
  induction h with
  | nil => simp
  | plain c s e hc _ ih =>
    refine ⟨?_, ?_⟩
    · intro hm
      rcases List.mem_cons.1 hm with h | h
      · exact hc.2.2.1 h.symm
      · exact ih.1 h
    · intro hm
      rcases List.mem_cons.1 hm with h | h
      · exact hc.2.2.2 h.symm
      · exact ih.2 h
  | space s e _ ih =>
    refine ⟨?_, ?_⟩
    · intro hm
      rcases List.mem_cons.1 hm with h | h
      · exact absurd h (by decide)
      · exact ih.1 h
    · intro hm
      rcases List.mem_cons.1 hm with h | h
      · exact absurd h (by decide)
      · exact ih.2 h
  | escape x y a b s e ha hb _ ih =>
    have hamp : hexVal '&' = none := by decide
    have heq : hexVal '=' = none := by decide
    refine ⟨?_, ?_⟩
    · intro hm
      simp only [List.mem_cons] at hm
      rcases hm with h | h | h | h
      · exact absurd h (by decide)
      · rw [← h, hamp] at ha; cases ha
      · rw [← h, hamp] at hb; cases hb
      · exact ih.1 h
    · intro hm
      simp only [List.mem_cons] at hm
      rcases hm with h | h | h | h
      · exact absurd h (by decide)
      · rw [← h, heq] at ha; cases ha
      · rw [← h, heq] at hb; cases hb
      · exact ih.2 h

/-- The first decoding leaves `+` in place of some spaces. -/
theorem unquote_encodes {s e : Str} (h : Encodes s e) :
    (unquote e).map (fun c => if c = '+' then ' ' else c) = s.map (fun c => if c = '+' then ' ' else c) := by
  induction h with
  | nil => rfl
  | plain c s e hc _ ih => rw [unquote_cons_ne _ _ hc.1]; simp [ih]
  | space s e _ ih => rw [unquote_cons_ne _ _ (by decide)]; simp [ih]
  | escape x y a b s e ha hb _ ih => rw [unquote_escape _ _ _ _ _ ha hb]; simp only [List.map_cons, ih]

theorem decode_encodes {s e : Str} (h : Encodes s e) : unquotePlus (unquote e) = unquotePlus s := by
  unfold unquotePlus
  rw [unquote_encodes h]

theorem item_encodes {n v en ev : Str} (hn : Encodes n en) (hv : Encodes v ev) :
    item (en ++ '=' :: ev) = (unquotePlus n, unquotePlus v) := by
  unfold item
  rw [partition_append _ _ _ (encodes_not_mem hn).2]
  simp [decode_encodes hn, decode_encodes hv]

theorem unquote_id (s : Str) (h : '%' ∉ s) : unquote s = s := by
  induction s with
  | nil => rfl
  | cons c cs ih =>
    simp only [List.mem_cons, not_or] at h
    rw [unquote_cons_ne _ _ (fun e => h.1 e.symm), ih h.2]

theorem unquotePlus_id (s : Str) (h1 : '%' ∉ s) (h2 : '+' ∉ s) : unquotePlus s = s := by
  unfold unquotePlus
  have : s.map (fun c => if c = '+' then ' ' else c) = s := by
    induction s with
    | nil => rfl
    | cons c cs ih =>
      simp only [List.mem_cons, not_or] at h1 h2
      simp only [List.map_cons, ih h1.2 h2.2]
      rw [if_neg (fun e => h2.1 e.symm)]
  rw [this, unquote_id s h1]

theorem encodesForm_items {ps : List (Str × Str)} {es : List Str} (h : EncodesForm ps es) :
    es.map item = ps.map (fun kv => (unquotePlus kv.1, unquotePlus kv.2)) ∧
      (∀ x ∈ es, '&' ∉ x ∧ x ≠ []) := by
  induction h with
  | nil => simp
  | cons n v en ev ps es hn hv _ ih =>
    refine ⟨by simp [item_encodes hn hv, ih.1], ?_⟩
    intro x hx
    rcases List.mem_cons.1 hx with rfl | hx
    · refine ⟨?_, by simp⟩
      simp only [List.mem_append, List.mem_cons, not_or]
      exact ⟨(encodes_not_mem hn).1, by decide, (encodes_not_mem hv).1⟩
    · exact ih.2 x hx

/-- `quote_plus` is one of the encodings. -/
theorem encodes_quotePlus (s : Str) (h : Bytes s) : Encodes s (quotePlus s) := by
  induction s with
  | nil => exact .nil
  | cons c cs ih =>
    have ih := ih fun x hx => h x (List.mem_cons_of_mem _ hx)
    have hc := h c (List.mem_cons_self ..)
    unfold quotePlus at ih ⊢
    rw [quote]
    by_cases hs : c = ' '
    · subst hs
      simp only [decide_true, Bool.or_true, if_true, List.map_cons]
      exact .space _ _ ih
    · by_cases ha : alwaysSafe c = true
      · simp only [ha, Bool.true_or, if_true, List.map_cons, if_neg hs]
        refine .plain c _ _ ⟨?_, ?_, ?_, ?_⟩ ih <;> (rintro rfl; revert ha; decide)
      · simp only [ha, hs, decide_false, Bool.or_self, Bool.false_eq_true, if_false, List.map_cons]
        have h1 : ∀ n < 16, (if hexDigit n = ' ' then '+' else hexDigit n) = hexDigit n := by decide
        rw [h1 _ (by omega), h1 _ (by omega), if_neg (by decide)]
        have := Encodes.escape (c.toNat / 16) (c.toNat % 16) _ _ _ _
          (hexVal_hexDigit _ (by omega)) (hexVal_hexDigit _ (by omega)) ih
        rw [Nat.div_add_mod, Char.ofNat_toNat] at this
        exact this

end Verif.Forms
