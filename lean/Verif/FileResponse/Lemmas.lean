import Verif.FileResponse.Spec
import Verif.Ranges.Props

/-!
# Lemmas for C20
-/

namespace Verif.FileResponse

open Verif Verif.Ranges Spec

theorem bytes_append (file : Str) (a b : List Msg) : bytes file (a ++ b) = bytes file a ++ bytes file b := by
  simp [bytes]

theorem readAt_append (file : Str) (pos a b : Nat) :
    readAt file pos a ++ readAt file (pos + a) b = readAt file pos (a + b) := by
  unfold readAt
  rw [List.take_add, List.drop_drop]

theorem readAt_length (file : Str) (pos n : Nat) (h : pos + n ≤ file.length) :
    (readAt file pos n).length = n := by
  unfold readAt
  rw [List.length_take, List.length_drop]
  omega

/-- The message constructors used for the file. -/
structure Plainly (mk : Str → Bool → Msg) : Prop where
  payload : ∀ file d m, payload file (mk d m) = d
  more : ∀ d m, more (mk d m) = m

theorem plainly_ite (b : Bool) : Plainly (if b then Msg.zerocopy else Msg.body) := by
  cases b <;> exact ⟨fun _ _ _ => rfl, fun _ _ => rfl⟩

theorem chunks_spec (mk : Str → Bool → Msg) (hmk : Plainly mk) (chunk : Nat) (hc : 0 < chunk) (sub : Bool)
    (file : Str) (fuel size pos : Nat) (hf : size < fuel) (hp : pos + size ≤ file.length) :
    ∃ init last, (chunks mk chunk sub file fuel size pos).1 = init ++ [last] ∧
      (∀ m ∈ init, more m = true) ∧ more last = sub ∧
      bytes file (init ++ [last]) = readAt file pos size ∧
      (chunks mk chunk sub file fuel size pos).2 = pos + size ∧
      ∀ m ∈ init ++ [last], (payload file m).length ≤ chunk := by
  induction fuel generalizing size pos with
  | zero => omega
  | succ fuel ih =>
    rw [chunks]
    split
    · rename_i hlt
      have hl := readAt_length file pos chunk (by omega)
      rw [hl]
      obtain ⟨init, last, h1, h2, h3, h4, h5, h6⟩ := ih (size - chunk) (pos + chunk) (by omega) (by omega)
      refine ⟨mk (readAt file pos chunk) true :: init, last, ?_, ?_, h3, ?_, ?_, ?_⟩
      · simp only [h1, List.cons_append]
      · intro m hm
        rcases List.mem_cons.1 hm with e | e
        · rw [e, hmk.more]
        · exact h2 m e
      · have : bytes file (mk (readAt file pos chunk) true :: init ++ [last]) =
            readAt file pos chunk ++ bytes file (init ++ [last]) := by
          simp [bytes, hmk.payload]
        rw [this, h4, readAt_append]
        congr 1
        omega
      · simp only [h5]
        omega
      · intro m hm
        rw [List.cons_append] at hm
        rcases List.mem_cons.1 hm with e | e
        · rw [e, hmk.payload, hl]
          exact Nat.le_refl _
        · exact h6 m e
    · rename_i hge
      have hl := readAt_length file pos size hp
      refine ⟨[], mk (readAt file pos size) sub, rfl, by simp, hmk.more _ _, ?_, ?_, ?_⟩
      · simp [bytes, hmk.payload]
      · simp only [hl]
      · intro m hm
        simp only [List.nil_append, List.mem_singleton] at hm
        rw [hm, hmk.payload, hl]
        omega

theorem slice_eq (file : Str) (r : Rng) : slice file r = readAt file r.start.toNat (sizeOf r) := rfl

theorem slice_length (file : Str) (r : Rng) (h : Within ((file.length : Int) - 1) r) :
    (slice file r).length = sizeOf r := by
  rw [slice_eq, readAt_length]
  unfold sizeOf
  unfold Within at h
  omega

/-- A single range without subheader. -/
theorem sendRanges_single (mk : Str → Bool → Msg) (hmk : Plainly mk) (chunk : Nat) (hc : 0 < chunk)
    (file : Str) (r : Rng) (h0 : 0 ≤ r.start) (h1 : r.start ≤ r.stop + 1)
    (h2 : r.stop ≤ (file.length : Int) - 1) :
    Finished (sendRanges mk chunk none file 0 0 [r]) ∧
    bytes file (sendRanges mk chunk none file 0 0 [r]) = slice file r := by
  have hpos : (if (0 : Int) ≠ r.start then r.start.toNat else 0) = r.start.toNat := by
    split
    · rfl
    · rename_i h
      have : (0 : Int) = r.start := Classical.byContradiction h
      omega
  obtain ⟨init, last, e1, e2, e3, e4, -, -⟩ := chunks_spec mk hmk chunk hc false file (sizeOf r + 1) (sizeOf r)
    r.start.toNat (by omega) (by unfold sizeOf; omega)
  have he : sendRanges mk chunk none file 0 0 [r] = init ++ [last] := by
    simp only [sendRanges, List.append_nil, List.nil_append, Option.isSome_none]
    rw [hpos, e1]
  rw [he]
  exact ⟨⟨init, last, rfl, e3, e2⟩, e4⟩

/-- Several ascending ranges with subheaders. -/
theorem sendRanges_multi (mk : Str → Bool → Msg) (hmk : Plainly mk) (chunk : Nat) (hc : 0 < chunk)
    (f : Rng → Str) (file : Str) (rs : List Rng) (lastStop : Int) (pos : Nat)
    (hw : ∀ r ∈ rs, Within ((file.length : Int) - 1) r) (hasc : Ascending rs)
    (hfirst : ∀ r ∈ rs, lastStop < r.start ∨ (lastStop = 0 ∧ pos = 0)) :
    (∀ m ∈ sendRanges mk chunk (some f) file lastStop pos rs, more m = true) ∧
    bytes file (sendRanges mk chunk (some f) file lastStop pos rs) =
      (rs.map fun r => f r ++ slice file r).flatten := by
  induction rs generalizing lastStop pos with
  | nil => exact ⟨by simp [sendRanges], rfl⟩
  | cons r rs ih =>
    unfold Ascending at hasc
    rw [List.pairwise_cons] at hasc
    have hwr := hw r (by simp)
    unfold Within at hwr
    have hpos : (if lastStop ≠ r.start then r.start.toNat else pos) = r.start.toNat := by
      rcases hfirst r (by simp) with h | h
      · rw [if_pos (by omega)]
      · split
        · rfl
        · omega
    obtain ⟨init, last, e1, e2, e3, e4, e5, -⟩ := chunks_spec mk hmk chunk hc true file (sizeOf r + 1) (sizeOf r)
      r.start.toNat (by omega) (by unfold sizeOf; omega)
    obtain ⟨i1, i2⟩ := ih r.stop (r.start.toNat + sizeOf r) (fun x hx => hw x (List.mem_cons_of_mem _ hx))
      hasc.2 (fun x hx => .inl (hasc.1 x hx))
    have he : sendRanges mk chunk (some f) file lastStop pos (r :: rs) =
        [Msg.body (f r) true] ++ (init ++ [last]) ++
          sendRanges mk chunk (some f) file r.stop (r.start.toNat + sizeOf r) rs := by
      simp only [sendRanges, Option.isSome_some]
      rw [hpos, e1, e5]
    rw [he]
    refine ⟨?_, ?_⟩
    · intro m hm
      rcases List.mem_append.1 hm with hm | hm
      · rcases List.mem_append.1 hm with hm | hm
        · simp at hm; subst hm; rfl
        · rcases List.mem_append.1 hm with hm | hm
          · exact e2 m hm
          · simp at hm; subst hm; exact e3
      · exact i1 m hm
    · rw [bytes_append, bytes_append, e4, i2, List.map_cons, List.flatten_cons, slice_eq]
      simp [bytes, payload]

end Verif.FileResponse
