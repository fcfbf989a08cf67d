import Verif.Errors.Spec
import Verif.Structuring.Lemmas

/-!
# Lemmas for exceptions
-/

namespace Verif.Errors

open Verif Encoders Structuring Structuring.Spec Spec

theorem filter_told (d : Option Val) (v : Val) : d.filter (fun v => !falsy v) = some v ↔ d = some v ∧ ¬ Empty v := by
  cases d with
  | none => exact ⟨(fun h => nomatch h), (fun h => nomatch h.1)⟩
  | some x =>
    rw [Option.filter_some]
    by_cases hx : falsy x = true
    · rw [hx]
      refine ⟨(fun h => by cases h), ?_⟩
      rintro ⟨h, he⟩
      cases h
      exact absurd ((falsy_iff _).mp hx) he
    · have hf : falsy x = false := by cases h : falsy x with | true => exact absurd h hx | false => rfl
      rw [hf]
      refine ⟨fun h => ?_, fun h => h.1⟩
      cases h
      exact ⟨rfl, fun he => hx ((falsy_iff _).mpr he)⟩

theorem filter_untold (d : Option Val) (h : ¬ Told d) : d.filter (fun v => !falsy v) = none := by
  cases hd : d.filter (fun v => !falsy v) with
  | none => rfl
  | some v => exact absurd ⟨v, (filter_told d v).mp hd⟩ h

theorem detailOf_given (c : Cls) (v : Val) (h : ¬ Empty v) : detailOf c (some v) = some v := by
  unfold detailOf
  rw [(filter_told (some v) v).mpr ⟨rfl, h⟩]

theorem detailOf_class (c : Cls) (d : Option Val) (v : Val) (hd : ¬ Told d) (hc : c.detail = some v) (h : ¬ Empty v) :
    detailOf c d = some v := by
  unfold detailOf
  rw [filter_untold d hd]
  exact (filter_told _ v).mpr ⟨hc, h⟩

theorem detailOf_none (c : Cls) (d : Option Val) (hd : ¬ Told d) (hc : ¬ Told c.detail) : detailOf c d = none := by
  unfold detailOf
  rw [filter_untold d hd]
  exact filter_untold _ hc

/-! ## Details -/

mutual

theorem details_detail (L : Lib) (decode : Str → Option Str) : ∀ (v w : Val), details L decode v = some w → Detail w
  | .list vs, w, h => by
    rw [details] at h
    obtain ⟨ws, hw, rfl⟩ := Option.map_eq_some_iff.mp h
    exact .list ws (detailsAll_detail L decode vs ws hw)
  | .tuple vs, w, h => by
    rw [details] at h
    obtain ⟨ws, hw, rfl⟩ := Option.map_eq_some_iff.mp h
    exact .list ws (detailsAll_detail L decode vs ws hw)
  | .named c fs, w, h => by
    rw [details] at h
    obtain ⟨ws, hw, rfl⟩ := Option.map_eq_some_iff.mp h
    exact .list ws (detailsFields_detail L decode fs ws hw)
  | .dict fs, w, h => by
    rw [details] at h
    obtain ⟨ws, hw, rfl⟩ := Option.map_eq_some_iff.mp h
    exact .dict ws (detailsDict_detail L decode fs ws hw)
  | .str s, w, h => by rw [details] at h; cases h; exact .text _
  | .null, w, h => by rw [details] at h; cases h; exact .text _
  | .bool b, w, h => by rw [details] at h; cases h; exact .text _
  | .int n, w, h => by rw [details] at h; cases h; exact .text _
  | .set vs, w, h => by rw [details] at h; cases h; exact .text _
  | .enum c v, w, h => by rw [details] at h; cases h; exact .text _
  | .data c fs, w, h => by rw [details] at h; cases h; exact .text _
  | .atom k x, w, h => by
    rw [details] at h
    split at h
    · obtain ⟨s, _, rfl⟩ := Option.map_eq_some_iff.mp h
      exact .text _
    · cases h; exact .text _

theorem detailsAll_detail (L : Lib) (decode : Str → Option Str) : ∀ (vs ws : Vals), detailsAll L decode vs = some ws →
    DetailAll ws
  | .nil, ws, h => by rw [detailsAll] at h; cases h; exact .nil
  | .cons v vs, ws, h => by
    rw [detailsAll] at h
    split at h
    · rename_i w ws' h1 h2
      cases h
      exact .cons w ws' (details_detail L decode v w h1) (detailsAll_detail L decode vs ws' h2)
    · cases h

theorem detailsFields_detail (L : Lib) (decode : Str → Option Str) : ∀ (fs : Fields) (ws : Vals),
    detailsFields L decode fs = some ws → DetailAll ws
  | .nil, ws, h => by rw [detailsFields] at h; cases h; exact .nil
  | .cons k v fs, ws, h => by
    rw [detailsFields] at h
    split at h
    · rename_i w ws' h1 h2
      cases h
      exact .cons w ws' (details_detail L decode v w h1) (detailsFields_detail L decode fs ws' h2)
    · cases h

theorem detailsDict_detail (L : Lib) (decode : Str → Option Str) : ∀ (fs gs : Fields),
    detailsDict L decode fs = some gs → DetailFields gs
  | .nil, gs, h => by rw [detailsDict] at h; cases h; exact .nil
  | .cons k v fs, gs, h => by
    rw [detailsDict] at h
    split at h
    · rename_i w ws' h1 h2
      cases h
      exact .cons k w ws' (details_detail L decode v w h1) (detailsDict_detail L decode fs ws' h2)
    · cases h

end

mutual

theorem details_self (L : Lib) (decode : Str → Option Str) : ∀ v : Val, Detail v → details L decode v = some v
  | .str s, _ => by rw [details]
  | .list vs, h => by
    cases h with
    | list _ h => rw [details, detailsAll_self L decode vs h]; rfl
  | .dict fs, h => by
    cases h with
    | dict _ h => rw [details, detailsDict_self L decode fs h]; rfl
  | .tuple vs, h => by cases h
  | .named c fs, h => by cases h
  | .null, h => by cases h
  | .bool b, h => by cases h
  | .int n, h => by cases h
  | .set vs, h => by cases h
  | .enum c v, h => by cases h
  | .data c fs, h => by cases h
  | .atom k x, h => by cases h

theorem detailsAll_self (L : Lib) (decode : Str → Option Str) : ∀ vs : Vals, DetailAll vs →
    detailsAll L decode vs = some vs
  | .nil, _ => by rw [detailsAll]
  | .cons v vs, h => by
    cases h with
    | cons _ _ h hs => rw [detailsAll, details_self L decode v h, detailsAll_self L decode vs hs]

theorem detailsDict_self (L : Lib) (decode : Str → Option Str) : ∀ fs : Fields, DetailFields fs →
    detailsDict L decode fs = some fs
  | .nil, _ => by rw [detailsDict]
  | .cons k v fs, h => by
    cases h with
    | cons _ _ _ h hs => rw [detailsDict, details_self L decode v h, detailsDict_self L decode fs hs]

end

theorem detailsAll_get (L : Lib) (decode : Str → Option Str) : ∀ (vs ws : Vals), detailsAll L decode vs = some ws →
    ∀ (i : Nat) (v : Val), vs.toList[i]? = some v → ∃ w, ws.toList[i]? = some w ∧ details L decode v = some w
  | .nil, ws, h, i, v, hv => by rw [Vals.toList] at hv; cases hv
  | .cons x vs, ws, h, i, v, hv => by
    rw [detailsAll] at h
    split at h
    · rename_i w ws' h1 h2
      cases h
      cases i with
      | zero => cases hv; exact ⟨w, rfl, h1⟩
      | succ i => exact detailsAll_get L decode vs ws' h2 i v hv
    · cases h

theorem detailsFields_get (L : Lib) (decode : Str → Option Str) : ∀ (fs : Fields) (ws : Vals),
    detailsFields L decode fs = some ws →
    ∀ (i : Nat) (v : Val), (fs.toList.map (·.2))[i]? = some v → ∃ w, ws.toList[i]? = some w ∧ details L decode v =
        some w
  | .nil, ws, h, i, v, hv => by rw [Fields.toList] at hv; cases hv
  | .cons k x fs, ws, h, i, v, hv => by
    rw [detailsFields] at h
    split at h
    · rename_i w ws' h1 h2
      cases h
      cases i with
      | zero => cases hv; exact ⟨w, rfl, h1⟩
      | succ i => exact detailsFields_get L decode fs ws' h2 i v hv
    · cases h

theorem detailsDict_get (L : Lib) (decode : Str → Option Str) : ∀ (fs gs : Fields), detailsDict L decode fs = some gs →
    ∀ (k : Str) (v : Val), aget fs.toList k = some v → ∃ w, aget gs.toList k = some w ∧ details L decode v = some w
  | .nil, gs, h, k, v, hv => by rw [Fields.toList] at hv; cases hv
  | .cons j x fs, gs, h, k, v, hv => by
    rw [detailsDict] at h
    split at h
    · rename_i w gs' h1 h2
      cases h
      rw [Fields.toList, aget] at hv ⊢
      by_cases hj : j = k
      · rw [if_pos hj] at hv ⊢
        cases hv
        exact ⟨w, rfl, h1⟩
      · rw [if_neg hj] at hv ⊢
        exact detailsDict_get L decode fs gs' h2 k v hv
    · cases h

theorem details_single (L : Lib) (decode : Str → Option Str) (v w : Val) (hv : Single v)
    (h : details L decode v = some w) : ∃ t, w = .str t ∧ Reads L decode v t := by
  cases v with
  | list => cases hv
  | tuple => cases hv
  | named => cases hv
  | dict => cases hv
  | atom k x =>
    rw [details] at h
    split at h
    · rename_i hk
      subst hk
      obtain ⟨s, hs, rfl⟩ := Option.map_eq_some_iff.mp h
      exact ⟨s, rfl, hs⟩
    · rename_i hk
      cases h
      refine ⟨_, rfl, ?_⟩
      cases k with
      | bytes => exact absurd rfl hk
      | _ => rfl
  | _ => rw [details] at h; cases h; exact ⟨_, rfl, rfl⟩

end Verif.Errors
