import Verif.Markers.Spec

/-!
# Lemmas for C106
-/

namespace Verif.Markers

open Verif Verif.Markers.Spec

variable {V : Type}

theorem call_ok (w : World V) (hp : Pure w) (f : Nat) (args : List V) (kw : List (Str × V)) (log log' : List Nat)
    (v : V) (h : call w f args kw log = (.ok v, log')) : Gives w f args kw v ∧ log' = log ++ [f] := by
  unfold call at h
  split at h
  · rename_i ha
    split at h
    · rename_i u hr
      cases h
      exact ⟨⟨ha, (hp f _ _ args kw).trans hr⟩, rfl⟩
    · cases h
  · cases h

theorem call_gives (w : World V) (hp : Pure w) (f : Nat) (args : List V) (kw : List (Str × V)) (log : List Nat)
    (v : V) (h : Gives w f args kw v) : call w f args kw log = (.ok v, log ++ [f]) := by
  unfold call
  rw [if_pos h.1, hp f _ 0 args kw, h.2]

theorem secure_ok (w : World V) (hp : Pure w) (f : Nat) (log log' : List Nat) (v : V)
    (h : secure w f log = (.ok v, log')) : Gives w f [w.request] [] v := by
  unfold secure at h
  split at h
  · rename_i u l hc
    split at h
    · cases h
    · cases h; exact (call_ok w hp _ _ _ _ _ _ hc).1
  · cases h

theorem secure_gives (w : World V) (hp : Pure w) (f : Nat) (log : List Nat) (v : V) (hk : (w.fn f).kind ≠ .sync)
    (h : Gives w f [w.request] [] v) : secure w f log = (.ok v, log ++ [f]) := by
  unfold secure
  rw [call_gives w hp f _ _ log v h]
  exact if_neg hk

theorem feed_ok (w : World V) (hp : Pure w) (rec : Nat → List Nat → Out V) (ps : List (Param V))
    (hr : ∀ p ∈ ps, ∀ g args c, p.default = .resolve g args c → ∀ log v log', rec g log = (.ok v, log') →
      Stands w g v) : ∀ log kw log', feed w rec ps log = (.ok kw, log') → Fed w ps kw := by
  induction ps with
  | nil => intro log kw log' h; cases h; exact .nil
  | cons p ps ih =>
    intro log kw log' h
    have ih' := ih fun q hq => hr q (List.mem_cons_of_mem _ hq)
    unfold feed at h
    split at h
    · rename_i hd; exact .plain p ps kw (.inl hd) (ih' _ _ _ h)
    · rename_i u hd; exact .plain p ps kw (.inr ⟨u, hd⟩) (ih' _ _ _ h)
    · rename_i g args c hd
      split at h
      · cases h
      · rename_i v l hv
        split at h
        · cases h
        · rename_i kw1 l2 hb
          cases h
          exact .resolve p ps kw1 g args c v hd (hr p List.mem_cons_self g args c hd _ _ _ hv) (ih' _ _ _ hb)
    · rename_i g hd
      split at h
      · cases h
      · rename_i v l hv
        split at h
        · cases h
        · rename_i kw1 l2 hb
          cases h
          exact .security p ps kw1 g v hd (secure_ok w hp _ _ _ _ hv) (ih' _ _ _ hb)

theorem resolve_ok (w : World V) (hp : Pure w) (hu : Usual w) (n : Nat) : ∀ f log v log',
    (w.fn f).kind ≠ .asyncObject → resolve w n f log = (.ok v, log') → Stands w f v := by
  induction n with
  | zero => intro f log v log' _ h; cases h
  | succ n ih =>
    intro f log v log' hk h
    unfold resolve at h
    split at h
    · cases h
    · rename_i kw l hf
      have hfed : Fed w (w.fn f).params kw := feed_ok w hp _ _
        (fun p hpm g args c hd log v log' hh => ih g log v log' (hu.2 f p g args c hpm hd) hh) _ _ _ hf
      unfold finalCall at h
      rw [if_neg hk] at h
      exact .mk f kw v hfed (call_ok w hp _ _ _ _ _ _ h).1

mutual

theorem stands_complete (w : World V) (hp : Pure w) (hu : Usual w) : ∀ {f : Nat} {v : V}, Stands w f v →
    (w.fn f).kind ≠ .asyncObject → ∃ N, ∀ n, N ≤ n → ∀ log, ∃ log', resolve w n f log = (.ok v, log')
  | _, _, .mk f kw v hf hg, hk => by
    obtain ⟨N, hN⟩ := fed_complete w hp hu hf (fun p hpm g hd => hu.1 f p g hpm hd)
      (fun p hpm g args c hd => hu.2 f p g args c hpm hd)
    refine ⟨N + 1, fun n hn log => ?_⟩
    obtain ⟨m, rfl⟩ : ∃ m, n = m + 1 := ⟨n - 1, by omega⟩
    obtain ⟨log1, h1⟩ := hN m (by omega) log
    refine ⟨log1 ++ [f], ?_⟩
    rw [resolve, h1]
    show finalCall w f kw log1 = _
    unfold finalCall
    rw [if_neg hk]
    exact call_gives w hp f [] kw log1 v hg

theorem fed_complete (w : World V) (hp : Pure w) (hu : Usual w) : ∀ {ps : List (Param V)} {kw : List (Str × V)},
    Fed w ps kw → (∀ p ∈ ps, ∀ g, p.default = .security g → (w.fn g).kind ≠ .sync) →
    (∀ p ∈ ps, ∀ g args c, p.default = .resolve g args c → (w.fn g).kind ≠ .asyncObject) →
    ∃ N, ∀ n, N ≤ n → ∀ log, ∃ log', feed w (resolve w n) ps log = (.ok kw, log')
  | _, _, .nil, _, _ => ⟨0, fun _ _ log => ⟨log, rfl⟩⟩
  | _, _, .plain p ps kw hd hf, h1, h2 => by
    obtain ⟨N, hN⟩ := fed_complete w hp hu hf (fun q hq => h1 q (List.mem_cons_of_mem _ hq))
      (fun q hq => h2 q (List.mem_cons_of_mem _ hq))
    refine ⟨N, fun n hn log => ?_⟩
    rcases hd with hd | ⟨u, hd⟩ <;> rw [feed, hd] <;> exact hN n hn log
  | _, _, .resolve p ps kw g args c v hd hv hf, h1, h2 => by
    obtain ⟨N, hN⟩ := fed_complete w hp hu hf (fun q hq => h1 q (List.mem_cons_of_mem _ hq))
      (fun q hq => h2 q (List.mem_cons_of_mem _ hq))
    obtain ⟨M, hM⟩ := stands_complete w hp hu hv (h2 p List.mem_cons_self g args c hd)
    refine ⟨N + M, fun n hn log => ?_⟩
    obtain ⟨l1, e1⟩ := hM n (by omega) log
    obtain ⟨l2, e2⟩ := hN n (by omega) l1
    refine ⟨l2, ?_⟩
    rw [feed, hd]; dsimp only; rw [e1]; dsimp only; rw [e2]
  | _, _, .security p ps kw g v hd hv hf, h1, h2 => by
    obtain ⟨N, hN⟩ := fed_complete w hp hu hf (fun q hq => h1 q (List.mem_cons_of_mem _ hq))
      (fun q hq => h2 q (List.mem_cons_of_mem _ hq))
    refine ⟨N, fun n hn log => ?_⟩
    obtain ⟨l2, e2⟩ := hN n hn (log ++ [g])
    refine ⟨l2, ?_⟩
    rw [feed, hd]; dsimp only
    rw [secure_gives w hp g log v (h1 p List.mem_cons_self g hd) hv]; dsimp only; rw [e2]

end

mutual

theorem stands_det (w : World V) : ∀ {f : Nat} {v : V}, Stands w f v → ∀ v', Stands w f v' → v = v'
  | _, _, .mk f kw v hf hg, v', h' => by
    cases h' with
    | mk _ kw' _ hf' hg' =>
      cases fed_det w hf _ hf'
      exact Option.some.inj (hg.2.symm.trans hg'.2)

theorem fed_det (w : World V) : ∀ {ps : List (Param V)} {kw : List (Str × V)}, Fed w ps kw →
    ∀ kw', Fed w ps kw' → kw = kw'
  | _, _, .nil, _, h' => by cases h'; rfl
  | _, _, .plain p ps kw hd hf, _, h' => by
    cases h' with
    | plain _ _ _ _ hf' => exact fed_det w hf _ hf'
    | resolve _ _ _ g args c v' hd' => rcases hd with hd | ⟨u, hd⟩ <;> rw [hd] at hd' <;> cases hd'
    | security _ _ _ g v' hd' => rcases hd with hd | ⟨u, hd⟩ <;> rw [hd] at hd' <;> cases hd'
  | _, _, .resolve p ps kw g args c v hd hv hf, _, h' => by
    cases h' with
    | plain _ _ _ hd' => rcases hd' with hd' | ⟨u, hd'⟩ <;> rw [hd] at hd' <;> cases hd'
    | resolve _ _ _ g' args' c' v' hd' hv' hf' =>
      cases hd.symm.trans hd'
      rw [stands_det w hv _ hv', fed_det w hf _ hf']
    | security _ _ _ g v' hd' => rw [hd] at hd'; cases hd'
  | _, _, .security p ps kw g v hd hv hf, _, h' => by
    cases h' with
    | plain _ _ _ hd' => rcases hd' with hd' | ⟨u, hd'⟩ <;> rw [hd] at hd' <;> cases hd'
    | resolve _ _ _ g' args' c' v' hd' => rw [hd] at hd'; cases hd'
    | security _ _ _ g' v' hd' hv' hf' =>
      cases hd.symm.trans hd'
      rw [Option.some.inj (hv.2.symm.trans hv'.2), fed_det w hf _ hf']

end

theorem provideArgs_ok (w : World V) (n f : Nat) (v : V) (ps : List (Param V)) (kw : List (Str × V))
    (hr : ∀ log, ∃ log', resolve w n f log = (.ok v, log')) (h : AllWith v ps kw) :
    ∀ log, ∃ log', provideArgs w n f ps log = (.ok kw, log') := by
  induction h with
  | nil => exact fun log => ⟨log, rfl⟩
  | plain p ps kw hm _ ih =>
    intro log
    obtain ⟨l, e⟩ := ih log
    refine ⟨l, ?_⟩
    rw [provideArgs]
    cases hd : p.default with
    | none => exact e
    | value u => exact e
    | resolve g args c => exact absurd (.inl ⟨g, args, c, hd⟩) hm
    | security g => exact absurd (.inr ⟨g, hd⟩) hm
  | marked p ps kw hm _ ih =>
    intro log
    obtain ⟨l1, e1⟩ := hr log
    obtain ⟨l2, e2⟩ := ih l1
    refine ⟨l2, ?_⟩
    rw [provideArgs]
    rcases hm with ⟨g, args, c, hd⟩ | ⟨g, hd⟩ <;> rw [hd] <;> dsimp only <;> rw [e1] <;> dsimp only <;> rw [e2]

theorem allWith_exists (v : V) (ps : List (Param V)) : ∃ kw, AllWith v ps kw := by
  induction ps with
  | nil => exact ⟨[], .nil⟩
  | cons p ps ih =>
    obtain ⟨kw, h⟩ := ih
    by_cases hm : Marked p
    · exact ⟨_, .marked p ps kw hm h⟩
    · exact ⟨_, .plain p ps kw hm h⟩

end Verif.Markers
