import Verif.Depends.Spec

/-!
# Lemmas for C105
-/

namespace Verif.Depends

open Verif Verif.Depends.Spec

variable {V : Type}

theorem direct_iff (w : World V) (d : Inst V) : direct w d = true ↔ Direct w d := by
  unfold direct Direct
  cases d.args <;> cases d.kwargs <;> simp

theorem call_ok (w : World V) (hp : Pure w) (f : Nat) (args : List V) (kw : List (Str × V)) (st st' : St V) (v : V)
    (h : call w f args kw st = (.ok v, st')) : Gives w f args kw v ∧ st'.cache = st.cache := by
  unfold call at h
  split at h
  · rename_i ha
    split at h
    · rename_i u hr
      cases h
      exact ⟨⟨ha, (hp f _ _ args kw).trans hr⟩, rfl⟩
    · cases h
  · cases h

theorem call_gives (w : World V) (hp : Pure w) (f : Nat) (args : List V) (kw : List (Str × V)) (st : St V) (v : V)
    (h : Gives w f args kw v) : ∃ st', call w f args kw st = (.ok v, st') ∧ st'.cache = st.cache := by
  refine ⟨{ st with calls := st.calls ++ [⟨f, args, kw⟩] }, ?_, rfl⟩
  unfold call
  rw [if_pos h.1, hp f _ 0 args kw, h.2]

theorem callOver_ok (w : World V) (hp : Pure w) (ov : List (Nat × Over V)) (f : Nat) (args : List V)
    (kw : List (Str × V)) (st st' : St V) (v : V) (h : callOver w ov f args kw st = (.ok v, st')) :
    (∃ g, Called ov f g ∧ Gives w g args kw v) ∧ st'.cache = st.cache := by
  unfold callOver at h
  split at h
  · rename_i e
    obtain ⟨a, b⟩ := call_ok w hp _ _ _ _ _ _ h
    exact ⟨⟨f, .inr ⟨e, rfl⟩, a⟩, b⟩
  · rename_i g e
    obtain ⟨a, b⟩ := call_ok w hp _ _ _ _ _ _ h
    exact ⟨⟨g, .inl e, a⟩, b⟩
  · cases h

theorem callOver_gives (w : World V) (hp : Pure w) (ov : List (Nat × Over V)) (f g : Nat) (args : List V)
    (kw : List (Str × V)) (st : St V) (v : V) (hc : Called ov f g) (h : Gives w g args kw v) :
    ∃ st', callOver w ov f args kw st = (.ok v, st') ∧ st'.cache = st.cache := by
  obtain ⟨st', a, b⟩ := call_gives w hp g args kw st v h
  refine ⟨st', ?_, b⟩
  unfold callOver
  rcases hc with e | ⟨e, rfl⟩
  · rw [e]; exact a
  · rw [e]; exact a

theorem sound_cache (w : World V) (map : List (Str × Entry V)) (ov : List (Nat × Over V)) (st st' : St V)
    (h : Sound w map ov st) (e : st'.cache = st.cache) : Sound w map ov st' := by
  intro i v hv; rw [e] at hv; exact h i v hv

theorem sound_keep (w : World V) (map : List (Str × Entry V)) (ov : List (Nat × Over V)) (st : St V) (i : Nat) (v : V)
    (d : Inst V) (h : Sound w map ov st) (hv : Stands w map ov i v) :
    Sound w map ov (if d.useCache then { st with cache := aset st.cache i v } else st) := by
  split
  · intro j u hu
    have hu' : aget (aset st.cache i v) j = some u := hu
    rw [aget_aset] at hu'
    split at hu'
    · rename_i e; cases hu'; subst e; exact hv
    · exact h j u hu'
  · exact h

theorem build_sound (w : World V) (map : List (Str × Entry V)) (ov : List (Nat × Over V)) (hp : Pure w)
    (rec : Nat → St V → Out V V)
    (hr : ∀ i st v st', Sound w map ov st → rec i st = (.ok v, st') → Stands w map ov i v ∧ Sound w map ov st')
    (ps : List (Param V)) : ∀ st kw st', Sound w map ov st → build w map rec ps st = (.ok kw, st') →
      Supplied w map ov ps kw ∧ Sound w map ov st' := by
  induction ps with
  | nil => intro st kw st' hs h; cases h; exact ⟨.nil, hs⟩
  | cons p ps ih =>
    intro st kw st' hs h
    unfold build at h
    split at h
    · rename_i hk
      split at h
      · cases h
      · rename_i v st1 hv
        split at h
        · cases h
        · rename_i kw1 st2 hb
          cases h
          unfold valueOf at hv
          split at hv
          · rename_i j hd
            obtain ⟨a, b⟩ := hr _ _ _ _ hs hv
            obtain ⟨c, d⟩ := ih _ _ _ b hb
            exact ⟨.marked p ps _ j v hk hd a c, d⟩
          · rename_i hd
            split at hv
            · rename_i j hm
              obtain ⟨a, b⟩ := hr _ _ _ _ hs hv
              obtain ⟨c, d⟩ := ih _ _ _ b hb
              exact ⟨.mapped p ps _ j v hk hd hm a c, d⟩
            · rename_i g hm
              obtain ⟨a, b⟩ := call_ok w hp _ _ _ _ _ _ hv
              obtain ⟨c, d⟩ := ih _ _ _ (sound_cache _ _ _ _ _ hs b) hb
              exact ⟨.function p ps _ g v hk hd hm a c, d⟩
            · rename_i u hm
              cases hv
              obtain ⟨c, d⟩ := ih _ _ _ hs hb
              exact ⟨.given p ps _ v hk hd hm c, d⟩
            · rename_i hm
              split at hv
              · rename_i u hu
                cases hv
                obtain ⟨c, d⟩ := ih _ _ _ hs hb
                exact ⟨.default p ps _ v hk hu hm c, d⟩
              · cases hv
    · rename_i hk
      obtain ⟨c, d⟩ := ih _ _ _ hs h
      exact ⟨.variadic p ps kw hk c, d⟩

theorem resolve_sound (w : World V) (map : List (Str × Entry V)) (ov : List (Nat × Over V)) (hp : Pure w) (n : Nat) :
    ∀ i st v st', Sound w map ov st → resolve w map ov n i st = (.ok v, st') →
      Stands w map ov i v ∧ Sound w map ov st' := by
  induction n with
  | zero => intro i st v st' _ h; cases h
  | succ n ih =>
    intro i st v st' hs h
    unfold resolve at h
    split at h
    · rename_i u hu
      cases h
      split at hu
      · exact ⟨hs i v hu, hs⟩
      · cases hu
    · split at h
      · rename_i hd
        cases hc : callOver w ov (w.inst i).fn (w.inst i).args (w.inst i).kwargs st with
        | mk r st1 =>
          rw [hc] at h
          cases r with
          | error e => cases h
          | ok u =>
            cases h
            obtain ⟨⟨g, a, b⟩, c⟩ := callOver_ok w hp _ _ _ _ _ _ _ hc
            have hv : Stands w map ov i v := .direct i g v ((direct_iff _ _).1 hd) a b
            exact ⟨hv, sound_keep _ _ _ _ _ _ _ (sound_cache _ _ _ _ _ hs c) hv⟩
      · rename_i hd
        split at h
        · cases h
        · rename_i kw st0 hb
          obtain ⟨hsup, hs0⟩ := build_sound w map ov hp _ ih _ _ _ _ hs hb
          cases hc : callOver w ov (w.inst i).fn [] kw st0 with
          | mk r st1 =>
            rw [hc] at h
            cases r with
            | error e => cases h
            | ok u =>
              cases h
              obtain ⟨⟨g, a, b⟩, c⟩ := callOver_ok w hp _ _ _ _ _ _ _ hc
              have hv : Stands w map ov i v := .nested i g kw v (fun x => hd ((direct_iff _ _).2 x)) hsup a b
              exact ⟨hv, sound_keep _ _ _ _ _ _ _ (sound_cache _ _ _ _ _ hs0 c) hv⟩

theorem called_det (ov : List (Nat × Over V)) (f g g' : Nat) (h : Called ov f g) (h' : Called ov f g') : g = g' := by
  rcases h with h | ⟨h, rfl⟩ <;> rcases h' with h' | ⟨h', rfl⟩
  · rw [h] at h'; cases h'; rfl
  · rw [h] at h'; cases h'
  · rw [h] at h'; cases h'
  · rfl

theorem gives_det (w : World V) (f : Nat) (args : List V) (kw : List (Str × V)) (v v' : V) (h : Gives w f args kw v)
    (h' : Gives w f args kw v') : v = v' := Option.some.inj (h.2.symm.trans h'.2)

mutual

theorem stands_det (w : World V) (map : List (Str × Entry V)) (ov : List (Nat × Over V)) :
    ∀ {i : Nat} {v : V}, Stands w map ov i v → ∀ v', Stands w map ov i v' → v = v'
  | _, _, .direct i g v hd hc hg, v', h' => by
    cases h' with
    | direct _ g' _ _ hc' hg' =>
      cases called_det ov _ _ _ hc hc'
      exact gives_det w _ _ _ _ _ hg hg'
    | nested _ _ _ _ hn => exact absurd hd hn
  | _, _, .nested i g kw v hd hs hc hg, v', h' => by
    cases h' with
    | direct _ _ _ hn => exact absurd hn hd
    | nested _ g' kw' _ _ hs' hc' hg' =>
      cases called_det ov _ _ _ hc hc'
      cases supplied_det w map ov hs _ hs'
      exact gives_det w _ _ _ _ _ hg hg'

theorem supplied_det (w : World V) (map : List (Str × Entry V)) (ov : List (Nat × Over V)) :
    ∀ {ps : List (Param V)} {kw : List (Str × V)}, Supplied w map ov ps kw →
      ∀ kw', Supplied w map ov ps kw' → kw = kw'
  | _, _, .nil, _, h' => by cases h'; rfl
  | _, _, .variadic p ps kw hk hs, _, h' => by
    cases h' with
    | variadic _ _ _ _ hs' => exact supplied_det w map ov hs _ hs'
    | _ => contradiction
  | _, _, .marked p ps kw j v hk hd hv hs, _, h' => by
    cases h' with
    | marked _ _ _ j' v' _ hd' hv' hs' =>
      cases hd.symm.trans hd'
      rw [stands_det w map ov hv _ hv', supplied_det w map ov hs _ hs']
    | variadic _ _ _ hk' => exact absurd hk hk'
    | default _ _ _ _ _ hd' => rw [hd] at hd'; cases hd'
    | mapped _ _ _ _ _ _ hd' => exact absurd hd (hd' j)
    | function _ _ _ _ _ _ hd' => exact absurd hd (hd' j)
    | given _ _ _ _ _ hd' => exact absurd hd (hd' j)
  | _, _, .mapped p ps kw j v hk hd hm hv hs, _, h' => by
    cases h' with
    | mapped _ _ _ j' v' _ _ hm' hv' hs' =>
      cases hm.symm.trans hm'
      rw [stands_det w map ov hv _ hv', supplied_det w map ov hs _ hs']
    | variadic _ _ _ hk' => exact absurd hk hk'
    | marked _ _ _ k _ _ hd' => exact absurd hd' (hd k)
    | default _ _ _ _ _ _ hm' => rw [hm] at hm'; cases hm'
    | function _ _ _ _ _ _ _ hm' => rw [hm] at hm'; cases hm'
    | given _ _ _ _ _ _ hm' => rw [hm] at hm'; cases hm'
  | _, _, .function p ps kw g v hk hd hm hv hs, _, h' => by
    cases h' with
    | function _ _ _ g' v' _ _ hm' hv' hs' =>
      cases hm.symm.trans hm'
      rw [gives_det w _ _ _ _ _ hv hv', supplied_det w map ov hs _ hs']
    | variadic _ _ _ hk' => exact absurd hk hk'
    | marked _ _ _ k _ _ hd' => exact absurd hd' (hd k)
    | default _ _ _ _ _ _ hm' => rw [hm] at hm'; cases hm'
    | mapped _ _ _ _ _ _ _ hm' => rw [hm] at hm'; cases hm'
    | given _ _ _ _ _ _ hm' => rw [hm] at hm'; cases hm'
  | _, _, .given p ps kw v hk hd hm hs, _, h' => by
    cases h' with
    | given _ _ _ v' _ _ hm' hs' =>
      cases hm.symm.trans hm'
      rw [supplied_det w map ov hs _ hs']
    | variadic _ _ _ hk' => exact absurd hk hk'
    | marked _ _ _ k _ _ hd' => exact absurd hd' (hd k)
    | default _ _ _ _ _ _ hm' => rw [hm] at hm'; cases hm'
    | mapped _ _ _ _ _ _ _ hm' => rw [hm] at hm'; cases hm'
    | function _ _ _ _ _ _ _ hm' => rw [hm] at hm'; cases hm'
  | _, _, .default p ps kw v hk hd hm hs, _, h' => by
    cases h' with
    | default _ _ _ v' _ hd' _ hs' =>
      cases hd.symm.trans hd'
      rw [supplied_det w map ov hs _ hs']
    | variadic _ _ _ hk' => exact absurd hk hk'
    | marked _ _ _ k _ _ hd' => rw [hd] at hd'; cases hd'
    | mapped _ _ _ _ _ _ _ hm' => rw [hm] at hm'; cases hm'
    | function _ _ _ _ _ _ _ hm' => rw [hm] at hm'; cases hm'
    | given _ _ _ _ _ _ hm' => rw [hm] at hm'; cases hm'

end

theorem resolve_step (w : World V) (map : List (Str × Entry V)) (ov : List (Nat × Over V)) (n i : Nat) (st st' : St V)
    (v : V) (hs : Sound w map ov st) (hv : Stands w map ov i v)
    (h : (if direct w (w.inst i) then
        keep (w.inst i) i (callOver w ov (w.inst i).fn (w.inst i).args (w.inst i).kwargs st)
      else
        match build w map (resolve w map ov n) (w.fn (w.inst i).fn).params st with
        | (.error e, st) => (.error e, st)
        | (.ok kw, st) => keep (w.inst i) i (callOver w ov (w.inst i).fn [] kw st)) = (.ok v, st')) :
    ∃ st', resolve w map ov (n + 1) i st = (.ok v, st') := by
  unfold resolve
  split
  · rename_i u hu
    split at hu
    · cases stands_det w map ov (hs i u hu) v hv
      exact ⟨_, rfl⟩
    · cases hu
  · exact ⟨_, h⟩

theorem build_cons (w : World V) (map : List (Str × Entry V)) (rec : Nat → St V → Out V V) (p : Param V)
    (ps : List (Param V)) (st st1 st2 : St V) (v : V) (kw : List (Str × V)) (hk : p.kind = .plain)
    (hv : valueOf w map rec p st = (.ok v, st1)) (hb : build w map rec ps st1 = (.ok kw, st2)) :
    build w map rec (p :: ps) st = (.ok ((p.name, v) :: kw), st2) := by
  rw [build, if_pos hk, hv]
  dsimp only
  rw [hb]

theorem valueOf_other (w : World V) (map : List (Str × Entry V)) (rec : Nat → St V → Out V V) (p : Param V)
    (st : St V) (hd : ∀ k, p.default ≠ .dep k) : valueOf w map rec p st =
    match aget map p.name with
    | some (.dep j) => rec j st
    | some (.fn g) => call w g [] [] st
    | some (.value v) => (.ok v, st)
    | none =>
      match p.default with
      | .value v => (.ok v, st)
      | _ => (.error (.unresolved p.name), st) := by
  unfold valueOf
  split
  · rename_i j hj; exact absurd hj (hd j)
  · rfl

mutual

theorem stands_complete (w : World V) (map : List (Str × Entry V)) (ov : List (Nat × Over V)) (hp : Pure w) :
    ∀ {i : Nat} {v : V}, Stands w map ov i v → ∃ N, ∀ n, N ≤ n → ∀ st, Sound w map ov st →
      ∃ st', resolve w map ov n i st = (.ok v, st')
  | _, _, .direct i g v hd hc hg => by
    refine ⟨1, fun n hn st hs => ?_⟩
    obtain ⟨m, rfl⟩ : ∃ m, n = m + 1 := ⟨n - 1, by omega⟩
    obtain ⟨st', a, _⟩ := callOver_gives w hp ov _ g _ _ st v hc hg
    exact resolve_step w map ov m i st _ v hs (.direct i g v hd hc hg)
      (by rw [if_pos ((direct_iff _ _).2 hd), a]; rfl)
  | _, _, .nested i g kw v hd hsup hc hg => by
    obtain ⟨N, hN⟩ := supplied_complete w map ov hp hsup
    refine ⟨N + 1, fun n hn st hs => ?_⟩
    obtain ⟨m, rfl⟩ : ∃ m, n = m + 1 := ⟨n - 1, by omega⟩
    obtain ⟨st1, hb⟩ := hN m (by omega) st hs
    obtain ⟨st', a, _⟩ := callOver_gives w hp ov _ g _ _ st1 v hc hg
    exact resolve_step w map ov m i st _ v hs (.nested i g kw v hd hsup hc hg)
      (by rw [if_neg (fun x => hd ((direct_iff _ _).1 x)), hb]; dsimp only; rw [a]; rfl)

theorem supplied_complete (w : World V) (map : List (Str × Entry V)) (ov : List (Nat × Over V)) (hp : Pure w) :
    ∀ {ps : List (Param V)} {kw : List (Str × V)}, Supplied w map ov ps kw → ∃ N, ∀ n, N ≤ n → ∀ st,
      Sound w map ov st → ∃ st', build w map (resolve w map ov n) ps st = (.ok kw, st')
  | _, _, .nil => ⟨0, fun _ _ st _ => ⟨st, rfl⟩⟩
  | _, _, .variadic p ps kw hk hs => by
    obtain ⟨N, hN⟩ := supplied_complete w map ov hp hs
    refine ⟨N, fun n hn st hst => ?_⟩
    rw [build, if_neg hk]
    exact hN n hn st hst
  | _, _, .marked p ps kw j v hk hd hv hs => by
    obtain ⟨N, hN⟩ := supplied_complete w map ov hp hs
    obtain ⟨M, hM⟩ := stands_complete w map ov hp hv
    refine ⟨N + M, fun n hn st hst => ?_⟩
    obtain ⟨st1, h1⟩ := hM n (by omega) st hst
    obtain ⟨st2, h2⟩ := hN n (by omega) st1 (resolve_sound w map ov hp n _ _ _ _ hst h1).2
    exact ⟨st2, build_cons w map _ p ps st st1 st2 v kw hk (by unfold valueOf; rw [hd]; exact h1) h2⟩
  | _, _, .mapped p ps kw j v hk hd hm hv hs => by
    obtain ⟨N, hN⟩ := supplied_complete w map ov hp hs
    obtain ⟨M, hM⟩ := stands_complete w map ov hp hv
    refine ⟨N + M, fun n hn st hst => ?_⟩
    obtain ⟨st1, h1⟩ := hM n (by omega) st hst
    obtain ⟨st2, h2⟩ := hN n (by omega) st1 (resolve_sound w map ov hp n _ _ _ _ hst h1).2
    exact ⟨st2, build_cons w map _ p ps st st1 st2 v kw hk (by rw [valueOf_other w map _ p st hd, hm]; exact h1) h2⟩
  | _, _, .function p ps kw g v hk hd hm hv hs => by
    obtain ⟨N, hN⟩ := supplied_complete w map ov hp hs
    refine ⟨N, fun n hn st hst => ?_⟩
    obtain ⟨st1, h1, e⟩ := call_gives w hp g [] [] st v hv
    obtain ⟨st2, h2⟩ := hN n hn st1 (sound_cache _ _ _ _ _ hst e)
    exact ⟨st2, build_cons w map _ p ps st st1 st2 v kw hk (by rw [valueOf_other w map _ p st hd, hm]; exact h1) h2⟩
  | _, _, .given p ps kw v hk hd hm hs => by
    obtain ⟨N, hN⟩ := supplied_complete w map ov hp hs
    refine ⟨N, fun n hn st hst => ?_⟩
    obtain ⟨st2, h2⟩ := hN n hn st hst
    exact ⟨st2, build_cons w map _ p ps st st st2 v kw hk (by rw [valueOf_other w map _ p st hd, hm]) h2⟩
  | _, _, .default p ps kw v hk hd hm hs => by
    obtain ⟨N, hN⟩ := supplied_complete w map ov hp hs
    refine ⟨N, fun n hn st hst => ?_⟩
    obtain ⟨st2, h2⟩ := hN n hn st hst
    exact ⟨st2, build_cons w map _ p ps st st st2 v kw hk
      (by rw [valueOf_other w map _ p st (fun k e => by rw [hd] at e; cases e), hm]; dsimp only; rw [hd]) h2⟩

end

theorem fill_sound (w : World V) (map : List (Str × Entry V)) (ov : List (Nat × Over V)) (hp : Pure w) (n : Nat)
    (given : List (Str × V)) (ps : List (Param V)) : ∀ st kw st', Sound w map ov st →
      fill w map ov n given ps st = (.ok kw, st') → Args w map ov given ps kw := by
  induction ps with
  | nil => intro st kw st' _ h; cases h; exact .nil
  | cons p ps ih =>
    intro st kw st' hs h
    unfold fill at h
    split at h
    · cases h
    · rename_i v st1 hv
      split at h
      · cases h
      · rename_i kw1 st2 hb
        cases h
        split at hv
        · rename_i u hu
          cases hv
          exact .cons p ps v kw1 (.inl hu) (ih _ _ _ hs hb)
        · rename_i hu
          split at hv
          · rename_i j hd
            obtain ⟨a, b⟩ := resolve_sound w map ov hp n _ _ _ _ hs hv
            exact .cons p ps v kw1 (.inr ⟨hu, .inl ⟨j, hd, a⟩⟩) (ih _ _ _ b hb)
          · rename_i u hd
            cases hv
            exact .cons p ps v kw1 (.inr ⟨hu, .inr hd⟩) (ih _ _ _ hs hb)
          · cases hv

theorem fill_complete (w : World V) (map : List (Str × Entry V)) (ov : List (Nat × Over V)) (hp : Pure w)
    (given : List (Str × V)) (ps : List (Param V)) (kw : List (Str × V)) (h : Args w map ov given ps kw) :
    ∃ N, ∀ n, N ≤ n → ∀ st, Sound w map ov st → ∃ st', fill w map ov n given ps st = (.ok kw, st') := by
  induction h with
  | nil => exact ⟨0, fun _ _ st _ => ⟨st, rfl⟩⟩
  | cons p ps v kw ha _ ih =>
    obtain ⟨N, hN⟩ := ih
    rcases ha with hg | ⟨hg, ⟨j, hd, hv⟩ | hd⟩
    · refine ⟨N, fun n hn st hs => ?_⟩
      obtain ⟨st', h⟩ := hN n hn st hs
      refine ⟨st', ?_⟩
      rw [fill, hg]; dsimp only; rw [h]
    · obtain ⟨M, hM⟩ := stands_complete w map ov hp hv
      refine ⟨N + M, fun n hn st hs => ?_⟩
      obtain ⟨st1, h1⟩ := hM n (by omega) st hs
      obtain ⟨st', h⟩ := hN n (by omega) st1 (resolve_sound w map ov hp n _ _ _ _ hs h1).2
      refine ⟨st', ?_⟩
      rw [fill, hg]; dsimp only; rw [hd]; dsimp only; rw [h1]; dsimp only; rw [h]
    · refine ⟨N, fun n hn st hs => ?_⟩
      obtain ⟨st', h⟩ := hN n hn st hs
      refine ⟨st', ?_⟩
      rw [fill, hg]; dsimp only; rw [hd]; dsimp only; rw [h]

theorem keep_cached (d : Inst V) (i : Nat) (o : Out V V) (v : V) (st' : St V) (hu : d.useCache = true)
    (h : keep d i o = (.ok v, st')) : aget st'.cache i = some v := by
  obtain ⟨r, st⟩ := o
  cases r with
  | error e => cases h
  | ok u =>
    have h' : ((.ok u, if d.useCache then { st with cache := aset st.cache i u } else st) : Out V V) = (.ok v, st') := h
    rw [if_pos hu] at h'
    cases h'
    show aget (aset st.cache i v) i = some v
    rw [aget_aset, if_pos rfl]

theorem allSame_refl (same : V → V → Bool) (hr : ∀ a, same a a = true) (l : List V) : allSame same l l = true := by
  induction l with
  | nil => rfl
  | cons a l ih => rw [allSame, hr, ih]; rfl

theorem allSame_eq (same : V → V → Bool) (he : ∀ a b, same a b = true → a = b) (l : List V) :
    ∀ l', allSame same l l' = true → l = l' := by
  induction l with
  | nil => intro l' h; cases l' with | nil => rfl | cons b l' => cases h
  | cons a l ih =>
    intro l' h
    cases l' with
    | nil => cases h
    | cons b l' =>
      rw [allSame, Bool.and_eq_true] at h
      rw [he a b h.1, ih l' h.2]

theorem pairs_eq (a b : List (Str × V)) : a.map (·.1) = b.map (·.1) → a.map (·.2) = b.map (·.2) → a = b := by
  induction a generalizing b with
  | nil => intro h _; cases b with | nil => rfl | cons y b => cases h
  | cons x a ih =>
    intro h1 h2
    cases b with
    | nil => cases h1
    | cons y b =>
      rw [List.map_cons, List.map_cons] at h1 h2
      injection h1 with e1 r1
      injection h2 with e2 r2
      rw [ih b r1 r2, Prod.ext e1 e2]

theorem key_refl (same : V → V → Bool) (hr : ∀ a, same a a = true) (k : Key V) : k.same same k = true := by
  unfold Key.same
  rw [allSame_refl same hr, allSame_refl same hr]
  simp

theorem key_eq (same : V → V → Bool) (he : ∀ a b, same a b = true → a = b) (a b : Key V) (h : a.same same b = true) :
    a = b := by
  unfold Key.same at h
  simp only [Bool.and_eq_true, beq_iff_eq] at h
  obtain ⟨⟨⟨⟨h1, h2⟩, h3⟩, h4⟩, h5⟩ := h
  obtain ⟨f, x, y, u⟩ := a
  obtain ⟨f', x', y', u'⟩ := b
  have e2 : x = x' := allSame_eq same he _ _ h2
  have e3 : y = y' := pairs_eq _ _ h4 (allSame_eq same he _ _ h3)
  cases (h1 : f = f'); cases (h5 : u = u'); cases e2; cases e3; rfl

end Verif.Depends
