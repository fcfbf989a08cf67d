import Verif.Override.Spec

/-!
# Lemmas about blocks of settings
-/

namespace Verif.Override

open Verif Verif.Override.Spec

variable {V : Type} {cls : Class V} {opts : Nat → List (Str × V)}

theorem aget_mem {o : List (Str × V)} {k : Str} {v : V} (h : aget o k = some v) : (k, v) ∈ o := by
  induction o with
  | nil => exact nomatch h
  | cons kv o ih =>
    obtain ⟨k', v'⟩ := kv
    unfold aget at h
    split at h
    · rename_i e
      cases h
      rw [e]
      exact List.mem_cons_self
    · exact List.mem_cons_of_mem _ (ih h)

theorem made_replaced {o : List (Str × V)} {s : Settings V} (ho : Overridable cls o) (hs : Made cls s) :
    Made cls (replaced o s) := by
  constructor
  · intro k hk v hv
    unfold replaced
    cases h : aget o k with
    | none => exact hs.1 k hk v hv
    | some w =>
      have := (ho _ (aget_mem h)).2.2
      rw [hv] at this
      exact nomatch this
  · intro k hk
    unfold replaced
    cases h : aget o k with
    | none => exact hs.2 k hk
    | some w => exact absurd (ho _ (aget_mem h)).1 hk

theorem derive_eq {o : List (Str × V)} {s : Settings V} (ho : Overridable cls o) (hs : Made cls s) :
    derive cls o s = some (replaced o s) := by
  have h : o.any (fun kv => cls.props.contains kv.1) = false := by
    rw [List.any_eq_false]
    intro kv hkv h
    exact (ho kv hkv).2.1 (by simpa using h)
  unfold derive
  rw [h, if_neg (by decide)]
  refine congrArg some (funext fun k => ?_)
  unfold replaced
  split
  · rename_i hk
    split
    · rename_i v hv
      exact ((made_replaced ho hs).1 k hk v hv).symm
    · rfl
  · rename_i hk
    rw [hs.2 k hk]

theorem made_under {base : Settings V} (ho : ∀ o, Overridable cls (opts o)) (hb : Made cls base) (l : List Nat) :
    Made cls (under opts base l) := by
  induction l with
  | nil => exact hb
  | cons o l ih => exact made_replaced (ho o) ih

/-- The managers of a stack are open and restore what is below. -/
def Chain (opts : Nat → List (Str × V)) (st : State V) (base : Settings V) (c : Nat) : List Nat → Prop
  | [] => True
  | o :: rest => (∃ i, st.inner o = some i ∧ st.managers[i]? = some ⟨c, under opts base rest, false⟩) ∧
      Chain opts st base c rest

theorem chain_mono {st st' : State V} {base : Settings V} {c : Nat} {l : List Nat}
    (h : ∀ x ∈ l, ∀ i, st.inner x = some i → st'.inner x = some i ∧
      ∀ m, st.managers[i]? = some m → st'.managers[i]? = some m)
    (hc : Chain opts st base c l) : Chain opts st' base c l := by
  induction l with
  | nil => trivial
  | cons o l ih =>
    obtain ⟨⟨i, h1, h2⟩, h3⟩ := hc
    have := h o (by simp) i h1
    exact ⟨⟨i, this.1, this.2 _ h2⟩, ih (fun x hx => h x (List.mem_cons_of_mem _ hx)) h3⟩

/-- The state shows the stacks. -/
structure Inv (cls : Class V) (opts : Nat → List (Str × V)) (st : State V) (t : Tasks V) : Prop where
  cur : ∀ c, st.cur c = effect opts t c
  made : ∀ c, Made cls (t.base c)
  chain : ∀ c, Chain opts st (t.base c) c (t.stack c)
  inj : ∀ o o' i, st.inner o = some i → st.inner o' = some i → o = o'
  bound : ∀ o i, st.inner o = some i → i < st.managers.length
  nodup : ∀ c, (t.stack c).Nodup
  apart : ∀ c d o, o ∈ t.stack c → o ∈ t.stack d → c = d

theorem inv_start {s : Settings V} (hs : Made cls s) : Inv cls opts (start s) (begin s) where
  cur _ := rfl
  made _ := hs
  chain _ := trivial
  inj _ _ _ h := nomatch h
  bound _ _ h := nomatch h
  nodup _ := List.nodup_nil
  apart _ _ _ h := nomatch h

theorem inv_step {st : State V} {t : Tasks V} (ho : ∀ o, Overridable cls (opts o)) (hi : Inv cls opts st t)
    (a : Action) (ha : Proper t a) :
    Inv cls opts (step cls opts st a).1 (next opts t a) ∧ (step cls opts st a).2 = none := by
  cases a with
  | enter c o =>
    have hm : Made cls (st.cur c) := by
      rw [hi.cur c]
      exact made_under ho (hi.made c) _
    unfold step
    dsimp only
    rw [derive_eq (ho o) hm]
    refine ⟨⟨?_, hi.made, ?_, ?_, ?_, ?_, ?_⟩, rfl⟩
    · intro d
      show put st.cur c _ d = under opts (t.base d) (if d = c then o :: t.stack c else t.stack d)
      unfold put
      by_cases e : d = c
      · subst e
        rw [if_pos rfl, if_pos rfl, hi.cur d]
        rfl
      · rw [if_neg e, if_neg e]
        exact hi.cur d
    · intro d
      have key : ∀ e, Chain opts ⟨put st.cur c (replaced (opts o) (st.cur c)),
          st.managers ++ [⟨c, st.cur c, false⟩], put st.inner o (some st.managers.length)⟩ (t.base e) e
          (t.stack e) := by
        intro e
        refine chain_mono ?_ (hi.chain e)
        intro x hx i hxi
        refine ⟨?_, fun m hm => ?_⟩
        · show put st.inner o _ x = _
          unfold put
          rw [if_neg (fun h : x = o => ha e (h ▸ hx)), hxi]
        · show (st.managers ++ [_])[i]? = _
          rw [List.getElem?_append_left (hi.bound x i hxi), hm]
      show Chain opts _ (t.base d) d (if d = c then o :: t.stack c else t.stack d)
      by_cases e : d = c
      · subst e
        rw [if_pos rfl]
        refine ⟨⟨st.managers.length, ?_, ?_⟩, key d⟩
        · show put st.inner o _ o = _
          unfold put
          rw [if_pos rfl]
        · show (st.managers ++ [_])[st.managers.length]? = _
          rw [List.getElem?_append_right (Nat.le_refl _), Nat.sub_self, hi.cur d]
          rfl
      · rw [if_neg e]
        exact key d
    · intro x y i hx hy
      change put st.inner o _ x = _ at hx
      change put st.inner o _ y = _ at hy
      unfold put at hx hy
      by_cases ex : x = o
      · by_cases ey : y = o
        · rw [ex, ey]
        · rw [if_pos ex] at hx
          rw [if_neg ey] at hy
          have := hi.bound y i hy
          cases hx
          omega
      · rw [if_neg ex] at hx
        by_cases ey : y = o
        · rw [if_pos ey] at hy
          have := hi.bound x i hx
          cases hy
          omega
        · rw [if_neg ey] at hy
          exact hi.inj x y i hx hy
    · intro x i hx
      change put st.inner o _ x = _ at hx
      show i < (st.managers ++ [_]).length
      rw [List.length_append, List.length_singleton]
      unfold put at hx
      by_cases ex : x = o
      · rw [if_pos ex] at hx
        cases hx
        omega
      · rw [if_neg ex] at hx
        have := hi.bound x i hx
        omega
    · intro d
      show (if d = c then o :: t.stack c else t.stack d).Nodup
      by_cases e : d = c
      · rw [if_pos e]
        exact List.nodup_cons.mpr ⟨ha c, hi.nodup c⟩
      · rw [if_neg e]
        exact hi.nodup d
    · intro d e x hd he
      change x ∈ (if d = c then o :: t.stack c else t.stack d) at hd
      change x ∈ (if e = c then o :: t.stack c else t.stack e) at he
      by_cases ed : d = c
      · by_cases ee : e = c
        · rw [ed, ee]
        · rw [if_pos ed] at hd
          rw [if_neg ee] at he
          rcases List.mem_cons.mp hd with h | h
          · exact absurd (h ▸ he) (ha e)
          · rw [ed]
            exact hi.apart c e x h he
      · rw [if_neg ed] at hd
        by_cases ee : e = c
        · rw [if_pos ee] at he
          rcases List.mem_cons.mp he with h | h
          · exact absurd (h ▸ hd) (ha d)
          · rw [ee]
            exact hi.apart d c x hd h
        · rw [if_neg ee] at he
          exact hi.apart d e x hd he
  | leave c o =>
    have hstack : ∃ rest, t.stack c = o :: rest := by
      change (t.stack c).head? = some o at ha
      cases h : t.stack c with
      | nil => rw [h] at ha; exact nomatch ha
      | cons x r =>
        rw [h] at ha
        cases ha
        exact ⟨r, rfl⟩
    obtain ⟨rest, hs⟩ := hstack
    have hch := hi.chain c
    rw [hs] at hch
    obtain ⟨⟨i, h1, h2⟩, h3⟩ := hch
    have hnd := hi.nodup c
    rw [hs] at hnd
    have hnot := (List.nodup_cons.mp hnd).1
    unfold step
    dsimp only
    rw [h1]
    dsimp only
    rw [h2]
    dsimp only
    rw [if_neg (by decide), if_pos rfl]
    refine ⟨⟨?_, hi.made, ?_, hi.inj, ?_, ?_, ?_⟩, rfl⟩
    · intro d
      show put st.cur c _ d = under opts (t.base d) (if d = c then (t.stack c).tail else t.stack d)
      unfold put
      by_cases e : d = c
      · subst e
        rw [if_pos rfl, if_pos rfl, hs]
        rfl
      · rw [if_neg e, if_neg e]
        exact hi.cur d
    · intro d
      have key : ∀ e l, o ∉ l → Chain opts st (t.base e) e l → Chain opts { st with
          cur := put st.cur c (under opts (t.base c) rest),
          managers := st.managers.set i ⟨c, under opts (t.base c) rest, true⟩ } (t.base e) e l := by
        intro e l hl hc
        refine chain_mono ?_ hc
        intro x hx j hxj
        refine ⟨hxj, fun m hm => ?_⟩
        have hne : i ≠ j := by
          intro eq
          rw [← eq] at hxj
          exact hl (hi.inj x o i hxj h1 ▸ hx)
        show (st.managers.set i _)[j]? = _
        rw [List.getElem?_set_ne hne, hm]
      show Chain opts _ (t.base d) d (if d = c then (t.stack c).tail else t.stack d)
      by_cases e : d = c
      · subst e
        rw [if_pos rfl, hs]
        exact key d rest hnot h3
      · rw [if_neg e]
        refine key d _ (fun h => e ?_) (hi.chain d)
        exact hi.apart d c o h (by rw [hs]; exact List.mem_cons_self)
    · intro x j hx
      show j < (st.managers.set i _).length
      rw [List.length_set]
      exact hi.bound x j hx
    · intro d
      show (if d = c then (t.stack c).tail else t.stack d).Nodup
      by_cases e : d = c
      · rw [if_pos e, hs]
        exact (List.nodup_cons.mp hnd).2
      · rw [if_neg e]
        exact hi.nodup d
    · have sub : ∀ d x, x ∈ (if d = c then (t.stack c).tail else t.stack d) → x ∈ t.stack d := by
        intro d x h
        by_cases e : d = c
        · rw [if_pos e] at h
          rw [e]
          exact List.mem_of_mem_tail h
        · rw [if_neg e] at h
          exact h
      intro d e x hd he
      exact hi.apart d e x (sub d x hd) (sub e x he)
  | spawn c e =>
    refine ⟨⟨?_, ?_, ?_, hi.inj, hi.bound, hi.nodup, hi.apart⟩, rfl⟩
    · intro d
      show put st.cur e (st.cur c) d = under opts (if d = e then effect opts t c else t.base d) (t.stack d)
      unfold put
      by_cases h : d = e
      · subst h
        change t.stack d = [] at ha
        rw [if_pos rfl, if_pos rfl, ha, hi.cur c]
        rfl
      · rw [if_neg h, if_neg h]
        exact hi.cur d
    · intro d
      show Made cls (if d = e then effect opts t c else t.base d)
      by_cases h : d = e
      · rw [if_pos h]
        exact made_under ho (hi.made c) _
      · rw [if_neg h]
        exact hi.made d
    · intro d
      show Chain opts _ (if d = e then effect opts t c else t.base d) d (t.stack d)
      by_cases h : d = e
      · subst h
        change t.stack d = [] at ha
        rw [ha]
        trivial
      · rw [if_neg h]
        exact chain_mono (st := st) (fun x _ i hx => ⟨hx, fun m hm => hm⟩) (hi.chain d)

theorem inv_run (ho : ∀ o, Overridable cls (opts o)) (h : List Action) : ∀ {st : State V} {t : Tasks V},
    Inv cls opts st t → AllProper opts t h →
    Inv cls opts (run cls opts st h).1 (after opts t h) ∧ ∀ r ∈ (run cls opts st h).2, r = none := by
  induction h with
  | nil => exact fun hi _ => ⟨hi, fun r hr => nomatch hr⟩
  | cons a h ih =>
    intro st t hi hp
    have h1 := inv_step ho hi a hp.1
    have h2 := ih h1.1 hp.2
    refine ⟨h2.1, fun r hr => ?_⟩
    rcases List.mem_cons.mp hr with e | e
    · rw [e]
      exact h1.2
    · exact h2.2 r e

/-- No step of a history begins a task. -/
theorem base_after {c : Nat} (h : List Action) (hn : ∀ d : Nat, Action.spawn d c ∉ h) : ∀ t : Tasks V,
    (after opts t h).base c = t.base c := by
  induction h with
  | nil => exact fun _ => rfl
  | cons a h ih =>
    intro t
    show (after opts (next opts t a) h).base c = _
    rw [ih (fun d hd => hn d (List.mem_cons_of_mem _ hd))]
    cases a with
    | enter => rfl
    | leave => rfl
    | spawn d e =>
      show (if c = e then _ else _) = _
      rw [if_neg]
      intro he
      exact hn d (by rw [← he]; exact List.mem_cons_self)

end Verif.Override
