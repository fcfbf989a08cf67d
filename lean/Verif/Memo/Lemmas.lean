import Verif.Memo.Spec
import Verif.Json.Props

namespace Verif.Memo

open Verif Json Verif.Memo.Spec

variable {V : Type}

/-! ## Keys -/

theorem replaceAll_none (n : Nat) (a : Char) (old new s : Str) (h : a ∉ s) (ha : a ∈ old) :
    Path.replaceAll n old new s = s := by
  induction n generalizing s with
  | zero => rfl
  | succ n ih =>
    cases s with
    | nil => rfl
    | cons c cs =>
      have hno : stripPrefix? old (c :: cs) = none := by
        cases hp : stripPrefix? old (c :: cs) with
        | none => rfl
        | some r =>
          exfalso
          have := (stripPrefix?_eq_some old (c :: cs) r).1 hp
          exact h (by rw [this]; exact List.mem_append_left _ ha)
      rw [Path.replaceAll, hno]
      simp only [List.mem_cons, not_or] at h
      show c :: _ = _
      rw [ih cs h.2]

theorem keyBase_eq (c : Call V) (h : '<' ∉ dotted c) : keyBase c = dotted c :=
  replaceAll_none _ '<' _ _ _ h (by decide)

theorem encoded_eq (W : World V) (c : Call V) (h : c.bound = false) (ha : ∀ a ∈ c.args.head?, W.hasattr a c.name =
    false) :
    encoded W c = c.args := by
  unfold encoded
  split
  · rename_i e; exact e.symm
  · rename_i a rest e
    rw [e] at ha
    rw [h, ha a rfl, Bool.or_false, if_neg (by simp), e]

theorem jsonAll_inj (W : World V) (as bs : List V) (ha : ∀ a ∈ as, Carried W a) (hb : ∀ b ∈ bs, Carried W b) (js :
    Elems)
    (h1 : jsonAll W as = some js) (h2 : jsonAll W bs = some js) : as = bs := by
  induction as generalizing bs js with
  | nil =>
    cases bs with
    | nil => rfl
    | cons b bs =>
      exfalso
      rw [jsonAll] at h1; cases h1
      rw [jsonAll] at h2
      split at h2 <;> cases h2
  | cons a as ih =>
    rw [jsonAll] at h1
    split at h1
    · rename_i j js1 e1 e2
      cases h1
      cases bs with
      | nil => rw [jsonAll] at h2; cases h2
      | cons b bs =>
        rw [jsonAll] at h2
        split at h2
        · rename_i j' js' e3 e4
          cases h2
          obtain ⟨x, hx1, hx2⟩ := ha a (by simp)
          obtain ⟨y, hy1, hy2⟩ := hb b (by simp)
          rw [e1] at hx1; cases hx1
          rw [e3] at hy1; cases hy1
          rw [ih bs (fun a h => ha a (by simp [h])) (fun a h => hb a (by simp [h])) _ e2 e4, ← hx2, ← hy2]
        · cases h2
    · cases h1

theorem jsonNamed_inj (W : World V) (as bs : List (Str × V)) (ha : ∀ a ∈ as, Carried W a.2)
    (hb : ∀ b ∈ bs, Carried W b.2) (js : Members)
    (h1 : jsonNamed W as = some js) (h2 : jsonNamed W bs = some js) : as = bs := by
  induction as generalizing bs js with
  | nil =>
    cases bs with
    | nil => rfl
    | cons b bs =>
      exfalso
      rw [jsonNamed] at h1; cases h1
      obtain ⟨k, b⟩ := b
      rw [jsonNamed] at h2
      split at h2 <;> cases h2
  | cons a as ih =>
    obtain ⟨k, a⟩ := a
    rw [jsonNamed] at h1
    split at h1
    · rename_i j js1 e1 e2
      cases h1
      cases bs with
      | nil => rw [jsonNamed] at h2; cases h2
      | cons b bs =>
        obtain ⟨k', b⟩ := b
        rw [jsonNamed] at h2
        split at h2
        · rename_i j' js' e3 e4
          cases h2
          obtain ⟨x, hx1, hx2⟩ := ha (k, a) (by simp)
          obtain ⟨y, hy1, hy2⟩ := hb (k, b) (by simp)
          simp only at hx1 hx2 hy1 hy2
          rw [e1] at hx1; cases hx1
          rw [e3] at hy1; cases hy1
          rw [ih bs (fun a h => ha a (by simp [h])) (fun a h => hb a (by simp [h])) _ e2 e4, ← hx2, ← hy2]
        · cases h2
    · cases h1

/-- Ordinary calls with the same key are calls of the same function with the same arguments. -/
theorem key_inj (W : World V) (calls : Nat → Call V) (hn : NoCollision W calls) (i j : Nat)
    (hi : Ordinary W (calls i)) (hj : Ordinary W (calls j)) (k : Str)
    (h1 : genKey W (calls i) = some k) (h2 : genKey W (calls j) = some k) :
    dotted (calls i) = dotted (calls j) ∧ (calls i).args = (calls j).args ∧ (calls i).kwargs = (calls j).kwargs := by
  unfold genKey at h1 h2
  cases t1 : keyText W (calls i) with
  | none => rw [t1] at h1; cases h1
  | some a =>
    cases t2 : keyText W (calls j) with
    | none => rw [t2] at h2; cases h2
    | some b =>
      rw [t1] at h1; rw [t2] at h2
      simp only [Option.map_some, Option.some.injEq] at h1 h2
      rw [keyBase_eq _ hi.2.1] at h1
      rw [keyBase_eq _ hj.2.1] at h2
      have heq := h1.trans h2.symm
      have hl : (':' :: W.md5 a).length = (':' :: W.md5 b).length := by simp [hn.1]
      obtain ⟨e1, e2⟩ := List.append_inj' heq hl
      have e3 := hn.2 i j a b t1 t2 (by injection e2)
      subst e3
      refine ⟨e1, ?_⟩
      unfold keyText at t1 t2
      rw [encoded_eq W _ hi.1 hi.2.2.1] at t1
      rw [encoded_eq W _ hj.1 hj.2.2.1] at t2
      split at t1
      · rename_i as ks a1 a2
        split at t2
        · rename_i as' ks' b1 b2
          have he := C50_injective _ _ ((Option.some.inj t1).trans (Option.some.inj t2).symm)
          injection he with he
          injection he with _ he1 he2
          injection he1 with he1
          injection he2 with _ he2 _
          injection he2 with he2
          subst he1 he2
          exact ⟨jsonAll_inj W _ _ hi.2.2.2.1 hj.2.2.2.1 _ a1 b1, jsonNamed_inj W _ _ hi.2.2.2.2 hj.2.2.2.2 _ a2 b2⟩
        · cases t2
      · cases t1

/-! ## Where values come from -/

/-- Something in the history put this entry there. -/
def Source (W : World V) (calls : Nat → Call V) (h : List (Int × Act V)) (k : Str) (b : Json) (e : Option Int) : Prop :=
  ∃ t j v, (t, Act.finish j (.value v) false) ∈ h ∧ genKey W (calls j) = some k ∧ W.json v = some b ∧
    e = Cache.expiry t (calls j).ttl

theorem Source.mono {W : World V} {calls : Nat → Call V} {h h' : List (Int × Act V)} {k : Str} {b : Json}
    {e : Option Int} (hs : Source W calls h k b e) (hh : ∀ x ∈ h, x ∈ h') : Source W calls h' k b e := by
  obtain ⟨t, j, v, h1, h2⟩ := hs
  exact ⟨t, j, v, hh _ h1, h2⟩

theorem aget_adel_some {κ ν : Type} [DecidableEq κ] (d : List (κ × ν)) (k k' : κ) (v : ν) (h : aget (adel d k) k' =
    some v) :
    aget d k' = some v := by
  rw [aget_adel] at h
  split at h
  · cases h
  · exact h

theorem get_store (W : World V) (now : Int) (s : Cache.Store Json) (k : Str) :
    (Cache.syncGet (codec W) now s k).1 = s ∨ (Cache.syncGet (codec W) now s k).1 = adel s k := by
  unfold Cache.syncGet
  split
  · exact .inl rfl
  · exact .inl rfl
  · split
    · exact .inr rfl
    · exact .inl rfl

theorem get_value (W : World V) (now : Int) (s : Cache.Store Json) (k : Str) (st : Cache.Store Json) (v : V)
    (h : Cache.syncGet (codec W) now s k = (st, some v)) :
    st = s ∧ ∃ b e, aget s k = some (b, e) ∧ v = W.ofJson b ∧ ∀ g, e = some g → now ≤ g := by
  unfold Cache.syncGet at h
  split at h
  · cases h
  · rename_i b hb
    cases h
    exact ⟨rfl, b, none, hb, rfl, fun g hg => by cases hg⟩
  · rename_i b e hb
    split at h
    · cases h
    · rename_i hlt
      cases h
      refine ⟨rfl, b, some e, hb, rfl, fun g hg => ?_⟩
      cases hg
      omega

/-- What a history guarantees: every entry has a source; every call that got a value from the cache began when an entry
with a source was there; and every other value is what the function gave. -/
structure Inv (W : World V) (calls : Nat → Call V) (h : List (Int × Act V)) (s : St V) : Prop where
  entries : ∀ k b e, aget s.store k = some (b, e) → Source W calls h k b e
  hits : ∀ i o, s.phase i = .done o true → ∃ pre post t k b e, h = pre ++ (t, Act.begin i false) :: post ∧
    genKey W (calls i) = some k ∧ Source W calls pre k b e ∧ o = .value (W.ofJson b) ∧ W.isNone (W.ofJson b) = false ∧
    ∀ g, e = some g → t ≤ g
  own : ∀ i o, s.phase i = .done o false → (o = .raised ∧ genKey W (calls i) = none) ∨ ∃ t f, (t, Act.finish i o f) ∈ h

theorem Inv.start (W : World V) (calls : Nat → Call V) : Inv W calls [] start :=
  ⟨(fun k b e h => by cases h), (fun i o h => by cases h), (fun i o h => by cases h)⟩

/-- A change of the store that adds nothing. -/
theorem entries_sub {W : World V} {calls : Nat → Call V} {h : List (Int × Act V)} {s : St V} (hi : Inv W calls h s)
    (a : Int × Act V) (st : Cache.Store Json) (hst : st = s.store ∨ ∃ k, st = adel s.store k) :
    ∀ k b e, aget st k = some (b, e) → Source W calls (h ++ [a]) k b e := by
  intro k b e hg
  refine (hi.entries k b e ?_).mono (fun x hx => List.mem_append_left _ hx)
  rcases hst with rfl | ⟨k', rfl⟩
  · exact hg
  · exact aget_adel_some _ _ _ _ hg

theorem hits_old {W : World V} {calls : Nat → Call V} {h : List (Int × Act V)} {s : St V} (hi : Inv W calls h s)
    (a : Int × Act V) (i : Nat) (o : Outcome V) (hp : s.phase i = .done o true) :
    ∃ pre post t k b e, h ++ [a] = pre ++ (t, Act.begin i false) :: post ∧
    genKey W (calls i) = some k ∧ Source W calls pre k b e ∧ o = .value (W.ofJson b) ∧ W.isNone (W.ofJson b) = false ∧
    ∀ g, e = some g → t ≤ g := by
  obtain ⟨pre, post, t, k, b, e, h1, h2⟩ := hi.hits i o hp
  exact ⟨pre, post ++ [a], t, k, b, e, by rw [h1]; simp, h2⟩

theorem own_old {W : World V} {calls : Nat → Call V} {h : List (Int × Act V)} {s : St V} (hi : Inv W calls h s)
    (a : Int × Act V) (i : Nat) (o : Outcome V) (hp : s.phase i = .done o false) :
    (o = .raised ∧ genKey W (calls i) = none) ∨ ∃ t f, (t, Act.finish i o f) ∈ h ++ [a] := by
  rcases hi.own i o hp with h1 | ⟨t, f, h1⟩
  · exact .inl h1
  · exact .inr ⟨t, f, List.mem_append_left _ h1⟩

/-- Nothing but the store changes, and nothing is added to it. -/
theorem Inv.quiet {W : World V} {calls : Nat → Call V} {h : List (Int × Act V)} {s : St V} (hi : Inv W calls h s)
    (a : Int × Act V) (st : Cache.Store Json) (hst : st = s.store ∨ ∃ k, st = adel s.store k) :
    Inv W calls (h ++ [a]) ⟨st, s.phase⟩ :=
  ⟨entries_sub hi a st hst, fun i o hp => hits_old hi a i o hp, fun i o hp => own_old hi a i o hp⟩

theorem Inv.put {W : World V} {calls : Nat → Call V} {h : List (Int × Act V)} {s : St V} (hi : Inv W calls h s)
    (a : Int × Act V) (st : Cache.Store Json) (i : Nat) (p : Phase V)
    (he : ∀ k b e, aget st k = some (b, e) → Source W calls (h ++ [a]) k b e)
    (hh : ∀ o, p = .done o true → ∃ pre post t k b e, h ++ [a] = pre ++ (t, Act.begin i false) :: post ∧
      genKey W (calls i) = some k ∧ Source W calls pre k b e ∧ o = .value (W.ofJson b) ∧
      W.isNone (W.ofJson b) = false ∧ ∀ g, e = some g → t ≤ g)
    (ho : ∀ o, p = .done o false → (o = .raised ∧ genKey W (calls i) = none) ∨ ∃ t f, (t, Act.finish i o f) ∈ h ++
        [a]) :
    Inv W calls (h ++ [a]) (s.put st i p) := by
  refine ⟨he, ?_, ?_⟩
  · intro n o hp
    unfold St.put at hp
    simp only at hp
    split at hp
    · rename_i hn; subst hn; exact hh o hp
    · exact hits_old hi a n o hp
  · intro n o hp
    unfold St.put at hp
    simp only at hp
    split at hp
    · rename_i hn; subst hn; exact ho o hp
    · exact own_old hi a n o hp

theorem Inv.begin {W : World V} {calls : Nat → Call V} {h : List (Int × Act V)} {s : St V} (hi : Inv W calls h s)
    (now : Int) (i : Nat) (fails : Bool) :
    Inv W calls (h ++ [(now, .begin i fails)]) (begin W calls s now i fails) := by
  unfold Memo.begin
  split
  · rename_i hk
    refine hi.put _ _ _ _ (entries_sub hi _ _ (.inl rfl)) (fun o e => by cases e) (fun o e => ?_)
    cases e
    exact .inl ⟨rfl, hk⟩
  · rename_i k hk
    split
    · exact hi.put _ _ _ _ (entries_sub hi _ _ (.inl rfl)) (fun o e => by cases e) (fun o e => by cases e)
    · rename_i hf
      have hf' : fails = false := by simpa using hf
      subst hf'
      split
      · rename_i st v hg
        obtain ⟨rfl, b, e, h1, h2, h3⟩ := get_value W now _ k st v hg
        split
        · exact hi.put _ _ _ _ (entries_sub hi _ _ (.inl rfl)) (fun o e => by cases e) (fun o e => by cases e)
        · rename_i hn
          refine hi.put _ _ _ _ (entries_sub hi _ _ (.inl rfl)) (fun o eo => ?_) (fun o e => by cases e)
          cases eo
          exact ⟨h, [], now, k, b, e, by simp, hk, hi.entries k b e h1, by rw [h2], by rw [← h2]; simpa using hn, h3⟩
      · rename_i st hg
        refine hi.put _ _ _ _ (entries_sub hi _ _ ?_) (fun o e => by cases e) (fun o e => by cases e)
        have := get_store W now s.store k
        rw [hg] at this
        exact this.imp id fun e => ⟨k, e⟩

theorem Inv.finish {W : World V} {calls : Nat → Call V} {h : List (Int × Act V)} {s : St V} (hi : Inv W calls h s)
    (now : Int) (i : Nat) (o : Outcome V) (fails : Bool) :
    Inv W calls (h ++ [(now, .finish i o fails)]) (finish W calls s now i o fails) := by
  unfold Memo.finish
  split
  · exact hi.quiet _ _ (.inl rfl)
  · refine hi.put _ _ _ _ (entries_sub hi _ _ (.inl rfl)) (fun o e => by cases e) (fun o e => ?_)
    cases e
    exact .inr ⟨now, fails, by simp⟩
  · rename_i k v hk
    refine hi.put _ _ _ _ ?_ (fun o e => by cases e) (fun o e => ?_)
    · cases fails with
      | true => exact entries_sub hi _ _ (.inl rfl)
      | false =>
        intro k' b e hg
        simp only [Bool.false_eq_true, if_false] at hg
        unfold Cache.syncSet at hg
        split at hg
        · rename_i b' hb'
          rw [aget_aset] at hg
          split at hg
          · rename_i hkk
            subst hkk
            cases hg
            exact ⟨now, i, v, by simp, hk, hb', rfl⟩
          · exact (hi.entries k' b e hg).mono (fun x hx => List.mem_append_left _ hx)
        · exact (hi.entries k' b e hg).mono (fun x hx => List.mem_append_left _ hx)
    · cases e
      exact .inr ⟨now, fails, by simp⟩

theorem Inv.step {W : World V} {calls : Nat → Call V} {h : List (Int × Act V)} {s : St V} (hi : Inv W calls h s)
    (a : Int × Act V) : Inv W calls (h ++ [a]) (step W calls s a) := by
  obtain ⟨now, a⟩ := a
  cases a with
  | begin i fails =>
    simp only [Memo.step]
    split
    · exact hi.begin now i fails
    · exact hi.quiet _ _ (.inl rfl)
  | finish i o fails =>
    simp only [Memo.step]
    split
    · exact hi.finish now i o fails
    · exact hi.quiet _ _ (.inl rfl)
  | invalidate c inLoop fails =>
    simp only [Memo.step, Memo.invalidate]
    split
    · exact hi.quiet _ _ (.inl rfl)
    · split
      · exact hi.quiet _ _ (.inl rfl)
      · exact hi.quiet _ _ (.inr ⟨_, rfl⟩)

theorem run_append (W : World V) (calls : Nat → Call V) (h : List (Int × Act V)) (a : Int × Act V) :
    run W calls (h ++ [a]) = step W calls (run W calls h) a := by
  unfold run
  rw [List.foldl_append]
  rfl

theorem inv_run (W : World V) (calls : Nat → Call V) (h : List (Int × Act V)) : Inv W calls h (run W calls h) := by
  generalize hl : h.length = n
  induction n generalizing h with
  | zero => rw [List.length_eq_zero_iff.1 hl]; exact Inv.start W calls
  | succ n ih =>
    have hne : h ≠ [] := by rintro rfl; cases hl
    obtain ⟨p, a, rfl⟩ : ∃ p a, h = p ++ [a] := ⟨h.dropLast, h.getLast hne, (List.dropLast_concat_getLast hne).symm⟩
    rw [run_append]
    exact (ih p (by simpa using hl)).step a

/-! ## Values stay until they are too old -/

theorem fresh_begin (W : World V) (calls : Nat → Call V) (s : St V) (now : Int) (i : Nat) (fails : Bool) (k : Str)
    (b : Json) (e : Option Int) (h : aget s.store k = some (b, e)) (he : ∀ g, e = some g → now ≤ g) :
    aget (begin W calls s now i fails).store k = some (b, e) := by
  unfold Memo.begin
  have key : ∀ k' st x, Cache.syncGet (codec W) now s.store k' = (st, x) → aget st k = some (b, e) := by
    intro k' st x hg
    unfold Cache.syncGet at hg
    split at hg
    · cases hg; exact h
    · cases hg; exact h
    · rename_i b' e' hb
      split at hg
      · rename_i hlt
        cases hg
        rw [aget_adel]
        split
        · rename_i hk
          subst hk
          rw [h] at hb
          cases hb
          have := he _ rfl
          omega
        · exact h
      · cases hg; exact h
  split
  · exact h
  · split
    · exact h
    · split
      · rename_i hg
        split
        · exact key _ _ _ hg
        · exact key _ _ _ hg
      · rename_i hg; exact key _ _ _ hg

theorem fresh_step (W : World V) (calls : Nat → Call V) (s : St V) (a : Int × Act V) (k : Str) (b : Json) (e : Option
    Int)
    (h : aget s.store k = some (b, e)) (ha : Spares W calls k e a) : aget (step W calls s a).store k = some (b, e) := by
  obtain ⟨now, a⟩ := a
  cases a with
  | begin i fails =>
    simp only [Memo.step]
    split
    · exact fresh_begin W calls s now i fails k b e h ha
    · exact h
  | finish i o fails =>
    simp only [Memo.step]
    split
    · unfold Memo.finish
      split
      · exact h
      · exact h
      · rename_i k' v hk
        show aget (if fails then s.store else _) k = _
        split
        · exact h
        · unfold Cache.syncSet
          split
          · rw [aget_aset]
            split
            · rename_i hkk
              subst hkk
              cases ha hk
            · exact h
          · exact h
    · exact h
  | invalidate c inLoop fails =>
    simp only [Memo.step, Memo.invalidate]
    split
    · exact h
    · rename_i k' hk
      split
      · exact h
      · rename_i hf
        show aget (adel s.store k') k = _
        rw [aget_adel]
        split
        · rename_i hkk
          subst hkk
          exact absurd (ha hk) hf
        · exact h

theorem fresh_run (W : World V) (calls : Nat → Call V) (s : St V) (h : List (Int × Act V)) (k : Str) (b : Json)
    (e : Option Int) (h0 : aget s.store k = some (b, e)) (hall : ∀ a ∈ h, Spares W calls k e a) :
    aget (h.foldl (step W calls) s).store k = some (b, e) := by
  induction h generalizing s with
  | nil => exact h0
  | cons a h ih =>
    rw [List.foldl_cons]
    exact ih _ (fresh_step W calls s a k b e h0 (hall a (by simp))) (fun x hx => hall x (by simp [hx]))

theorem get_fresh (W : World V) (now : Int) (st : Cache.Store Json) (k : Str) (b : Json) (e : Option Int)
    (h : aget st k = some (b, e)) (he : ∀ g, e = some g → now ≤ g) :
    Cache.syncGet (codec W) now st k = (st, some (W.ofJson b)) := by
  unfold Cache.syncGet
  rw [h]
  cases e with
  | none => rfl
  | some g =>
    simp only
    rw [if_neg (by have := he g rfl; omega)]
    rfl

/-- An absent entry stays absent unless a call with its key ends. -/
theorem absent_step (W : World V) (calls : Nat → Call V) (s : St V) (a : Int × Act V) (k : Str)
    (h : aget s.store k = none) (ha : ∀ t i o f, a = (t, Act.finish i o f) → genKey W (calls i) ≠ some k) :
    aget (step W calls s a).store k = none := by
  have del : ∀ k', aget (adel s.store k') k = none := by
    intro k'
    rw [aget_adel]
    split
    · rfl
    · exact h
  obtain ⟨now, a⟩ := a
  cases a with
  | begin i fails =>
    simp only [Memo.step]
    split
    · unfold Memo.begin
      have key : ∀ k' st x, Cache.syncGet (codec W) now s.store k' = (st, x) → aget st k = none := by
        intro k' st x hg
        have := get_store W now s.store k'
        rw [hg] at this
        rcases this with e | e
        · rw [show st = s.store from e]; exact h
        · rw [show st = adel s.store k' from e]; exact del k'
      split
      · exact h
      · split
        · exact h
        · split
          · rename_i hg
            split
            · exact key _ _ _ hg
            · exact key _ _ _ hg
          · rename_i hg; exact key _ _ _ hg
    · exact h
  | finish i o fails =>
    simp only [Memo.step]
    split
    · unfold Memo.finish
      split
      · exact h
      · exact h
      · rename_i k' v hk
        show aget (if fails then s.store else _) k = _
        split
        · exact h
        · unfold Cache.syncSet
          split
          · rw [aget_aset]
            split
            · rename_i hkk
              subst hkk
              exact absurd hk (ha _ _ _ _ rfl)
            · exact h
          · exact h
    · exact h
  | invalidate c inLoop fails =>
    simp only [Memo.step, Memo.invalidate]
    split
    · exact h
    · split
      · exact h
      · exact del _

theorem absent_run (W : World V) (calls : Nat → Call V) (s : St V) (h : List (Int × Act V)) (k : Str)
    (h0 : aget s.store k = none) (hall : ∀ t i o f, (t, Act.finish i o f) ∈ h → genKey W (calls i) ≠ some k) :
    aget (h.foldl (step W calls) s).store k = none := by
  induction h generalizing s with
  | nil => exact h0
  | cons a h ih =>
    rw [List.foldl_cons]
    refine ih _ (absent_step W calls s a k h0 ?_) (fun t i o f hx => hall t i o f (by simp [hx]))
    rintro t i o f rfl
    exact hall t i o f (by simp)

theorem jsonAll_some (W : World V) (as : List V) (ha : ∀ a ∈ as, Carried W a) : ∃ js, jsonAll W as = some js := by
  induction as with
  | nil => exact ⟨_, rfl⟩
  | cons a as ih =>
    obtain ⟨j, h1, _⟩ := ha a (by simp)
    obtain ⟨js, h2⟩ := ih (fun x hx => ha x (by simp [hx]))
    exact ⟨.cons j js, by rw [jsonAll, h1, h2]⟩

theorem jsonNamed_some (W : World V) (as : List (Str × V)) (ha : ∀ a ∈ as, Carried W a.2) :
    ∃ js, jsonNamed W as = some js := by
  induction as with
  | nil => exact ⟨_, rfl⟩
  | cons a as ih =>
    obtain ⟨k, a⟩ := a
    obtain ⟨j, h1, _⟩ := ha (k, a) (by simp)
    obtain ⟨js, h2⟩ := ih (fun x hx => ha x (by simp [hx]))
    exact ⟨.cons k j js, by rw [jsonNamed, h1, h2]⟩

theorem genKey_some (W : World V) (c : Call V) (h : Ordinary W c) : genKey W c ≠ none := by
  obtain ⟨js, h1⟩ := jsonAll_some W _ h.2.2.2.1
  obtain ⟨ks, h2⟩ := jsonNamed_some W _ h.2.2.2.2
  unfold genKey keyText
  rw [encoded_eq W c h.1 h.2.2.1, h1, h2]
  simp

end Verif.Memo
