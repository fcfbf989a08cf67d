import Verif.Markers.Lemmas

/-!
# C106: `Resolve` and `Security` in signatures
-/

namespace Verif.Markers

open Verif Verif.Markers.Spec

variable {V : Type}

/-- C106: in the signature of a handler, `Resolve(f)` gives a value just when `f` stands for it: markers in its own
signature are resolved in the same way.  Part: `f` and the functions under `Resolve` are functions, those under
`Security` are `async`. -/
theorem C106_resolve_partial (w : World V) (hp : Pure w) (hu : Usual w) (f : Nat) (hk : (w.fn f).kind ≠ .asyncObject)
    (v : V) : (∃ N, ∀ n, N ≤ n → ∀ log, ∃ log', resolve w n f log = (.ok v, log')) ↔ Stands w f v := by
  constructor
  · rintro ⟨N, h⟩
    obtain ⟨log', h⟩ := h N (Nat.le_refl N) []
    exact resolve_ok w hp hu N f [] v log' hk h
  · exact fun h => stands_complete w hp hu h hk

/-- C106: and each function stands for one value at most. -/
theorem C106_single (w : World V) (f : Nat) (u v : V) (hu : Stands w f u) (hv : Stands w f v) : u = v :=
  stands_det w hu v hv

/-- `key(request)`, `user(header=Security(key))` which makes a user of a header, `items(u=Resolve(user))`.  Numbers
stand for values: the header is 10, its user is 110, there is no user of a user. -/
def demo : World Nat where
  fn := fun f => match f with
    | 0 => ⟨[{ name := "request".toList }], .async, fun _ args _ => args.head?.map (· + 3)⟩
    | 1 => ⟨[{ name := "header".toList, default := .security 0 }], .sync, fun _ _ kw =>
        (aget kw "header".toList).bind fun h => if h < 100 then some (h + 100) else none⟩
    | 2 => ⟨[{ name := "u".toList, default := .resolve 1 [] false }], .async, fun _ _ kw =>
        (aget kw "u".toList).map (· * 2)⟩
    | _ => ⟨[], .sync, fun n _ _ => some n⟩
  request := 7
  coroutine := fun _ => 0

example : (resolve demo 3 2 []).1.toOption = some 220 ∧ (resolve demo 3 2 []).2 = [0, 1, 2] := by decide +kernel

/-- A world of one function with no parameters, for the hypotheses. -/
example : Pure (⟨fun _ => ⟨[], .sync, fun _ _ _ => some 1⟩, 0, fun _ => 0⟩ : World Nat) ∧
    Usual (⟨fun _ => ⟨[], .sync, fun _ _ _ => some 1⟩, 0, fun _ => 0⟩ : World Nat) :=
  ⟨fun _ _ _ _ _ => rfl, fun _ _ _ h => (List.not_mem_nil h).elim, fun _ _ _ _ _ h => (List.not_mem_nil h).elim⟩

/-- C106: what `Provide(f)` does with markers: the function `f` is resolved, and then called once more with this value
of its own for every marked parameter. -/
theorem C106_provide_own (w : World V) (hp : Pure w) (hu : Usual w) (f : Nat) (hk : (w.fn f).kind ≠ .asyncObject)
    (own v : V) (hs : Stands w f own) (kw : List (Str × V)) (ha : AllWith own (w.fn f).params kw) :
    (∃ N, ∀ n, N ≤ n → ∀ log, ∃ log', provide w n f log = (.ok v, log')) ↔ Gives w f [] kw v := by
  obtain ⟨N, hN⟩ := stands_complete w hp hu hs hk
  have hargs : ∀ n, N ≤ n → ∀ log, ∃ log', provideArgs w n f (w.fn f).params log = (.ok kw, log') :=
    fun n hn => provideArgs_ok w n f own _ kw (hN n hn) ha
  constructor
  · rintro ⟨M, h⟩
    obtain ⟨l1, e1⟩ := hargs (N + M) (by omega) []
    obtain ⟨l2, e2⟩ := h (N + M) (by omega) []
    unfold provide at e2
    rw [e1] at e2
    exact (call_ok w hp _ _ _ _ _ _ e2).1
  · intro hg
    refine ⟨N, fun n hn log => ?_⟩
    obtain ⟨l1, e1⟩ := hargs n hn log
    refine ⟨l1 ++ [f], ?_⟩
    unfold provide
    rw [e1]
    exact call_gives w hp f [] kw l1 v hg

/-- C106: so `Provide(f)` gives the value of `f` when `f` returns it unchanged on getting it for the marked
parameters.  Part: for this check in `f` only. -/
theorem C106_provide_partial (w : World V) (hp : Pure w) (hu : Usual w) (f : Nat)
    (hk : (w.fn f).kind ≠ .asyncObject) (own : V) (hs : Stands w f own)
    (hc : ∀ kw, AllWith own (w.fn f).params kw → Gives w f [] kw own) :
    ∃ N, ∀ n, N ≤ n → ∀ log, ∃ log', provide w n f log = (.ok own, log') := by
  obtain ⟨kw, ha⟩ := allWith_exists own (w.fn f).params
  exact (C106_provide_own w hp hu f hk own own hs kw ha).2 (hc kw ha)

/-- C106 fails: `Provide(user)` gets the user in place of the header and fails, though `Resolve(user)` works. -/
theorem C106_provide_false : ∃ (w : World Nat) (f v : Nat), (resolve w 3 f []).1.toOption = some v ∧
    ∀ n, ¬∃ u log, provide w (n + 3) f [] = (.ok u, log) := by
  refine ⟨demo, 1, 110, by decide +kernel, ?_⟩
  rintro n ⟨u, log, h⟩
  have hr : ∀ m l, resolve demo (m + 1) 1 l = (.ok 110, l ++ [0] ++ [1]) := fun _ _ => rfl
  unfold provide at h
  have ha : provideArgs demo (n + 3) 1 (demo.fn 1).params [] = (.ok [("header".toList, 110)], [0, 1]) := rfl
  rw [ha] at h
  have hc : call demo 1 [] [("header".toList, 110)] [0, 1] = (.error .raised, [0, 1, 1]) := rfl
  dsimp only at h
  rw [hc] at h
  cases h

/-- C106 fails: the function under `Resolve` runs as often as it is named, even with `use_cache`. -/
theorem C106_cache_false : ∃ (w : World Nat) (f g : Nat), (w.fn f).params.map (·.name) = ["a".toList, "b".toList] ∧
    (∀ p ∈ (w.fn f).params, ∃ args, p.default = .resolve g args true) ∧ (resolve w 3 f []).2 = [g, g, f] := by
  refine ⟨⟨fun f => match f with
    | 0 => ⟨[], .async, fun n _ _ => some n⟩
    | _ => ⟨[⟨"a".toList, .resolve 0 [] true⟩, ⟨"b".toList, .resolve 0 [] true⟩], .async, fun _ _ _ => some 0⟩, 0, fun
        _ => 0⟩, 1, 0, rfl, ?_, rfl⟩
  intro p hp
  rcases List.mem_cons.1 hp with rfl | hp
  · exact ⟨[], rfl⟩
  · rcases List.mem_cons.1 hp with rfl | hp
    · exact ⟨[], rfl⟩
    · cases hp

/-- C106 fails: arguments given to `Resolve` are not passed: they make no difference at all. -/
theorem C106_args_false (w w' : World V) (hreq : w.request = w'.request) (hco : w.coroutine = w'.coroutine)
    (hfn : ∀ f, (w.fn f).kind = (w'.fn f).kind ∧ (w.fn f).result = (w'.fn f).result ∧
      (w'.fn f).params = (w.fn f).params.map fun p =>
        { p with default := match p.default with | .resolve g _ c => .resolve g [] c | d => d })
    (n : Nat) : ∀ f log, resolve w' n f log = resolve w n f log := by
  have hacc : ∀ f args kw, accepts (w'.fn f).params args kw = accepts (w.fn f).params args kw := by
    intro f args kw
    have ho : ∀ p : Param V, ({ p with default := match p.default with | .resolve g _ c => .resolve g [] c | d => d } :
        Param V).optional = p.optional := by
      intro p; unfold Param.optional; cases p.default <;> rfl
    rw [(hfn f).2.2]
    unfold accepts
    simp only [List.map_map, List.length_map, List.all_map, Function.comp_def, ho]
  have hcall : ∀ f args kw log, call w' f args kw log = call w f args kw log := by
    intro f args kw log; unfold call; rw [hacc, (hfn f).2.1]
  have hsec : ∀ f log, secure w' f log = secure w f log := by
    intro f log; unfold secure; rw [hcall, hreq, (hfn f).1]
  have hfin : ∀ f kw log, finalCall w' f kw log = finalCall w f kw log := by
    intro f kw log; unfold finalCall; rw [hcall, hacc, hco, (hfn f).1]
  have hfeed : ∀ (rec rec' : Nat → List Nat → Out V), (∀ g log, rec' g log = rec g log) → ∀ (ps : List (Param V)) log,
      feed w' rec' (ps.map fun p =>
        { p with default := match p.default with | .resolve g _ c => .resolve g [] c | d => d }) log =
      feed w rec ps log := by
    intro rec rec' hr ps
    induction ps with
    | nil => intro log; rfl
    | cons p ps ih =>
      intro log
      obtain ⟨name, d⟩ := p
      rw [List.map_cons]
      cases d with
      | none => exact ih log
      | value u => exact ih log
      | resolve g args c =>
        unfold feed
        dsimp only
        rw [hr]
        split
        · rfl
        · rw [ih]
      | security g =>
        unfold feed
        dsimp only
        rw [hsec]
        split
        · rfl
        · rw [ih]
  induction n with
  | zero => intro f log; rfl
  | succ n ih =>
    intro f log
    rw [resolve, resolve, (hfn f).2.2, hfeed _ _ ih]
    split
    · rfl
    · exact hfin _ _ _

/-- `f(a=Resolve(g, *args))`. -/
def given (args : List Nat) : World Nat where
  fn := fun f => match f with
    | 0 => ⟨[], .async, fun _ args _ => some args.length⟩
    | _ => ⟨[⟨"a".toList, .resolve 0 args false⟩], .async, fun _ _ kw => aget kw "a".toList⟩
  request := 0
  coroutine := fun _ => 0

example (n f : Nat) (log : List Nat) : resolve (given []) n f log = resolve (given [5]) n f log :=
  C106_args_false (given [5]) (given []) rfl rfl (fun f => match f with | 0 => ⟨rfl, rfl, rfl⟩ | _ + 1 => ⟨rfl, rfl,
      rfl⟩)
    n f log

/-- C106 fails: a function with a parameter that has neither a marker nor a default cannot be used: `request` is not
passed.  So a security scheme, which takes the request, works below another function only, not in a handler. -/
theorem C106_request_false (w : World V) (f : Nat) (p : Param V) (hp : p ∈ (w.fn f).params)
    (hd : p.default = .none) (hnd : ∀ q ∈ (w.fn f).params, q.name = p.name → q.default = .none)
    (n : Nat) (log : List Nat) : ¬∃ v log', resolve w n f log = (.ok v, log') := by
  rintro ⟨v, log', h⟩
  have names : ∀ (rec : Nat → List Nat → Out V) (ps : List (Param V)), ∀ log kw log', feed w rec ps log = (.ok kw,
      log') →
      ∀ k ∈ kw, ∃ q ∈ ps, q.name = k.1 ∧ q.default ≠ .none := by
    intro rec ps
    induction ps with
    | nil => intro log kw log' h k hk; cases h; cases hk
    | cons q ps ih =>
      intro log kw log' h k hk
      have up : (∃ r ∈ ps, r.name = k.1 ∧ r.default ≠ .none) → ∃ r ∈ q :: ps, r.name = k.1 ∧ r.default ≠ .none :=
        fun ⟨r, hr, e⟩ => ⟨r, List.mem_cons_of_mem _ hr, e⟩
      unfold feed at h
      split at h
      · exact up (ih _ _ _ h k hk)
      · exact up (ih _ _ _ h k hk)
      · rename_i g args c hq
        split at h
        · cases h
        · split at h
          · cases h
          · rename_i hb
            cases h
            rcases List.mem_cons.1 hk with rfl | hk
            · exact ⟨q, List.mem_cons_self, rfl, by rw [hq]; intro e; cases e⟩
            · exact up (ih _ _ _ hb k hk)
      · rename_i g hq
        split at h
        · cases h
        · split at h
          · cases h
          · rename_i hb
            cases h
            rcases List.mem_cons.1 hk with rfl | hk
            · exact ⟨q, List.mem_cons_self, rfl, by rw [hq]; intro e; cases e⟩
            · exact up (ih _ _ _ hb k hk)
  cases n with
  | zero => cases h
  | succ n =>
    rw [resolve] at h
    split at h
    · cases h
    · rename_i kw l hf
      have hno : accepts (w.fn f).params [] kw = false := by
        have hany : (kw.any fun k => k.1 = p.name) = false := by
          rw [List.any_eq_false]
          intro k hk he
          obtain ⟨q, hq, e, hne⟩ := names _ _ _ _ _ hf k hk
          exact hne (hnd q hq (e.trans (of_decide_eq_true he)))
        have hall : ((w.fn f).params.all fun p => p.optional ||
            (((w.fn f).params.map (·.name)).take 0).contains p.name || kw.any fun k => k.1 = p.name) = false := by
          rw [List.all_eq_false]
          refine ⟨p, hp, ?_⟩
          have ho : p.optional = false := by unfold Param.optional; rw [hd]
          rw [ho, hany]
          simp
        unfold accepts
        dsimp only [List.length_nil]
        rw [hall, Bool.and_false]
      unfold finalCall at h
      split at h
      · rw [if_neg (by rw [hno]; decide)] at h; cases h
      · unfold call at h
        rw [if_neg (by rw [hno]; decide)] at h; cases h

example : (demo.fn 0).params.map (·.name) = ["request".toList] ∧ (resolve demo 3 0 []).1.toOption = none := by
  decide +kernel

/-- C106 fails: a `Security` whose function is not `async` always fails. -/
theorem C106_sync_false (w : World V) (f : Nat) (h : (w.fn f).kind = .sync) (log : List Nat) :
    ¬∃ v log', secure w f log = (.ok v, log') := by
  rintro ⟨v, log', e⟩
  unfold secure at e
  split at e
  · rw [if_pos h] at e; cases e
  · cases e

example : (demo.fn 1).kind = .sync := rfl

/-- C106 fails: `Resolve` of an object with an `async` `__call__` gives a coroutine that nobody awaits; the object is
never run. -/
theorem C106_object_false : ∃ (w : World Nat) (f : Nat), Gives w f [] [] 5 ∧ w.coroutine f = 0 ∧
    ∀ n log, resolve w (n + 1) f log = (.ok 0, log) :=
  ⟨⟨fun _ => ⟨[], .asyncObject, fun _ _ _ => some 5⟩, 0, fun _ => 0⟩, 0, ⟨by decide, rfl⟩, rfl, fun _ _ => rfl⟩

/-- C106: a call of a function is made exactly if Python takes it. -/
theorem C106_takes (ps : List (Param V)) (args : List V) (kw : List (Str × V)) :
    accepts ps args kw = true ↔ Takes ps args kw := by
  unfold accepts Takes
  simp only [Bool.and_eq_true, Bool.or_eq_true, decide_eq_true_iff, List.any_eq_true, List.all_eq_true,
    List.contains_iff_mem, Bool.not_eq_true', ← Bool.not_eq_true]
  rw [and_assoc]
  refine and_congr Iff.rfl (and_congr Iff.rfl (forall_congr' fun p => forall_congr' fun _ => ?_))
  have ho : p.optional = true ↔ p.default ≠ .none := by
    unfold Param.optional
    cases p.default <;> simp
  rw [ho]
  constructor
  · intro h h1
    rcases h with (h | h) | h
    · exact absurd h1 h
    · exact .inl h
    · exact .inr h
  · intro h
    by_cases hc : p.default = .none
    · rcases h hc with h | h
      · exact .inl (.inr h)
      · exact .inr h
    · exact .inl (.inl hc)

end Verif.Markers
