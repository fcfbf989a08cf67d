import Verif.Memo.Lemmas

/-!
# Property C90: a cached function gives what the function gives

However calls of cached functions overlap, and whatever the backend fails to do, a call returns what its function
returns for its arguments, a value is used for its time to live and not longer, and not after it was invalidated.
-/

namespace Verif.Memo

open Verif Json Verif.Memo.Spec

variable {V : Type}

/-- **C90**, transparency, for ordinary functions whose outcome depends only on their arguments, with arguments and
values that JSON can carry: whatever happens before, in whatever order, every call that is over ended as the function
does for its arguments. -/
theorem C90_transparent_partial (W : World V) (calls : Nat → Call V) (hn : NoCollision W calls)
    (hord : ∀ i, Ordinary W (calls i)) (result : Str → List V → List (Str × V) → Outcome V) (h : List (Int × Act V))
    (hpure : ∀ t i o f, (t, Act.finish i o f) ∈ h → o = result (dotted (calls i)) (calls i).args (calls i).kwargs)
    (hres : ∀ t i v f, (t, Act.finish i (.value v) f) ∈ h → ∀ j, W.json v = some j → W.ofJson j = v)
    (i : Nat) (o : Outcome V) (hit : Bool) (hp : (run W calls h).phase i = .done o hit) :
    o = result (dotted (calls i)) (calls i).args (calls i).kwargs := by
  have inv := inv_run W calls h
  cases hit with
  | false =>
    rcases inv.own i o hp with ⟨_, hk⟩ | ⟨t, f, hf⟩
    · exact absurd hk (genKey_some W _ (hord i))
    · exact hpure t i o f hf
  | true =>
    obtain ⟨pre, post, t, k, b, e, h1, h2, ⟨t0, j, v, h3, h4, h5, _⟩, h6, _, _⟩ := inv.hits i o hp
    have hm : (t0, Act.finish j (.value v) false) ∈ h := by rw [h1]; exact List.mem_append_left _ h3
    obtain ⟨e1, e2, e3⟩ := key_inj W calls hn i j (hord i) (hord j) k h2 h4
    rw [h6, hres t0 j v false hm b h5, e1, e2, e3]
    exact hpure t0 j _ false hm

/-- **C90**, for any functions: a value from the cache is what an earlier call with the same key gave, as JSON carries
it,
and it is not older than its time to live. -/
theorem C90_hit (W : World V) (calls : Nat → Call V) (h : List (Int × Act V)) (i : Nat) (o : Outcome V)
    (hp : (run W calls h).phase i = .done o true) :
    ∃ pre post t t0 j w b, h = pre ++ (t, Act.begin i false) :: post ∧ (t0, Act.finish j (.value w) false) ∈ pre ∧
      genKey W (calls i) = genKey W (calls j) ∧ W.json w = some b ∧ o = .value (W.ofJson b) ∧
      W.isNone (W.ofJson b) = false ∧ ∀ g, gone t0 (calls j).ttl = some g → t ≤ g := by
  obtain ⟨pre, post, t, k, b, e, h1, h2, ⟨t0, j, v, h3, h4, h5, h6⟩, h7, h8, h9⟩ := (inv_run W calls h).hits i o hp
  refine ⟨pre, post, t, t0, j, v, b, h1, h3, h2.trans h4.symm, h5, h7, h8, fun g hg => h9 g ?_⟩
  rw [h6]
  revert hg
  unfold gone Cache.expiry
  cases (calls j).ttl <;> exact id

/-- **C90**, a value that was stored is used while it lives: a later call with the same key, for which nothing was
invalidated or stored in between, returns it and does not run the function. -/
theorem C90_once (W : World V) (calls : Nat → Call V) (before between : List (Int × Act V)) (t0 t : Int) (i j : Nat)
    (w : V) (k : Str) (b : Json) (hr : (run W calls before).phase j = .running)
    (hj : genKey W (calls j) = some k) (hi : genKey W (calls i) = some k)
    (hb : W.json w = some b) (hw : W.isNone (W.ofJson b) = false)
    (hs : ∀ a ∈ between, Spares W calls k (gone t0 (calls j).ttl) a)
    (hidle : (run W calls (before ++ (t0, .finish j (.value w) false) :: between)).phase i = .idle)
    (ht : ∀ g, gone t0 (calls j).ttl = some g → t ≤ g) :
    (run W calls (before ++ (t0, .finish j (.value w) false) :: between ++ [(t, .begin i false)])).phase i =
      .done (.value (W.ofJson b)) true := by
  have hg : gone t0 (calls j).ttl = Cache.expiry t0 (calls j).ttl := by
    unfold gone Cache.expiry
    cases (calls j).ttl <;> rfl
  rw [hg] at hs ht
  have hst : aget (step W calls (run W calls before) (t0, .finish j (.value w) false)).store k =
      some (b, Cache.expiry t0 (calls j).ttl) := by
    simp only [step, hr, finish, hj]
    show aget (Cache.syncSet (codec W) t0 (run W calls before).store k w (calls j).ttl) k = _
    have hs' : Cache.syncSet (codec W) t0 (run W calls before).store k w (calls j).ttl =
        aset (run W calls before).store k (b, Cache.expiry t0 (calls j).ttl) := by
      unfold Cache.syncSet
      rw [show (codec W).enc w = some b from hb]
    rw [hs', aget_aset_self]
  have hrun := fresh_run W calls _ between k b _ hst hs
  rw [run_append]
  have e : run W calls (before ++ (t0, .finish j (.value w) false) :: between) =
      between.foldl (step W calls) (step W calls (run W calls before) (t0, .finish j (.value w) false)) := by
    unfold run
    rw [List.foldl_append, List.foldl_cons]
  rw [← e] at hrun
  simp only [step, hidle, begin, hi, get_fresh W t _ k b _ hrun ht, hw]
  simp [St.put]

/-- **C90**, an invalidated value is not used: after a successful invalidation, and until a call with the key has ended
again, a call runs its function. -/
theorem C90_invalidated (W : World V) (calls : Nat → Call V) (before between : List (Int × Act V)) (t0 t : Int) (i :
    Nat)
    (c : Call V) (k : Str) (fails : Bool) (hc : genKey W c = some k) (hi : genKey W (calls i) = some k)
    (hs : ∀ t j o f, (t, Act.finish j o f) ∈ between → genKey W (calls j) ≠ some k)
    (hidle : (run W calls (before ++ (t0, .invalidate c false false) :: between)).phase i = .idle) :
    (run W calls (before ++ (t0, .invalidate c false false) :: between ++ [(t, .begin i fails)])).phase i =
      .running := by
  have hst : aget (step W calls (run W calls before) (t0, .invalidate c false false)).store k = none := by
    simp only [step, invalidate, hc, Bool.or_self, Bool.false_eq_true, if_false]
    show aget (adel _ k) k = none
    rw [aget_adel, if_pos rfl]
  have hrun := absent_run W calls _ between k hst hs
  rw [run_append]
  have e : run W calls (before ++ (t0, .invalidate c false false) :: between) =
      between.foldl (step W calls) (step W calls (run W calls before) (t0, .invalidate c false false)) := by
    unfold run
    rw [List.foldl_append, List.foldl_cons]
  rw [← e] at hrun
  have hget : Cache.syncGet (codec W) t (run W calls (before ++ (t0, .invalidate c false false) :: between)).store k =
      ((run W calls (before ++ (t0, .invalidate c false false) :: between)).store, none) := by
    unfold Cache.syncGet
    rw [hrun]
  simp only [step, hidle, begin, hi, hget]
  cases fails <;> simp [St.put]

/-- **C90**, synchronous functions that call no cached function: such a call is a beginning and an end without anything
in between, so that all of the above is true of it. -/
theorem C90_sync (W : World V) (calls : Nat → Call V) (body : Call V → Body V) (s : St V) (now : Int) (i : Nat)
    (o : Outcome V) (hb : body (calls i) = .ends o) (hidle : s.phase i = .idle) :
    ∃ o' st hit, syncCall W body now s.store (calls i) = .back o' st ∧
      ([(now, .begin i false), (now, .finish i o false)].foldl (step W calls) s).store = st ∧
      ([(now, .begin i false), (now, .finish i o false)].foldl (step W calls) s).phase i = .done o' hit := by
  unfold syncCall
  rw [List.foldl_cons, List.foldl_cons, List.foldl_nil]
  cases hk : genKey W (calls i) with
  | none =>
    refine ⟨_, _, false, rfl, ?_, ?_⟩ <;> simp [step, hidle, begin, hk, St.put]
  | some k =>
    have hex : exec W (body (calls i)) = some o := by rw [hb]; rfl
    cases hg : Cache.syncGet (codec W) now s.store k with
    | mk st x =>
      cases x with
      | none =>
        cases o with
        | raised =>
          exact ⟨.raised, st, false, by simp [miss, hex, hg], by simp [step, hidle, begin, finish, hk, hg, St.put], by
            simp [step, hidle, begin, finish, hk, hg, St.put]⟩
        | value v =>
          exact ⟨.value v, Cache.syncSet (codec W) now st k v (calls i).ttl, false, by simp [miss, hex, hg], by
            simp [step, hidle, begin, finish, hk, hg, St.put], by simp [step, hidle, begin, finish, hk, hg, St.put]⟩
      | some v =>
        cases hn : W.isNone v with
        | true =>
          cases o with
          | raised =>
            exact ⟨.raised, st, false, by simp [miss, hex, hg, hn], by
              simp [step, hidle, begin, finish, hk, hg, hn, St.put], by
              simp [step, hidle, begin, finish, hk, hg, hn, St.put]⟩
          | value w =>
            exact ⟨.value w, Cache.syncSet (codec W) now st k w (calls i).ttl, false, by simp [miss, hex, hg, hn], by
              simp [step, hidle, begin, finish, hk, hg, hn, St.put], by
              simp [step, hidle, begin, finish, hk, hg, hn, St.put]⟩
        | false =>
          exact ⟨.value v, st, true, by simp [hg, hn], by simp [step, hidle, begin, hk, hg, hn, St.put], by
            simp [step, hidle, begin, hk, hg, hn, St.put]⟩

/-! ## The hypotheses can be met -/

/-- Some Python objects: JSON values, tuples, and objects of a class with these attributes that JSON cannot carry. -/
inductive PV where
  | j (v : Json)
  | tuple (es : Elems)
  | thing (id : Nat) (attrs : List Str)

/-- A world of these objects.  Texts have the method `title`; a digest is the padded text. -/
def exW : World PV where
  json
    | .j v => some v
    | .tuple es => some (.arr es)
    | .thing _ _ => none
  ofJson := .j
  isNone
    | .j .null => true
    | _ => false
  hasattr
    | .j (.str _), n => n = "title".toList
    | .thing _ attrs, n => attrs.contains n
    | _, _ => false
  md5 s := (s ++ List.replicate 32 '0').take 32

/-- A call of the function `load` of the module `shop`, cached for a minute. -/
def exCall (n : Int) : Call PV := ⟨"shop".toList, "load".toList, "load".toList, false, [.j (.int n)], [], some 60⟩

/-- Calls with the numbers 0 and 1. -/
def exCalls (i : Nat) : Call PV := if i % 2 = 0 then exCall 0 else exCall 1

theorem exCall_ordinary (n : Int) : Ordinary exW (exCall n) := by
  refine ⟨rfl, (by decide : '<' ∉ "shop".toList ++ '.' :: "load".toList), ?_, ?_, fun kv hkv => by cases hkv⟩
  · intro a ha
    cases ha
    rfl
  · intro a ha
    rw [List.mem_singleton.1 ha]
    exact ⟨.int n, rfl, rfl⟩

example : ∀ i, Ordinary exW (exCalls i) := by
  intro i
  unfold exCalls
  split <;> exact exCall_ordinary _

example : NoCollision exW exCalls := by
  refine ⟨fun s => by simp [exW], ?_⟩
  intro i j a b ha hb h
  unfold exCalls at ha hb
  have t0 : keyText exW (exCall 0) = some "{\"args\":[0],\"kwargs\":{}}".toList := by decide +kernel
  have t1 : keyText exW (exCall 1) = some "{\"args\":[1],\"kwargs\":{}}".toList := by decide +kernel
  have d : exW.md5 "{\"args\":[0],\"kwargs\":{}}".toList ≠ exW.md5 "{\"args\":[1],\"kwargs\":{}}".toList := by
    decide +kernel
  split at ha <;> split at hb
  · rw [ha] at hb; exact Option.some.inj hb
  · rw [t0] at ha; rw [t1] at hb; cases ha; cases hb; exact absurd h d
  · rw [t1] at ha; rw [t0] at hb; cases ha; cases hb; exact absurd h.symm d
  · rw [ha] at hb; exact Option.some.inj hb

/-- Two overlapping calls with 0, one with 1, and one with 0 later, which gets the value from the cache. -/
def exHistory : List (Int × Act PV) :=
  [(0, .begin 0 false), (1, .begin 2 false), (2, .begin 1 true), (3, .finish 2 (.value (.j (.int 10))) false),
    (4, .finish 1 (.value (.j (.int 11))) false), (5, .finish 0 (.value (.j (.int 10))) true), (50, .begin 4 false)]

example : (run exW exCalls exHistory).phase 4 = .done (.value (.j (.int 10))) true ∧
    (run exW exCalls exHistory).phase 1 = .done (.value (.j (.int 11))) false := by
  constructor <;> rfl

/-! ## Where it fails -/

/-- **C90** fails for methods: the object is not part of the key, so that one object gets the value of another.  Here
the
method `Cart.total` of two carts gives 10 and 20; the second call is answered with 10. -/
theorem C90_self_false : ∃ (calls : Nat → Call PV) (a b : PV) (h : List (Int × Act PV)), (calls 0).args = [a] ∧
    (calls 1).args = [b] ∧ a ≠ b ∧ h = [(0, .begin 0 false), (1, .finish 0 (.value (.j (.int 10))) false), (2, .begin
        1 false)] ∧
    (run exW calls h).phase 1 = .done (.value (.j (.int 10))) true := by
  refine ⟨fun i => ⟨"shop".toList, "Cart.total".toList, "total".toList, false, [.thing i ["total".toList]], [], some
      60⟩,
    .thing 0 ["total".toList], .thing 1 ["total".toList], _, rfl, rfl, (fun e => by cases e), rfl, rfl⟩

/-- **C90** fails for an ordinary function that has the name of an attribute of its first argument: `title("a")` is
cached
and `title("b")` is answered with it. -/
theorem C90_name_false : ∃ (calls : Nat → Call PV) (h : List (Int × Act PV)),
    (calls 0).args = [.j (.str "a".toList)] ∧ (calls 1).args = [.j (.str "b".toList)] ∧
    h = [(0, .begin 0 false), (1, .finish 0 (.value (.j (.str "A".toList))) false), (2, .begin 1 false)] ∧
    (run exW calls h).phase 1 = .done (.value (.j (.str "A".toList))) true := by
  refine ⟨fun i => ⟨"shop".toList, "title".toList, "title".toList, false,
    [.j (.str (if i = 0 then "a".toList else "b".toList))], [], some 60⟩, _, rfl, rfl, rfl, rfl⟩

/-- **C90** fails for functions made inside other functions: their name is the key, so that two of them made by the same
function share values; and `f.<locals>.g` shares them with `f.g`. -/
theorem C90_locals_false : ∃ c d : Call PV, dotted c = "shop.f.<locals>.g".toList ∧ dotted d = "shop.f.g".toList ∧
    genKey exW c = genKey exW d ∧ (genKey exW c).isSome = true := by
  refine ⟨⟨"shop".toList, "f.<locals>.g".toList, "g".toList, false, [], [], none⟩,
    ⟨"shop".toList, "f.g".toList, "g".toList, false, [], [], none⟩, by decide, by decide,
    by decide +kernel, by decide +kernel⟩

/-- **C90** fails for values that JSON changes: the first call returns the tuple, the second one a list. -/
theorem C90_shape_false : ∃ (calls : Nat → Call PV) (h : List (Int × Act PV)) (es : Elems), calls 0 = calls 1 ∧
    Ordinary exW (calls 0) ∧ h = [(0, .begin 0 false), (1, .finish 0 (.value (.tuple es)) false), (2, .begin 1 false)] ∧
    (run exW calls h).phase 0 = .done (.value (.tuple es)) false ∧
    (run exW calls h).phase 1 = .done (.value (.j (.arr es))) true := by
  exact ⟨fun _ => exCall 0, _, .cons (.int 1) .nil, rfl, exCall_ordinary 0, rfl, rfl, rfl⟩

/-- **C90** fails for arguments that JSON cannot carry: the call raises, although the function was never asked. -/
theorem C90_argument_false : ∃ calls : Nat → Call PV, (run exW calls [(0, .begin 0 false)]).phase 0 =
    .done .raised false := by
  exact ⟨fun _ => ⟨"shop".toList, "load".toList, "load".toList, false, [.thing 0 []], [], none⟩, rfl⟩

/-- **C90** fails for invalidation inside a running event loop, for every history and call: nothing is invalidated. -/
theorem C90_loop_false (W : World V) (calls : Nat → Call V) (h : List (Int × Act V)) (t : Int) (c : Call V)
    (fails : Bool) : run W calls (h ++ [(t, .invalidate c true fails)]) = run W calls h := by
  rw [run_append]
  simp only [step, invalidate, Bool.true_or, if_true]
  split <;> rfl

/-- **C90** fails for invalidation through a bound method: `invalidate(cart.price, 7)` leaves the value of
`cart.price(7)`
in place, because the first argument is taken for the object. -/
theorem C90_bound_false : ∃ (calls : Nat → Call PV) (c : Call PV) (h : List (Int × Act PV)),
    (calls 0).args = [.thing 0 ["price".toList], .j (.int 7)] ∧ calls 1 = calls 0 ∧ c.bound = true ∧
    c.args = [.j (.int 7)] ∧ dotted c = dotted (calls 0) ∧
    h = [(0, .begin 0 false), (1, .finish 0 (.value (.j (.int 10))) false), (2, .invalidate c false false),
      (3, .begin 1 false)] ∧
    (run exW calls h).phase 1 = .done (.value (.j (.int 10))) true := by
  exact ⟨fun _ => ⟨"shop".toList, "Cart.price".toList, "price".toList, false,
      [.thing 0 ["price".toList], .j (.int 7)], [], some 60⟩,
    ⟨"shop".toList, "Cart.price".toList, "price".toList, true, [.j (.int 7)], [], some 60⟩, _, rfl, rfl, rfl, rfl, rfl,
    rfl, rfl⟩

/-- Calls 0, …, n - 1 begin one after another, before any of them has ended. -/
def overlapping (n : Nat) : List (Int × Act PV) := (List.range n).map fun (i : Nat) => ((i : Int), Act.begin i false)

/-- **C90** fails as protection against repeated work: every call makes its own lock, so that any number of calls with
the same arguments can all be in the function at once. -/
theorem C90_lock_false (n : Nat) : ∃ calls : Nat → Call PV, (∀ i, calls i = calls 0) ∧ Ordinary exW (calls 0) ∧
    ∀ i < n, (run exW calls (overlapping n)).phase i = .running := by
  refine ⟨fun _ => exCall 0, fun _ => rfl, exCall_ordinary 0, ?_⟩
  obtain ⟨k, hk⟩ : ∃ k, genKey exW (exCall 0) = some k := by
    cases h : genKey exW (exCall 0) with
    | none => exact absurd h (genKey_some _ _ (exCall_ordinary 0))
    | some k => exact ⟨k, rfl⟩
  have key : ∀ m, (run exW (fun _ => exCall 0) (overlapping m)).store = [] ∧
      (∀ i < m, (run exW (fun _ => exCall 0) (overlapping m)).phase i =
        .running) ∧
      ∀ i, m ≤ i → (run exW (fun _ => exCall 0) (overlapping m)).phase i =
        .idle := by
    intro m
    induction m with
    | zero => exact ⟨rfl, fun i hi => absurd hi (Nat.not_lt_zero i), fun i _ => rfl⟩
    | succ m ih =>
      obtain ⟨h1, h2, h3⟩ := ih
      rw [show overlapping (m + 1) = overlapping m ++ [((m : Int), Act.begin m false)] by
        simp [overlapping, List.range_succ], run_append]
      generalize run exW (fun _ => exCall 0) (overlapping m) = s at h1 h2 h3
      have hb : step exW (fun _ => exCall 0) s ((m : Int), .begin m false) = s.put [] m .running := by
        simp only [step, h3 m (Nat.le_refl m), begin, hk, h1]
        rfl
      rw [hb]
      refine ⟨rfl, fun i hi => ?_, fun i hi => ?_⟩
      · unfold St.put
        simp only
        split
        · rfl
        · exact h2 i (by omega)
      · unfold St.put
        simp only
        rw [if_neg (by omega)]
        exact h3 i (by omega)
  exact (key n).2.1

/-- **C90** fails for synchronous functions that call a cached function, themselves or another one: with nothing in the
cache, such a call never returns. -/
theorem C90_nested_false (W : World V) (body : Call V → Body V) (now : Int) (c inner : Call V) (next : Outcome V →
    Body V)
    (hb : body c = .calls inner next) (hc : genKey W c ≠ none) (hi : genKey W inner ≠ none) :
    syncCall W body now [] c = .stuck := by
  cases h1 : genKey W c with
  | none => exact absurd h1 hc
  | some k =>
    cases h2 : genKey W inner with
    | none => exact absurd h2 hi
    | some k' =>
      have hg : Cache.syncGet (codec W) now [] k = ([], none) := rfl
      simp only [syncCall, h1, hg, miss, hb, exec, h2]

/-- For example a function that calls itself with a smaller number. -/
example : syncCall exW (fun c => match c.args with
      | [.j (.int n)] => if n ≤ 1 then .ends (.value (.j (.int 1))) else .calls (exCall (n - 1)) .ends
      | _ => .ends .raised) 0 [] (exCall 3) = .stuck :=
  C90_nested_false exW _ 0 (exCall 3) (exCall 2) .ends rfl (genKey_some _ _ (exCall_ordinary 3))
    (genKey_some _ _ (exCall_ordinary 2))

/-- **C90** for synchronous functions: a call inside whose key cannot be made raises, before the lock, and the function
goes on with that: it comes to what it would come to if it had the exception from elsewhere. -/
theorem C90_inner_raises (W : World V) (body body' : Call V → Body V) (now : Int) (store : Cache.Store Json)
    (c inner : Call V) (next : Outcome V → Body V) (hb : body c = .calls inner next) (hi : genKey W inner = none)
    (hb' : body' c = next .raised) :
    syncCall W body now store c = syncCall W body' now store c := by
  have h : exec W (body c) = exec W (body' c) := by
    rw [hb, hb']
    simp only [exec, hi]
  unfold syncCall miss
  rw [h]

/-- A function that calls another with an object that has no JSON form. -/
example : syncCall exW (fun _ => .calls { exCall 1 with args := [.j .null, .thing 0 []] } .ends) 0 [] (exCall 3) =
    syncCall exW (fun _ => .ends .raised) 0 [] (exCall 3) :=
  C90_inner_raises exW _ _ 0 [] (exCall 3) _ .ends rfl (by decide +kernel) rfl

end Verif.Memo
