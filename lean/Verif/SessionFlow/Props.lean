import Verif.SessionFlow.Lemmas
import Verif.SessionFlow.Instance

/-!
# C142: a browser keeps its session

English: the cookie of a session reaches the browser as configured.  A browser that has been given a session gets it
back with every request that the cookie belongs to, in the state in which the last response left it, until the age has
passed, and with no other request.
-/

namespace Verif.SessionFlow.Props

open Verif Verif.Session Verif.SessionFlow Verif.SessionFlow.Spec
open Verif.SetCookie (find)

/-! ## The cookie -/

/-- The field for a session says what was configured: the name, the session between quotes, the path, the age unless
it is zero, the flags and the domain. -/
theorem C142_field (s : Site) (hs : Sane s) (ht : Timed s) (now : Nat) (x : Sess) :
    ∃ seen, SetCookie.Spec.seen (s.field now x) = some seen ∧ seen.name = s.name ∧
      seen.value = '"' :: s.signer.sign now x ++ ['"'] ∧ seen.get "path".toList = some s.path ∧
      (seen.get "max-age".toList).bind SetCookie.Spec.seconds = s.maxAge.filter (· ≠ 0) ∧
      seen.get "expires".toList = none ∧ seen.get "httponly".toList = some [] ∧
      seen.get "samesite".toList = some s.sameSite ∧
      seen.get "secure".toList = (if s.httpsOnly then some [] else none) ∧ seen.get "domain".toList = s.domain := by
  refine ⟨_, seen_field s hs ht now x, rfl, rfl, ?_⟩
  obtain ⟨g1, g2, g3, g4⟩ := flag_gets s
  have hd : ∀ q, "path".toList ≠ q → "max-age".toList ≠ q →
      find ([("path".toList, s.path)] ++ ageAttrs s.maxAge ++ flagAttrs s) q = find (flagAttrs s) q := by
    intro q h1 h2
    rw [List.append_assoc, SetCookie.find_absent_append _ _ _ (one_ne _ _ _ h1),
      SetCookie.find_absent_append _ _ _ (age_ne _ _ h2)]
  refine ⟨?_, ?_, ?_, ?_, ?_, ?_, ?_⟩
  · show find ([("path".toList, s.path)] ++ ageAttrs s.maxAge ++ flagAttrs s) _ = _
    rw [SetCookie.find_append_absent _ _ _ (flag_ne s _ (by decide) (by decide) (by decide) (by decide)),
      SetCookie.find_append_absent _ _ _ (age_ne _ _ (by decide)), find_one]
  · show (find ([("path".toList, s.path)] ++ ageAttrs s.maxAge ++ flagAttrs s) _).bind _ = _
    rw [SetCookie.find_append_absent _ _ _ (flag_ne s _ (by decide) (by decide) (by decide) (by decide)),
      SetCookie.find_absent_append _ _ _ (one_ne _ _ _ (by decide)), age_get]
    rfl
  · show find ([("path".toList, s.path)] ++ ageAttrs s.maxAge ++ flagAttrs s) _ = _
    rw [SetCookie.find_append_absent _ _ _ (flag_ne s _ (by decide) (by decide) (by decide) (by decide)),
      SetCookie.find_append_absent _ _ _ (age_ne _ _ (by decide)), find_none _ _ _ (by decide)]
  · exact (hd _ (by decide) (by decide)).trans g1
  · exact (hd _ (by decide) (by decide)).trans g2
  · exact (hd _ (by decide) (by decide)).trans g3
  · exact (hd _ (by decide) (by decide)).trans g4

example : Sane (site 'x' (some 60) "/" true) ∧ Timed (site 'x' (some 60) "/" true) :=
  ⟨site_sane _ _ _ _ (by decide) (by intro n hn; injection hn; omega), site_timed _ _ _ _ (by decide)⟩

example : (site 'x' (some 60) "/" true).field 2 [] =
    "session=\"xii.\"; path=/; Max-Age=60; httponly; samesite=lax; secure".toList := by decide +kernel

/-- The field that ends a session removes the cookie of the session from the browser and no other, and the field for a
session leaves exactly one. -/
theorem C142_kept (c : SetCookie.Spec.Client) (hc : ReadsDate c) (s : Site) (hs : Sane s) (ht : Timed s)
    (k : SetCookie.Spec.Key) (hk : home c s = some k) (now t : Nat) (b : List Kept) (x : Sess) :
    take c now b s.ending = (b.filter fun y => y.key ≠ k) ∧
    take c now b (s.field t x) = (b.filter fun y => y.key ≠ k) ++
      [⟨k, '"' :: s.signer.sign t x ++ ['"'], (s.maxAge.filter (· ≠ 0)).map fun n => (now : Int) + n, s.httpsOnly⟩] :=
  ⟨take_ending c hc s hs k hk now b, take_field c s hs ht k hk now t b x⟩

example : home client (site 'x' (some 60) "/" true) = some ("session".toList, "host".toList, "/".toList) ∧
    ReadsDate client := ⟨by decide +kernel, client_date⟩

/-- The cookies that the application sets stay.  If it sets the cookie of the session itself, nothing is added;
otherwise the session is added if there is one, and is ended if there was one. -/
theorem C142_already (s : Site) (now : Nat) (was : Bool) (fields : List Str) (left : Sess) :
    ((∃ v, s.name ++ '=' :: v ∈ fields) → s.respond now was fields left = fields) ∧
    ((¬ ∃ v, s.name ++ '=' :: v ∈ fields) →
      (left ≠ [] → s.respond now was fields left = fields ++ [s.field now left]) ∧
      (left = [] → was = false → s.respond now was fields left = fields ++ [s.ending]) ∧
      (left = [] → was = true → s.respond now was fields left = fields)) := by
  have hp : ∀ f, startsWith f (s.name ++ "=".toList) = true ↔ ∃ v, f = s.name ++ '=' :: v := by
    intro f
    have e : "=".toList = ['='] := by decide
    unfold startsWith
    rw [e, List.isPrefixOf_iff_prefix]
    constructor
    · rintro ⟨v, h⟩
      exact ⟨v, by rw [← h, List.append_assoc]; rfl⟩
    · rintro ⟨v, h⟩
      exact ⟨v, by rw [h, List.append_assoc]; rfl⟩
  have ha : (fields.any fun f => startsWith f (s.name ++ "=".toList)) = true ↔ ∃ v, s.name ++ '=' :: v ∈ fields := by
    rw [List.any_eq_true]
    constructor
    · rintro ⟨f, hf, h⟩
      obtain ⟨v, rfl⟩ := (hp f).1 h
      exact ⟨v, hf⟩
    · rintro ⟨v, hf⟩
      exact ⟨_, hf, (hp _).2 ⟨v, rfl⟩⟩
  unfold Site.respond
  refine ⟨fun h => by rw [if_pos (ha.2 h)], fun h => ?_⟩
  simp only [if_neg (fun h' => h (ha.1 h'))]
  refine ⟨fun hl => by rw [if_pos hl], fun hl hw => ?_, fun hl hw => ?_⟩
  · rw [if_neg (fun h => h hl), hw]; rfl
  · rw [if_neg (fun h => h hl), hw]; rfl

example : (site 'x' none "/" false).respond 2 true ["session=own".toList] [("u".toList, none)] =
      ["session=own".toList] ∧
    (site 'x' none "/" false).respond 2 true ["sessions=own".toList, "s".toList] [("u".toList, none)] =
      ["sessions=own".toList, "s".toList, (site 'x' none "/" false).field 2 [("u".toList, none)]] := by
  refine ⟨?_, ?_⟩ <;> decide +kernel

/-! ## Histories -/

/-- With requests that overlap in any way, every request sees what it would see with a store that holds one session and
the time of the last response. -/
theorem C142_runs_partial (c : SetCookie.Spec.Client) (hc : ReadsDate c) (s : Site) (hs : Sane s) (ht : Timed s)
    (k : SetCookie.Spec.Key) (hk : home c s = some k) (order : List Kept → List Kept) (ho : Orders order)
    (b : List Kept) (hb : Tidy s k b) (hn : ∀ x ∈ b, x.key ≠ k) (as : List Act) (ha : AllWithin s k as)
    (hi : InOrder 0 as) : (run s c order (fresh b) as).log = (Store.run s empty as).log :=
  (rel_run c hc s hs ht k hk order ho as 0 _ _ (rel_start s k b hb hn) ha hi).log

/-- A login, and a request that sees it. -/
def login (x : Sess) : List Act :=
  [.start 0 ⟨0, "/".toList, true⟩, .finish 0 0 (fun _ => x), .start 1 ⟨5, "/a".toList, true⟩]

/-- A session. -/
def user : Sess := [("u".toList, some "1".toList)]

example : AllWithin (site 'x' (some 60) "/" true) ("session".toList, "host".toList, "/".toList) (login user) ∧
    InOrder 0 (login user) := by
  refine ⟨?_, by simp [login, InOrder, Act.time]⟩
  intro a ha i v e
  subst e
  simp only [login, List.mem_cons, List.not_mem_nil, or_false] at ha
  rcases ha with h | h | h
  · injection h with _ h; subst h; exact ⟨by decide, fun _ => rfl⟩
  · cases h
  · injection h with _ h; subst h; exact ⟨by decide, fun _ => rfl⟩

example : (run (site 'x' (some 60) "/" true) client id (fresh []) (login user)).log = [(0, []), (1, user)] := by
  decide +kernel

/-- The cookies of others stay as they are. -/
theorem C142_others (c : SetCookie.Spec.Client) (hc : ReadsDate c) (s : Site) (hs : Sane s) (ht : Timed s)
    (k : SetCookie.Spec.Key) (hk : home c s = some k) (order : List Kept → List Kept) (w : World) (as : List Act) :
    ((run s c order w as).jar.filter fun y => y.key ≠ k) = w.jar.filter fun y => y.key ≠ k := by
  induction as generalizing w with
  | nil => rfl
  | cons a as ih =>
    refine (ih (step s c order w a)).trans ?_
    cases a with
    | start i v => rfl
    | finish i now f =>
      simp only [step]
      cases w.waiting i with
      | none => rfl
      | some p =>
        obtain ⟨x, e⟩ := p
        simp only
        unfold Site.respond
        simp only [List.any_nil, Bool.false_eq_true, if_false, List.nil_append]
        have hff : ∀ b : List Kept, ((b.filter fun y => y.key ≠ k).filter fun y => y.key ≠ k) =
            b.filter fun y => y.key ≠ k := by
          intro b; rw [List.filter_filter]; simp
        split
        · simp only [List.foldl_cons, List.foldl_nil]
          rw [take_field c s hs ht k hk, List.filter_append, hff]
          simp
        · split
          · simp only [List.foldl_cons, List.foldl_nil]
            rw [take_ending c hc s hs k hk, hff]
          · rfl

example : (fresh [⟨("lang".toList, "host".toList, "/".toList), "pt".toList, none, false⟩]).jar ≠ [] := by decide

/-- When a response has left a session, or has emptied one, a request within the age sees what it left, also after
any requests that began later and changed nothing. -/
theorem C142_survives (c : SetCookie.Spec.Client) (hc : ReadsDate c) (s : Site) (hs : Sane s) (ht : Timed s)
    (k : SetCookie.Spec.Key) (hk : home c s = some k) (order : List Kept → List Kept) (ho : Orders order)
    (b : List Kept) (hb : Tidy s k b) (hn : ∀ x ∈ b, x.key ≠ k) (as : List Act) (i t : Nat) (f : Sess → Sess)
    (later : List Act) (v : Visit) (ha : AllWithin s k (as ++ .finish i t f :: later)) (hv : Within s k v)
    (hi : InOrder 0 (as ++ .finish i t f :: (later ++ [.start i v]))) (x : Sess) (e : Bool)
    (hw : (run s c order (fresh b) as).waiting i = some (x, e)) (hx : f x ≠ [] ∨ x ≠ []) (hr : Readers later)
    (hsoon : Soon s t later) (hf : Fresh s t v.time) :
    (view s order (run s c order (fresh b) (as ++ .finish i t f :: later)).jar v).1 = f x := by
  rw [show as ++ Act.finish i t f :: (later ++ [Act.start i v]) =
    (as ++ Act.finish i t f :: later) ++ [Act.start i v] by simp, inOrder_append] at hi
  obtain ⟨hi1, hi2⟩ := hi
  have hrel := rel_run c hc s hs ht k hk order ho _ 0 _ _ (rel_start s k b hb hn) ha hi1
  rw [rel_view s ht k (home_name c s k hk) order ho _ _ _ hrel v hv hi2.1]
  rw [inOrder_append] at hi1
  have hrel' := rel_run c hc s hs ht k hk order ho as 0 _ _ (rel_start s k b hb hn)
    (fun a h => ha a (List.mem_append.mpr (.inl h))) hi1.1
  have hm : (Store.run s empty as).waiting i = some x := by rw [hrel'.waiting i, hw]; rfl
  have h0 : Holds t (f x) [] (Store.step s (Store.run s empty as) (.finish i t f)) := by
    simp only [Store.step, hm]
    refine ⟨?_, fun j h => nomatch h.choose_spec⟩
    by_cases hfx : f x ≠ []
    · simp only [if_pos hfx]
      exact .inr ⟨t, Nat.le_refl _, rfl⟩
    · have hxx : x ≠ [] := hx.resolve_left hfx
      simp only [if_neg hfx, if_pos hxx]
      exact .inl ⟨Decidable.not_not.mp hfx, trivial⟩
  have h1 := holds_run s t (f x) later [] t _ h0 (Nat.le_refl _) hi1.2.2 hsoon hr
  rw [store_append]
  exact holds_at s t (f x) _ _ h1 v.time hf

example : Readers [.start 1 ⟨1, "/".toList, true⟩, .finish 1 2 id] := by
  intro pre i now g post e
  match pre, e with
  | [], e => exact absurd e (by simp)
  | [a], e =>
    simp only [List.cons_append, List.nil_append, List.cons.injEq, Act.finish.injEq] at e
    obtain ⟨e1, ⟨e2, _, e3⟩, _⟩ := e
    subst e1 e2 e3
    exact ⟨fun _ => rfl, ⟨1, "/".toList, true⟩, List.mem_singleton.mpr rfl⟩
  | a :: a' :: p, e => simp at e

/-- After the age has passed since the last response the session is gone. -/
theorem C142_idle (c : SetCookie.Spec.Client) (hc : ReadsDate c) (s : Site) (hs : Sane s) (ht : Timed s)
    (k : SetCookie.Spec.Key) (hk : home c s = some k) (order : List Kept → List Kept) (ho : Orders order)
    (b : List Kept) (hb : Tidy s k b) (hn : ∀ x ∈ b, x.key ≠ k) (as : List Act) (ha : AllWithin s k as)
    (hi : InOrder 0 as) (v : Visit) (hv : Within s k v) (n : Int) (hm : s.maxAge = some n)
    (hlast : ∀ a ∈ as, (a.time : Int) + n < v.time) :
    (view s order (run s c order (fresh b) as).jar v).1 = [] := by
  have hrel := rel_run c hc s hs ht k hk order ho as 0 _ _ (rel_start s k b hb hn) ha hi
  have hclock : ∀ (as : List Act) (t : Nat), (t : Int) ≤ v.time → (∀ a ∈ as, (a.time : Int) ≤ v.time) →
      (clockAfter t as : Int) ≤ v.time := by
    intro as
    induction as with
    | nil => intro t h _; exact h
    | cons a as ih => intro t _ h; exact ih a.time (h a (by simp)) fun a' h' => h a' (List.mem_cons_of_mem _ h')
  have hn0 := hs.2.2.2.2 n hm
  have hc' := hclock as 0 (Int.natCast_nonneg _) (fun a h => by have := hlast a h; omega)
  rw [rel_view s ht k (home_name c s k hk) order ho _ _ _ hrel v hv (by omega)]
  simp only
  unfold Store.at
  have key : ∀ (as : List Act) (m : Store), (∀ p, m.session = some p → ∃ a ∈ as, (p.1 = a.time)) →
      ∀ bs : List Act, (∀ p, (Store.run s m bs).session = some p → ∃ a ∈ as ++ bs, p.1 = a.time) := by
    intro as m h bs
    induction bs generalizing as m with
    | nil => intro p hp; rw [List.append_nil]; exact h p hp
    | cons a bs ih =>
      have := ih (as ++ [a]) (Store.step s m a) (by
        intro p hp
        cases a with
        | start j u =>
          obtain ⟨a, h1, h2⟩ := h p hp
          exact ⟨a, List.mem_append.mpr (.inl h1), h2⟩
        | finish j now g =>
          simp only [Store.step] at hp
          cases hw : m.waiting j with
          | none =>
            rw [hw] at hp
            obtain ⟨a, h1, h2⟩ := h p hp
            exact ⟨a, List.mem_append.mpr (.inl h1), h2⟩
          | some y =>
            rw [hw] at hp
            simp only at hp
            split at hp
            · injection hp with hp
              subst hp
              exact ⟨_, List.mem_append.mpr (.inr (List.mem_singleton.mpr rfl)), rfl⟩
            · split at hp
              · cases hp
              · obtain ⟨a, h1, h2⟩ := h p hp
                exact ⟨a, List.mem_append.mpr (.inl h1), h2⟩)
      intro p hp
      have := this p hp
      rwa [List.append_assoc] at this
  cases hse : (Store.run s empty as).session with
  | none => rfl
  | some p =>
    obtain ⟨a, h1, h2⟩ := key [] empty (fun p hp => nomatch hp) as p hse
    obtain ⟨t, x⟩ := p
    have hnot : ¬ Fresh s t v.time := by
      intro hf
      have h3 := hlast a h1
      have h4 := hf n hm
      simp only at h2
      omega
    exact if_neg hnot

example : ∀ a ∈ login user, (a.time : Int) + 60 < 66 := by
  intro a ha
  simp only [login, List.mem_cons, List.not_mem_nil, or_false] at ha
  rcases ha with h | h | h <;> subst h <;> simp [Act.time]

/-- A request outside the path, or without https where https is asked for, has no session and carries no cookie of
it. -/
theorem C142_apart (c : SetCookie.Spec.Client) (hc : ReadsDate c) (s : Site) (hs : Sane s) (ht : Timed s)
    (k : SetCookie.Spec.Key) (hk : home c s = some k) (order : List Kept → List Kept) (ho : Orders order)
    (b : List Kept) (hb : Tidy s k b) (hn : ∀ x ∈ b, x.key ≠ k) (as : List Act) (ha : AllWithin s k as)
    (hi : InOrder 0 as) (v : Visit) (hv : ¬ Within s k v) :
    (view s order (run s c order (fresh b) as).jar v).1 = [] ∧
    ∀ y ∈ order ((run s c order (fresh b) as).jar.filter fun y => Goes v y), y.key.1 ≠ s.name := by
  have hrel := rel_run c hc s hs ht k hk order ho as 0 _ _ (rel_start s k b hb hn) ha hi
  have hnot : (((Store.run s empty as).session.map (cookieOf s k)).toList.filter fun y => Goes v y) = [] := by
    rw [List.filter_eq_nil_iff]
    intro y hy
    cases hse : (Store.run s empty as).session with
    | none => rw [hse] at hy; cases hy
    | some p =>
      rw [hse] at hy
      rw [List.mem_singleton.mp hy]
      simp only [decide_eq_true_eq]
      exact fun hg => hv ⟨hg.1, hg.2.2⟩
  have hlen : ((Store.run s empty as).session.map (cookieOf s k)).toList.length ≤ 1 := by
    cases (Store.run s empty as).session <;> simp
  have hname := home_name c s k hk
  refine ⟨?_, ?_⟩
  · rw [view_eq s k hname order ho _ hrel.tidy v _ hlen hrel.mine, hnot]
    rfl
  · have := mine_sent s k hname order ho _ hrel.tidy v _ hlen hrel.mine
    rw [hnot, List.filter_eq_nil_iff] at this
    intro y hy
    simpa using this y hy

example : ¬ Within (site 'x' (some 60) "/" true) ("session".toList, "host".toList, "/".toList) ⟨5, "/".toList, false⟩ :=
  fun h => nomatch h.2 rfl

/-! ## What does not hold -/

/-- A request that changes nothing, began before a logout and ends after it, brings the session back. -/
theorem C142_logout_false : ¬ ∀ (c : SetCookie.Spec.Client), ReadsDate c → ∀ s : Site, Sane s → Timed s →
    ∀ k, home c s = some k → ∀ (as : List Act) (i t j u : Nat) (v : Visit),
      AllWithin s k as → Within s k v → InOrder 0 (as ++ [.finish i t (fun _ => []), .finish j u id]) → u ≤ v.time →
      (view s id (run s c id (fresh []) (as ++ [.finish i t (fun _ => []), .finish j u id])).jar v).1 = [] := by
  intro h
  have := h client client_date (site 'x' none "/" false) (site_sane _ _ _ _ (by decide) (fun n hn => nomatch hn))
    (site_timed _ _ _ _ (by decide)) ("session".toList, "host".toList, "/".toList) (by decide +kernel)
    [.start 0 ⟨0, "/".toList, true⟩, .finish 0 0 (fun _ => user), .start 1 ⟨1, "/".toList, true⟩,
      .start 2 ⟨1, "/".toList, true⟩] 2 2 1 3 ⟨4, "/".toList, true⟩
    (by
      intro a ha i v e
      subst e
      simp only [List.mem_cons, List.not_mem_nil, or_false] at ha
      rcases ha with h | h | h | h
      · injection h with _ h; subst h; exact ⟨by decide, fun _ => rfl⟩
      · cases h
      · injection h with _ h; subst h; exact ⟨by decide, fun _ => rfl⟩
      · injection h with _ h; subst h; exact ⟨by decide, fun _ => rfl⟩)
    ⟨by decide, fun _ => rfl⟩ (by simp [InOrder, Act.time]) (by decide)
  revert this
  decide +kernel

/-- Of two requests at the same time that each put something into the session, one loses it. -/
theorem C142_update_false : ¬ ∀ (c : SetCookie.Spec.Client), ReadsDate c → ∀ s : Site, Sane s → Timed s →
    ∀ k, home c s = some k → ∀ (v : Visit) (a b x y : Str), a ≠ b → Within s k v →
      aget (view s id (run s c id (fresh []) [.start 0 v, .start 1 v, .finish 0 v.time (fun e => aset e a (some x)),
        .finish 1 v.time (fun e => aset e b (some y))]).jar v).1 a = some (some x) := by
  intro h
  have := h client client_date (site 'x' none "/" false) (site_sane _ _ _ _ (by decide) (fun n hn => nomatch hn))
    (site_timed _ _ _ _ (by decide)) ("session".toList, "host".toList, "/".toList) (by decide +kernel)
    ⟨0, "/".toList, true⟩ "a".toList "b".toList [] [] (by decide) ⟨by decide, fun _ => rfl⟩
  revert this
  decide +kernel

/-- The age is not the age of the session: with a request every second it stays for as long as one likes. -/
theorem C142_age_false (c : SetCookie.Spec.Client) (hc : ReadsDate c) (s : Site) (hs : Sane s) (ht : Timed s)
    (k : SetCookie.Spec.Key) (hk : home c s = some k) (n : Int) (hm : s.maxAge = some n) (hn : 0 < n) (path : Str)
    (hp : Below k.2.2 path) (x : Sess) (hx : x ≠ []) (N : Nat) :
    ∃ later, (∀ j u g, Act.finish j u g ∈ later → g = id) ∧
      (view s id (run s c id (fresh []) (.start 0 ⟨0, path, true⟩ :: .finish 0 0 (fun _ => x) :: later)).jar
        ⟨N, path, true⟩).1 = x := by
  let tick : Nat → List Act := fun i => [.start 0 ⟨i + 1, path, true⟩, .finish 0 (i + 1) id]
  have hmem : ∀ N, ∀ a ∈ (List.range N).flatMap tick, (∃ i v, a = .start i v ∧ v.path = path ∧ v.https = true) ∨
      ∃ i u, a = .finish i u id := by
    intro N a ha
    obtain ⟨i, _, hi⟩ := List.mem_flatMap.mp ha
    rcases List.mem_cons.mp hi with h | hi
    · exact .inl ⟨_, _, h, rfl, rfl⟩
    · exact .inr ⟨_, _, List.mem_singleton.mp hi⟩
  have hwithin : ∀ u, Within s k ⟨u, path, true⟩ := fun u => ⟨hp, fun _ => rfl⟩
  have hi : ∀ N, InOrder 0 (.start 0 ⟨0, path, true⟩ :: .finish 0 0 (fun _ => x) :: (List.range N).flatMap tick) ∧
      clockAfter 0 (.start 0 ⟨0, path, true⟩ :: .finish 0 0 (fun _ => x) :: (List.range N).flatMap tick) = N := by
    intro N
    induction N with
    | zero => exact ⟨by simp [InOrder, Act.time], rfl⟩
    | succ N ih =>
      rw [List.range_succ, List.flatMap_append, ← List.cons_append, ← List.cons_append]
      constructor
      · rw [inOrder_append]
        refine ⟨ih.1, ?_⟩
        rw [ih.2]
        simp [tick, InOrder, Act.time]
      · unfold clockAfter
        rw [List.foldl_append]
        simp [tick, Act.time]
  have hst : ∀ N, (Store.run s empty (.start 0 ⟨0, path, true⟩ :: .finish 0 0 (fun _ => x) ::
      (List.range N).flatMap tick)).session = some (N, x) := by
    intro N
    induction N with
    | zero =>
      show (if x ≠ [] then some (0, x) else if ([] : Sess) ≠ [] then none else none) = some (0, x)
      rw [if_pos hx]
    | succ N ih =>
      rw [List.range_succ, List.flatMap_append, ← List.cons_append, ← List.cons_append, store_append]
      generalize hM : Store.run s empty (.start 0 ⟨0, path, true⟩ :: .finish 0 0 (fun _ => x) ::
        (List.range N).flatMap tick) = M
      rw [hM] at ih
      have hat : M.at s (N + 1) = x := by
        unfold Store.at
        rw [ih]
        refine if_pos ?_
        intro n' hn'
        rw [hm] at hn'
        injection hn' with hn'
        omega
      simp only [List.flatMap_cons, List.flatMap_nil, List.append_nil, tick, Store.run, List.foldl_cons,
        List.foldl_nil, Store.step, hat, put, if_true, id]
      rw [if_pos hx]
  refine ⟨(List.range N).flatMap tick, ?_, ?_⟩
  · intro j u g hg
    rcases hmem N _ hg with ⟨_, _, h, _⟩ | ⟨_, _, h⟩
    · cases h
    · injection h
  · have hrel := rel_run c hc s hs ht k hk id (fun _ => .refl _) _ 0 _ _
      (rel_start s k [] (fun x hx => nomatch hx) (fun x hx => nomatch hx)) (by
        intro a ha i v e
        subst e
        rcases List.mem_cons.mp ha with h | ha
        · injection h with _ h; subst h; exact hwithin 0
        · rcases List.mem_cons.mp ha with h | ha
          · cases h
          · rcases hmem N _ ha with ⟨_, v', h, h1, h2⟩ | ⟨_, _, h⟩
            · injection h with _ h
              subst h
              exact ⟨h1 ▸ hp, fun _ => h2⟩
            · cases h) (hi N).1
    rw [rel_view s ht k (home_name c s k hk) id (fun _ => .refl _) _ _ _ hrel _ (hwithin N)
      (by rw [(hi N).2]; exact Nat.le_refl _)]
    show Store.at s _ N = x
    unfold Store.at
    rw [hst N]
    refine if_pos ?_
    intro n' hn'
    rw [hm] at hn'
    injection hn' with hn'
    omega

example : (site 'x' (some 60) "/" true).maxAge = some 60 ∧ (0 : Int) < 60 ∧ Below "/".toList "/a".toList ∧
    user ≠ [] := by
  refine ⟨rfl, by decide, by decide, by decide⟩

/-- After a logout a copy of the cookie, made before, still gives the session. -/
theorem C142_copy_false : ¬ ∀ (c : SetCookie.Spec.Client), ReadsDate c → ∀ s : Site, Sane s → Timed s →
    ∀ k, home c s = some k → ∀ (x : Sess) (v : Visit), Within s k v → 2 ≤ v.time →
      ∀ as, as = [Act.start 0 ⟨0, v.path, true⟩, .finish 0 0 (fun _ => x)] →
      ∀ bs, bs = [Act.start 0 ⟨1, v.path, true⟩, .finish 0 1 (fun _ => [])] →
      (view s id (run s c id (fresh []) (as ++ bs)).jar v).1 = (view s id (run s c id (fresh []) as).jar v).1 := by
  intro h
  have := h client client_date (site 'x' none "/" false) (site_sane _ _ _ _ (by decide) (fun n hn => nomatch hn))
    (site_timed _ _ _ _ (by decide)) ("session".toList, "host".toList, "/".toList) (by decide +kernel)
    user ⟨2, "/".toList, true⟩ ⟨by decide, fun _ => rfl⟩ (by decide) _ rfl _ rfl
  revert this
  decide +kernel

/-- Two sites with the same name of the cookie, one below the other: the inner one is given the cookie of the outer
one, which it does not accept, and its session is lost. -/
theorem C142_paths_false : ¬ ∀ (c : SetCookie.Spec.Client), ReadsDate c → ∀ outer inner : Site, Sane outer →
    Sane inner → Timed outer → Timed inner → outer.name = inner.name →
    ∀ k k', home c outer = some k → home c inner = some k' → k ≠ k' → ∀ (x y : Sess) (v : Visit), Within inner k' v →
      (view inner longest (take c v.time (take c v.time [] (outer.field v.time x)) (inner.field v.time y)) v).1 =
        y := by
  intro h
  have := h client client_date (site 'x' none "/" false) (site 'y' none "/admin" false)
    (site_sane _ _ _ _ (by decide) (fun n hn => nomatch hn)) (site_sane _ _ _ _ (by decide) (fun n hn => nomatch hn))
    (site_timed _ _ _ _ (by decide)) (site_timed _ _ _ _ (by decide)) rfl
    ("session".toList, "host".toList, "/".toList) ("session".toList, "host".toList, "/admin".toList)
    (by decide +kernel) (by decide +kernel) (by decide) user user ⟨2, "/admin/a".toList, true⟩
    ⟨by decide, fun _ => rfl⟩
  revert this
  decide +kernel

end Verif.SessionFlow.Props
