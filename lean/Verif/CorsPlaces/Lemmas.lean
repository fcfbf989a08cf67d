import Verif.CorsPlaces.Spec
import Verif.Cors.FetchProps

namespace Verif.CorsPlaces

open Verif Verif.MultiDict Spec
open Verif.Cors (Config Request Resp)
open Verif.Cors.Spec

variable {E : Type}

theorem made_asks (r : Request) (o : Str) (h : Made r o) : asks r = false := by
  unfold asks
  rw [h.2.1, h.2.2]
  simp

theorem preflight_asks (w : Wanted) : asks (preflightRequest w) = true := by
  have h1 : get lower (preflightRequest w).headers "origin".toList = some w.origin := Cors.pr_origin w
  have h2 : get lower (preflightRequest w).headers "access-control-request-method".toList = some w.method :=
    Cors.pr_method w
  unfold asks
  rw [h1, h2]
  rfl

theorem around_asks (c : Config) (r : Request) (h : asks r = true) (x : Result E) :
    around (some c) r x = .answered (Cors.serve c r ⟨0, [], []⟩) := by
  simp only [around, h, if_true]

theorem around_answered (c : Config) (r : Request) (h : asks r = false) (a : Resp) :
    around (some c) r (.answered a : Result E) = .answered (Cors.serve c r a) := by
  simp only [around, h]
  rfl

theorem around_raised (c : Option Config) (r : Request) (h : asks r = false) (e : E) :
    around c r (.raised e) = .raised e := by
  cases c with
  | none => rfl
  | some c => simp only [around, h]; rfl

theorem around_passed (c : Option Config) (r : Request) (h : asks r = false) (qs : List (Route E)) :
    around c r (.passed qs) = .passed qs := by
  cases c with
  | none => rfl
  | some c => simp only [around, h]; rfl

theorem other_false (q : Route E) (r : Request) (h : q.methods = [] ∨ r.method ∈ q.methods) :
    q.otherMethod r = false := by
  unfold Route.otherMethod
  rw [decide_eq_false_iff_not]
  rintro ⟨h1, h2⟩
  rcases h with h | h
  · exact h1 h
  · exact h2 h

theorem other_true (q : Route E) (r : Request) (h : ¬ (q.methods = [] ∨ r.method ∈ q.methods)) :
    q.otherMethod r = true := by
  unfold Route.otherMethod
  rw [decide_eq_true_iff]
  exact ⟨fun e => h (.inl e), fun e => h (.inr e)⟩

/-- What a search may come to: an answer that says nothing, an exception, or nothing. -/
def Fine (P : E → Prop) : Result E → Prop
  | .answered a => Bare a
  | .raised e => P e
  | .passed _ => True

theorem call_fine (u : Rules E) (hu : Calm u) (r : Request) (q : Route E) (hq : Quiet r q) (P : E → Prop)
    (h1 : ∀ e, q.denied r = some e → P e) (h2 : ∀ e, q.handler r = .error e → u.handlers e = none → P e) :
    Fine P (q.call u r) := by
  unfold Route.call
  rw [hq.1]
  simp only [around]
  cases hd : q.denied r with
  | some e => exact h1 e hd
  | none =>
    cases hh : q.handler r with
    | ok a => exact hq.2 a hh
    | error e =>
      cases hx : u.handlers e with
      | some a => simp only [hx]; exact hu.handled e a hx
      | none => simp only [hx]; exact h2 e hh hx

theorem conclude_fine (u : Rules E) (P : E → Prop) (h1 : P u.notFound) (h2 : ∀ ms, P (u.notAllowed ms)) (x : Result E)
    (h : Fine P x) : ∃ y, conclude u x = y ∧ Fine P y ∧ ∀ qs, y ≠ .passed qs := by
  cases x with
  | answered a => exact ⟨_, rfl, h, fun _ e => by cases e⟩
  | raised e => exact ⟨_, rfl, h, fun _ e => by cases e⟩
  | passed qs =>
    cases qs with
    | nil => exact ⟨_, rfl, h1, fun _ e => by cases e⟩
    | cons q qs => exact ⟨_, rfl, h2 _, fun _ e => by cases e⟩

/-- An application without a CORS middleware of its own gives an answer that says nothing. -/
theorem stack_fine (u : Rules E) (hu : Calm u) (r : Request) (x : Result E) (h : Fine (fun _ => True) x) :
    ∃ a, stack u none r x = .answered a ∧ Bare a := by
  obtain ⟨y, hy, hf, hp⟩ := conclude_fine u (fun _ => True) trivial (fun _ => trivial) x h
  unfold stack
  rw [hy]
  cases y with
  | answered a => exact ⟨a, rfl, hf⟩
  | raised e =>
    simp only [excepting]
    cases hx : u.handlers e with
    | some a => exact ⟨a, rfl, hu.handled e a hx⟩
    | none => exact ⟨_, rfl, hu.failed e⟩
  | passed qs => exact absurd rfl (hp qs)

theorem search_fine (u : Rules E) (hu : Calm u) (r : Request) (P : E → Prop) (t : Tree E) (hn : NoCors t)
    (hq : Every (Quiet r) t) (h1 : Every (fun q => ∀ e, q.denied r = some e → P e) t)
    (h2 : Every (fun q => ∀ e, q.handler r = .error e → u.handlers e = none → P e) t) :
    Fine P (search u r t) := by
  have loose : ∀ t : Tree E, NoCors t → Every (Quiet r) t → Fine (fun _ => True) (search u r t) := by
    clear hn hq h1 h2 t
    intro t
    induction t with
    | none => intro _ _; trivial
    | route q rest ih =>
      intro hn hq
      have := ih hn hq.2
      simp only [search]
      by_cases ho : q.otherMethod r = true
      · rw [if_pos ho]
        cases hs : search u r rest with
        | passed qs => trivial
        | answered a => rw [hs] at this; exact this
        | raised e => trivial
      · rw [if_neg ho]
        exact call_fine u hu r q hq.1 _ (fun _ _ => trivial) (fun _ _ _ => trivial)
    | incl c own sub rest ih1 ih2 =>
      intro hn hq
      obtain ⟨rfl, hn1, hn2⟩ := hn
      have s1 := ih1 hn1 hq.1
      have s2 := ih2 hn2 hq.2
      simp only [search, around]
      cases own with
      | true =>
        obtain ⟨a, ha, hb⟩ := stack_fine u hu r _ s1
        simp only [if_true, ha]
        exact hb
      | false =>
        simp only [Bool.false_eq_true, if_false]
        cases hs : search u r sub with
        | answered a => rw [hs] at s1; exact s1
        | raised e => trivial
        | passed ps =>
          simp only
          cases hs2 : search u r rest with
          | passed qs => trivial
          | answered a => rw [hs2] at s2; exact s2
          | raised e => trivial
  induction t with
  | none => trivial
  | route q rest ih =>
    have := ih hn hq.2 h1.2 h2.2
    simp only [search]
    by_cases ho : q.otherMethod r = true
    · rw [if_pos ho]
      cases hs : search u r rest with
      | passed qs => trivial
      | answered a => rw [hs] at this; exact this
      | raised e => rw [hs] at this; exact this
    · rw [if_neg ho]
      exact call_fine u hu r q hq.1 P h1.1 h2.1
  | incl c own sub rest ih1 ih2 =>
    obtain ⟨rfl, hn1, hn2⟩ := hn
    have s1 := ih1 hn1 hq.1 h1.1 h2.1
    have s2 := ih2 hn2 hq.2 h1.2 h2.2
    simp only [search, around]
    cases own with
    | true =>
      obtain ⟨a, ha, hb⟩ := stack_fine u hu r _ (loose sub hn1 hq.1)
      simp only [if_true, ha]
      exact hb
    | false =>
      simp only [Bool.false_eq_true, if_false]
      cases hs : search u r sub with
      | answered a => rw [hs] at s1; exact s1
      | raised e => rw [hs] at s1; exact s1
      | passed ps =>
        simp only
        cases hs2 : search u r rest with
        | passed qs => trivial
        | answered a => rw [hs2] at s2; exact s2
        | raised e => rw [hs2] at s2; exact s2

theorem search_takes (u : Rules E) (r : Request) (t : Tree E) (h : Takes r.method t) (hn : NoCors t)
    (hq : Every (fun q => q.cors = none) t) :
    ∀ qs, search u r t ≠ .passed qs := by
  have callp : ∀ q : Route E, q.cors = none → ∀ qs, q.call u r ≠ .passed qs := by
    intro q hc qs
    unfold Route.call
    rw [hc]
    simp only [around]
    cases q.denied r with
    | some e => intro e; cases e
    | none =>
      cases q.handler r with
      | ok a => intro e; cases e
      | error e =>
        cases hx : u.handlers e with
        | some a => simp only [hx]; intro e; cases e
        | none => simp only [hx]; intro e; cases e
  have stackp : ∀ x : Result E, ∃ a, stack u none r x = .answered a := by
    intro x
    unfold stack
    simp only [around]
    cases x with
    | answered a => exact ⟨a, rfl⟩
    | raised e =>
      simp only [conclude, excepting]
      cases u.handlers e with
      | some a => exact ⟨a, rfl⟩
      | none => exact ⟨_, rfl⟩
    | passed qs =>
      cases qs with
      | nil =>
        simp only [conclude, excepting]
        cases u.handlers u.notFound with
        | some a => exact ⟨a, rfl⟩
        | none => exact ⟨_, rfl⟩
      | cons q qs =>
        simp only [conclude, excepting]
        cases u.handlers (u.notAllowed q.methods) with
        | some a => exact ⟨a, rfl⟩
        | none => exact ⟨_, rfl⟩
  induction t with
  | none => exact h.elim
  | route q rest ih =>
    intro qs
    simp only [search]
    by_cases ho : q.otherMethod r = true
    · rw [if_pos ho]
      have ht : Takes r.method rest := by
        rcases h with h | h
        · rw [other_false q r h] at ho; cases ho
        · exact h
      have := ih ht hn hq.2
      cases hs : search u r rest with
      | passed ps => exact absurd hs (this ps)
      | answered a => intro e; cases e
      | raised e => intro e; cases e
    · rw [if_neg ho]
      exact callp q hq.1 qs
  | incl c own sub rest ih1 ih2 =>
    intro qs
    obtain ⟨rfl, hn1, hn2⟩ := hn
    simp only [search, around]
    cases own with
    | true =>
      obtain ⟨a, ha⟩ := stackp (search u r sub)
      simp only [if_true, ha]
      intro e; cases e
    | false =>
      simp only [Bool.false_eq_true, if_false]
      cases hs : search u r sub with
      | answered a => intro e; cases e
      | raised e => intro e; cases e
      | passed ps =>
        simp only
        have ht : Takes r.method rest := by
          rcases h with h | h | h
          · cases h
          · exact absurd hs (ih1 h hn1 hq.1 ps)
          · exact h
        cases hs2 : search u r rest with
        | passed qs => exact absurd hs2 (ih2 ht hn2 hq.2 qs)
        | answered a => intro e; cases e
        | raised e => intro e; cases e

/-- Without a path for the method nothing is called, whatever middlewares the paths have. -/
theorem search_not (u : Rules E) (r : Request) (t : Tree E) (h : ¬ Takes r.method t) (hn : NoCors t) :
    ∃ qs, search u r t = .passed qs := by
  induction t with
  | none => exact ⟨[], rfl⟩
  | route q rest ih =>
    obtain ⟨qs, hs⟩ := ih (fun e => h (.inr e)) hn
    refine ⟨q :: qs, ?_⟩
    simp only [search]
    rw [if_pos (other_true q r fun e => h (.inl e)), hs]
  | incl c own sub rest ih1 ih2 =>
    obtain ⟨rfl, hn1, hn2⟩ := hn
    obtain ⟨ps, h1⟩ := ih1 (fun e => h (.inr (.inl e))) hn1
    obtain ⟨qs, h2⟩ := ih2 (fun e => h (.inr (.inr e))) hn2
    have ho : own = false := by
      cases own with
      | true => exact absurd (.inl rfl) h
      | false => rfl
    refine ⟨ps ++ qs, ?_⟩
    simp only [search, around, ho, Bool.false_eq_true, if_false, h1, h2]

theorem passed_bare (u : Rules E) (hu : Calm u) (qs : List (Route E)) :
    ∃ a, excepting u (conclude u (.passed qs)) = .answered a ∧ Bare a := by
  cases qs with
  | nil =>
    obtain ⟨a, ha⟩ := hu.missing
    refine ⟨a, ?_, hu.handled _ a ha⟩
    simp only [conclude, excepting, ha]
  | cons q qs =>
    obtain ⟨a, ha⟩ := hu.method q.methods
    refine ⟨a, ?_, hu.handled _ a ha⟩
    simp only [conclude, excepting, ha]

/-! ## What the browser makes of it -/

theorem bare_check (a : Resp) (h : Bare a) (hs : List (Str × Str)) (hs' : Sent a hs) (o : Str) (cred : Bool) :
    ¬ CorsCheck hs o cred := by
  obtain ⟨ks, -, rfl⟩ := hs'
  have hno := Cors.field_none a.headers ks _ h.1
  unfold CorsCheck
  rw [hno]
  rintro (⟨_, h⟩ | ⟨h, _⟩) <;> cases h

theorem serve_reads (c : Config) (r : Request) (a : Resp) (o : Str) (cred : Bool) (hr : Made r o) (ha : Bare a)
    (hc : Cookied c r cred) (hs : List (Str × Str)) (h : Sent (Cors.serve c r a) hs) :
    CorsCheck hs o cred ↔ OriginAllowed c o ∧ (cred = true → c.credentials = true) := by
  obtain ⟨ks, hk, rfl⟩ := h
  exact Cors.C54_response_partial c r a ks o cred hr ha.1 ha.2 hk hc

theorem serve_lets (c : Config) (w : Wanted) (a : Resp) (ht : Tokens c w) (hs : List (Str × Str))
    (h : Sent (Cors.serve c (preflightRequest w) a) hs) :
    PreflightOk (Cors.serve c (preflightRequest w) a).status hs w ↔ Configured c w := by
  obtain ⟨ks, hk, rfl⟩ := h
  exact Cors.C54_preflight c w a ks ht.1 ht.2.1 ht.2.2 hk

theorem send_listed (c : Config) (o : Str) (b : Bool) (d : Items Str) (ha : c.allOrigins = false) :
    getall lower (Cors.sendHeaders c o b d) Cors.acao =
      if Cors.validateOrigin c o = true then [o] else getall lower d Cors.acao := by
  unfold Cors.sendHeaders
  dsimp only
  rw [ha, if_neg (by simp)]
  by_cases hv : Cors.validateOrigin c o = true
  · rw [if_pos (by rw [hv]; rfl), if_pos hv]
    exact (Cors.setExplicit_spec _ _).1
  · rw [if_neg (by simp [hv]), if_neg hv, Cors.getall_simple, ha, if_neg (by decide)]

end Verif.CorsPlaces
