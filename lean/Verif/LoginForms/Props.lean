import Verif.LoginForms.Lemmas
import Verif.SessionFlow.Instance
import Verif.CsrfFlow.Props

/-!
# C151: sessions and forms in one browser

English: an application uses sessions and CSRF protection.  A browser keeps its session as it would without the
protection, is given a token with the first page that it opens, and can submit it from then on, whatever happens to its
session, in whatever order the two middlewares are listed.
-/

namespace Verif.LoginForms.Props

open Verif Verif.LoginForms Verif.LoginForms.Spec
open Verif.SessionFlow.Spec (Kept Visit Orders Store)

/-! ## The examples -/

/-- An application for the examples: sessions last 60 seconds. -/
def app : App := ⟨SessionFlow.site 'x' (some 60) "/" true, CsrfFlow.Props.site, CsrfFlow.Props.mac, fun _ => []⟩

/-- Where the cookie of the session is kept. -/
def home : SetCookie.Spec.Key := ("session".toList, "host".toList, "/".toList)

/-- Where the CSRF cookie is kept. -/
def slot : SetCookie.Spec.Key := ("csrftoken".toList, "host".toList, "/".toList)

theorem app_sound : Sound app SessionFlow.client home slot where
  date := SessionFlow.client_date
  sane := SessionFlow.site_sane _ _ _ _ (by decide) (by intro n hn; injection hn; omega)
  timed := SessionFlow.site_timed _ _ _ _ (by decide)
  home := by decide +kernel
  csrf := ⟨CsrfFlow.Props.site_sound.1, CsrfFlow.Props.site_sound.2.1, CsrfFlow.Props.site_sound.2.2.1,
    CsrfFlow.Props.site_sound.2.2.2.1, by decide +kernel⟩
  hex := CsrfFlow.Props.mac_hex
  apart := by decide

/-- A request for a page. -/
def get : Csrf.Request := ⟨"GET".toList, none, none, [], []⟩

/-- A request that submits a token. -/
def post (t : Str) : Csrf.Request := ⟨"POST".toList, none, some t, [], []⟩

/-- A reply with a page without a token. -/
def plain : Reply := ⟨.plain, [], CsrfFlow.Props.ones, CsrfFlow.Props.twos⟩

/-- The token of the examples. -/
def token : Str := Csrf.generate CsrfFlow.Props.mac "secret".toList CsrfFlow.Props.twos

/-- A session. -/
def user : Session.Sess := [("u".toList, some "1".toList)]

/-- The visit of a path at a time. -/
def at' (t : Nat) : Visit := ⟨t, "/a".toList, true⟩

/-- A page is opened, a login form is submitted, and the page is opened again. -/
def login : List Act :=
  [.start 0 (at' 0) get, .finish 0 0 id plain, .start 1 (at' 1) (post token), .finish 1 1 (fun _ => user) plain,
    .start 2 (at' 2) get, .finish 2 2 id plain]

/-! ## Sessions -/

/-- In both orders and with requests that overlap in any way, every handler sees the session that it would see with a
store that holds one session and the time of the last response; requests that are refused do not matter. -/
theorem C151_sessions (a : App) (c : SetCookie.Spec.Client) (k k' : SetCookie.Spec.Key) (hs : Sound a c k k')
    (o : Outer) (order : List Kept → List Kept) (ho : Orders order) (b : List Kept) (hb : Spec.Tidy a k k' b)
    (hn : ∀ x ∈ b, x.key ≠ k) (as : List Act) (ha : AllWithin a k as) (hi : InOrder 0 as) :
    (Spec.run a o c order (fresh b) as).log =
      (Store.run a.sess SessionFlow.Spec.empty (admitted a o c order (fresh b) as)).log := by
  have key : ∀ (as : List Act) (clock : Nat) (w : World) (m : Store), Spec.Tidy a k k' w.jar →
      SessionFlow.Rel a.sess k clock (part w) m → AllWithin a k as → InOrder clock as →
      (Spec.run a o c order w as).log = (Store.run a.sess m (admitted a o c order w as)).log := by
    intro as
    induction as with
    | nil => exact fun _ _ _ _ h _ _ => h.log
    | cons x as ih =>
      intro clock w m hb h ha hi
      have hrun : Spec.run a o c order w (x :: as) = Spec.run a o c order (Spec.step a o c order w x) as := rfl
      have hb' := step_tidy a c k k' hs o order w x hb
      have ha' : AllWithin a k as := fun y hy => ha y (List.mem_cons_of_mem _ hy)
      rw [hrun]
      cases x with
      | start i v r =>
        simp only [admitted]
        rw [SessionFlow.store_append]
        exact ih v.time _ _ hb' (rel_start a c k k' hs o order ho clock w m h i v r
          (ha _ List.mem_cons_self i v r rfl) hi.1) ha' hi.2
      | finish i now f r =>
        exact ih now _ _ hb' (rel_finish a c k k' hs o order ho clock w m hb h i now f r hi.1) ha' hi.2
  exact key as 0 _ _ hb (SessionFlow.rel_start a.sess k b hb.1 hn) ha hi

example : Spec.Tidy app home slot [] ∧ Orders (id : List Kept → List Kept) ∧ AllWithin app home login ∧
    InOrder 0 login := by
  refine ⟨⟨(fun x hx => by cases hx), fun x hx => by cases hx⟩, fun l => List.Perm.refl l, ?_, ?_⟩
  · intro x hx i v r e
    subst e
    simp only [login, List.mem_cons, List.not_mem_nil, or_false] at hx
    rcases hx with h | h | h | h | h | h
    · injection h with _ h; subst h; exact ⟨by decide, fun _ => rfl⟩
    · cases h
    · injection h with _ h; subst h; exact ⟨by decide, fun _ => rfl⟩
    · cases h
    · injection h with _ h; subst h; exact ⟨by decide, fun _ => rfl⟩
    · cases h
  · simp [login, InOrder, Act.time, at']

example : (Spec.run app .sessions SessionFlow.client id (fresh []) login).log = [(0, []), (1, []), (2, user)] ∧
    (Spec.run app .sessions SessionFlow.client id (fresh []) login).refused = [] := by
  refine ⟨?_, ?_⟩ <;> decide +kernel

/-! ## Tokens -/

/-- In both orders a browser that has a signed token keeps it: whatever happens to the session and whatever requests
overlap, pages with a token have this one, and submitting it passes. -/
theorem C151_kept (a : App) (c : SetCookie.Spec.Client) (k k' : SetCookie.Spec.Key) (hs : Sound a c k k') (o : Outer)
    (order : List Kept → List Kept) (ho : Orders order) (t : Str) (ht : Signed a t) (w : World)
    (hb : Spec.Tidy a k k' w.jar) (h : Holds a k' t w) (as : List Act) (hx : AllReach a k' as) :
    Holds a k' t (Spec.run a o c order w as) ∧
    (∀ y ∈ (Spec.run a o c order w as).tabs, y ∈ w.tabs ∨ y = none ∨ y = some t) ∧
    ∀ v r, Reaches a k' v → CsrfFlow.Spec.Submits a.csrf r t →
      CsrfFlow.Spec.Passes a.hmac a.csrf (arriving a order (Spec.run a o c order w as).jar v r) := by
  obtain ⟨h1, h2, h3⟩ := holds_run a c k k' hs o order ho t ht as w hb h hx
  exact ⟨h2, h3, fun v r hv hr => passes_token a c k k' hs order ho t ht _ h1 h2 v hv r hr⟩

example : Signed app token ∧ Holds app slot token ⟨[⟨slot, token, none, true⟩], fun _ => none, [], [], []⟩ ∧
    Reaches app slot (at' 5) := by
  refine ⟨⟨CsrfFlow.Props.twos, CsrfFlow.Props.twos_random, rfl⟩, ⟨?_, by intro i p h; cases h⟩, by decide, fun _ =>
      rfl⟩
  show List.filter _ [_] = _
  rw [List.filter_cons, if_pos (by simp)]
  rfl

/-- **C151** (part that holds; the first page).  Full statement: in both orders the first page that a browser without
the cookie opens gives it a signed token.  With the sessions outside it does, whatever the handler does to the session.
Missing: the other order (`C151_order_false`), and pages that take a token without giving their response
(`C140_template_false`). -/
theorem C151_first_partial (a : App) (c : SetCookie.Spec.Client) (k k' : SetCookie.Spec.Key) (hs : Sound a c k k')
    (order : List Kept → List Kept) (ho : Orders order) (b : List Kept) (hb : Spec.Tidy a k k' b)
    (hn : ∀ x ∈ b, x.key ≠ k') (i now : Nat) (v : Visit) (r : Csrf.Request)
    (hm : Csrf.Spec.SafeMethod a.csrf.conf r.method) (f : Session.Sess → Session.Sess) (rp : Reply)
    (hr : CsrfFlow.Spec.Random rp.rnd) (hr' : CsrfFlow.Spec.Random rp.rnd')
    (hp : rp.page = .plain ∨ (rp.page = .helper ∧ rp.secret = a.csrf.conf.secret)) :
    ∃ t, Signed a t ∧ Holds a k' t (Spec.run a .sessions c order (fresh b) [.start i v r, .finish i now f rp]) ∧
      (Spec.run a .sessions c order (fresh b) [.start i v r, .finish i now f rp]).tabs =
        [if rp.page = .plain then none else some t] := by
  have hc := cookie_none a k k' (place_name a.csrf c k' hs.csrf) order ho b hb v hn
  have hadm : a.admits (arriving a order b v r) = some true := by
    have hm' : r.method ∈ a.csrf.conf.safe := (Csrf.safe_iff _ _).2 hm
    have hm2 : (arriving a order b v r).method ∈ a.csrf.conf.safe := hm'
    unfold App.admits Csrf.serve
    rw [if_neg (fun h => h.2.1 hm2)]
    unfold Csrf.finish
    rw [if_pos hm2]
  have h1 : Spec.step a .sessions c order (fresh b) (.start i v r) =
      { fresh b with
        waiting := SessionFlow.Spec.put (fun _ => none) i (some ⟨none, true, (SessionFlow.Spec.view a.sess order b v).1,
          (SessionFlow.Spec.view a.sess order b v).2⟩)
        log := [(i, (SessionFlow.Spec.view a.sess order b v).1)] } := by
    have e : (fresh b).jar = b := rfl
    simp only [Spec.step, e, hadm, hc]
    rfl
  generalize (SessionFlow.Spec.view a.sess order b v).1 = seen at *
  generalize (SessionFlow.Spec.view a.sess order b v).2 = was at *
  have hfields : ∃ t, Signed a t ∧ (a.page ⟨none, true, seen, was⟩ rp).1 = (if rp.page = .plain then none else some t) ∧
      a.fields .sessions now ⟨none, true, seen, was⟩ (f seen) rp =
        CsrfFlow.field a.date (a.csrf.cookie t) ++ a.sess.respond now was [] (f seen) := by
    rcases hp with hp | ⟨hp, hsec⟩
    · refine ⟨_, ⟨rp.rnd', hr', rfl⟩, by rw [if_pos hp]; unfold App.page CsrfFlow.handle; rw [hp], ?_⟩
      have e : a.protect ⟨none, true, seen, was⟩ rp.rnd' (a.page ⟨none, true, seen, was⟩ rp).2 =
          CsrfFlow.field a.date (a.csrf.cookie (Csrf.generate a.hmac a.csrf.conf.secret rp.rnd')) := by
        have : (a.page ⟨none, true, seen, was⟩ rp).2 = [] := by unfold App.page CsrfFlow.handle; rw [hp]
        rw [this]
        exact if_pos ⟨rfl, rfl, rfl⟩
      unfold App.fields
      simp only [e]
      exact respond_pre a c k k' hs now was _ _ (.inr ⟨_, rfl⟩)
    · refine ⟨_, ⟨rp.rnd, hr, rfl⟩, ?_, ?_⟩
      · rw [if_neg (by rw [hp]; decide)]
        unfold App.page CsrfFlow.handle
        rw [hp, ← hsec]
        rfl
      · have e2 : (a.page ⟨none, true, seen, was⟩ rp).2 =
            CsrfFlow.field a.date (a.csrf.cookie (Csrf.generate a.hmac a.csrf.conf.secret rp.rnd)) := by
          unfold App.page CsrfFlow.handle
          rw [hp, ← hsec]
          rfl
        have hcs : Csrfs a (a.page ⟨none, true, seen, was⟩ rp).2 := csrfs_page a _ rp
        obtain ⟨g, hg, -, -⟩ := take_token a.date a.csrf c k' hs.csrf
          (Csrf.generate a.hmac a.csrf.conf.secret rp.rnd)
        have e : a.protect ⟨none, true, seen, was⟩ rp.rnd' (a.page ⟨none, true, seen, was⟩ rp).2 =
            (a.page ⟨none, true, seen, was⟩ rp).2 := by
          unfold App.protect
          rw [if_neg]
          rintro ⟨-, -, h⟩
          rw [e2, hg] at h
          cases h
        unfold App.fields
        simp only [e]
        rw [respond_pre a c k k' hs now was _ _ hcs, e2]
  obtain ⟨t, ht, hpage, hfs⟩ := hfields
  obtain ⟨hne, hx⟩ := signed_facts a hs.hex t ht
  obtain ⟨g, hg, -, htake⟩ := take_token a.date a.csrf c k' hs.csrf t
  have hrun : Spec.run a .sessions c order (fresh b) [.start i v r, .finish i now f rp] =
      Spec.step a .sessions c order (Spec.step a .sessions c order (fresh b) (.start i v r)) (.finish i now f rp) := rfl
  have hput : ∀ x : Option Pending, SessionFlow.Spec.put (fun _ => none) i x i = x := by
    intro x; unfold SessionFlow.Spec.put; rw [if_pos rfl]
  rw [hrun, h1]
  simp only [Spec.step, hput]
  refine ⟨t, ht, ⟨?_, ?_⟩, ?_⟩
  · show ((List.foldl (SessionFlow.Spec.take c now) b _).filter fun x => x.key = k') = _
    rw [hfs, List.foldl_append, filter_same _ _ k k' (places_ne a c k k' hs) (session_fold a c k k' hs now _ _ _), hg,
      List.foldl_cons, List.foldl_nil, htake, List.filter_append, SessionFlow.filter_out, CsrfFlow.quote_hex t hne hx]
    simp
  · intro j p hj
    simp only [SessionFlow.Spec.put] at hj
    by_cases e : j = i
    · rw [if_pos e] at hj; cases hj
    · rw [if_neg e, if_neg e] at hj; cases hj
  · show [] ++ [_] = _
    rw [hpage]
    rfl

example : Csrf.Spec.SafeMethod app.csrf.conf get.method ∧ CsrfFlow.Spec.Random plain.rnd' ∧
    ((Spec.run app .sessions SessionFlow.client id (fresh []) [.start 0 (at' 0) get, .finish 0 0 (fun _ => user)
        plain]).jar.map
      fun x => x.key) = [slot, home] := by
  refine ⟨(Csrf.safe_iff _ _).1 (by decide +kernel), CsrfFlow.Props.twos_random, by decide +kernel⟩

/-- **C151** (part that holds; the whole flow).  With the sessions outside, after the first page a browser that opens
pages, logs in and out and submits forms, in whatever order and overlapping, can submit the token of every page. -/
theorem C151_flow_partial (a : App) (c : SetCookie.Spec.Client) (k k' : SetCookie.Spec.Key) (hs : Sound a c k k')
    (order : List Kept → List Kept) (ho : Orders order) (b : List Kept) (hb : Spec.Tidy a k k' b)
    (hn : ∀ x ∈ b, x.key ≠ k') (i now : Nat) (v : Visit) (r : Csrf.Request)
    (hm : Csrf.Spec.SafeMethod a.csrf.conf r.method) (f : Session.Sess → Session.Sess) (rp : Reply)
    (hr : CsrfFlow.Spec.Random rp.rnd) (hr' : CsrfFlow.Spec.Random rp.rnd')
    (hp : rp.page = .plain ∨ (rp.page = .helper ∧ rp.secret = a.csrf.conf.secret)) (as : List Act)
    (hx : AllReach a k' as) (t : Str) (v' : Visit) (r' : Csrf.Request)
    (ht : some t ∈ (Spec.run a .sessions c order (fresh b) (.start i v r :: .finish i now f rp :: as)).tabs)
    (hv' : Reaches a k' v') (hsub : CsrfFlow.Spec.Submits a.csrf r' t) :
    CsrfFlow.Spec.Passes a.hmac a.csrf (arriving a order
      (Spec.run a .sessions c order (fresh b) (.start i v r :: .finish i now f rp :: as)).jar v' r') := by
  obtain ⟨u, hu, h1, h2⟩ := C151_first_partial a c k k' hs order ho b hb hn i now v r hm f rp hr hr' hp
  have hb1 : Spec.Tidy a k k' (Spec.run a .sessions c order (fresh b) [.start i v r, .finish i now f rp]).jar :=
    step_tidy a c k k' hs .sessions order _ (.finish i now f rp)
      (step_tidy a c k k' hs .sessions order (fresh b) (.start i v r) hb)
  have e : Spec.run a .sessions c order (fresh b) (.start i v r :: .finish i now f rp :: as) =
      Spec.run a .sessions c order (Spec.run a .sessions c order (fresh b) [.start i v r, .finish i now f rp]) as := rfl
  obtain ⟨-, h4, h5⟩ := C151_kept a c k k' hs .sessions order ho u hu _ hb1 h1 as hx
  rw [e] at ht ⊢
  have htu : t = u := by
    rcases h4 _ ht with h | h | h
    · rw [h2, List.mem_singleton] at h
      by_cases hpl : rp.page = .plain
      · rw [if_pos hpl] at h; cases h
      · rw [if_neg hpl] at h; exact Option.some.inj h
    · cases h
    · exact Option.some.inj h
  rw [htu] at hsub
  exact h5 v' r' hv' hsub

example : CsrfFlow.Spec.Submits app.csrf (post token) token ∧
    CsrfFlow.Spec.Passes app.hmac app.csrf (arriving app id
      (Spec.run app .sessions SessionFlow.client id (fresh []) login).jar (at' 9) (post token)) := by
  refine ⟨⟨?_, .inl rfl⟩, ?_⟩
  · intro h
    exact absurd ((Csrf.safe_iff _ _).2 h) (by decide +kernel)
  · have : Csrf.serve app.hmac app.csrf.conf (arriving app id
      (Spec.run app .sessions SessionFlow.client id (fresh []) login).jar (at' 9) (post token)) =
        .app (.original []) false := by decide +kernel
    exact ⟨_, _, this⟩

/-! ## The other order -/

/-- **C151** is false with the protection outside: as long as every handler leaves something in the session, the
response always has a cookie already, the browser is never given a token, and none of its forms passes. -/
theorem C151_order_false (a : App) (c : SetCookie.Spec.Client) (k k' : SetCookie.Spec.Key) (hs : Sound a c k k')
    (order : List Kept → List Kept) (ho : Orders order) (w : World) (hb : Spec.Tidy a k k' w.jar) (h : Lacks k' w)
    (as : List Act) (hx : ∀ x ∈ as, ∀ i now f r, x = .finish i now f r → (∀ s, f s ≠ []) ∧ r.page ≠ .helper) :
    Lacks k' (Spec.run a .csrf c order w as) ∧
    ∀ v r, ¬ Csrf.Spec.SafeMethod a.csrf.conf r.method →
      ¬ CsrfFlow.Spec.Passes a.hmac a.csrf (arriving a order (Spec.run a .csrf c order w as).jar v r) := by
  have key : ∀ (as : List Act) (w : World), Spec.Tidy a k k' w.jar → Lacks k' w →
      (∀ x ∈ as, ∀ i now f r, x = .finish i now f r → (∀ s, f s ≠ []) ∧ r.page ≠ .helper) →
      Spec.Tidy a k k' (Spec.run a .csrf c order w as).jar ∧ Lacks k' (Spec.run a .csrf c order w as) := by
    intro as
    induction as with
    | nil => exact fun w hb h _ => ⟨hb, h⟩
    | cons x as ih =>
      intro w hb h hx
      exact ih _ (step_tidy a c k k' hs .csrf order w x hb)
        (lacks_step a c k k' hs order ho w hb h x (fun i now f r e => hx x List.mem_cons_self i now f r e))
        (fun y hy => hx y (List.mem_cons_of_mem _ hy))
  obtain ⟨h1, h2⟩ := key as w hb h hx
  refine ⟨h2, fun v r hm => refuses a.hmac a.csrf _ ?_ hm⟩
  exact cookie_none a k k' (place_name a.csrf c k' hs.csrf) order ho _ h1 v h2.1

example : Lacks slot (fresh []) ∧
    ((Spec.run app .csrf SessionFlow.client id (fresh [])
      [.start 0 (at' 0) get, .finish 0 0 (fun _ => user) plain, .start 1 (at' 1) get, .finish 1 1 (fun _ => user) plain,
        .start 2 (at' 2) (post token)]).refused) = [2] := by
  refine ⟨⟨(fun x hx => by cases hx), fun i p h => by cases h⟩, by decide +kernel⟩

/-- Closing the browser removes the token but not a session with an age.  So with the protection outside the user is
still logged in and can submit nothing, although it could before. -/
theorem C151_closed_false (a : App) (c : SetCookie.Spec.Client) (k k' : SetCookie.Spec.Key) (hs : Sound a c k k')
    (order : List Kept → List Kept) (ho : Orders order) (w : World) (hb : Spec.Tidy a k k' w.jar) (t : Str)
    (h : Holds a k' t w) (as : List Act)
    (hx : ∀ x ∈ as, ∀ i now f r, x = .finish i now f r → (∀ s, f s ≠ []) ∧ r.page ≠ .helper) :
    ((closed w.jar).filter fun x => x.key = k) = ((w.jar.filter fun x => x.key = k).filter fun x => x.ends.isSome) ∧
    ∀ v r, ¬ Csrf.Spec.SafeMethod a.csrf.conf r.method → ¬ CsrfFlow.Spec.Passes a.hmac a.csrf
      (arriving a order (Spec.run a .csrf c order (fresh (closed w.jar)) as).jar v r) := by
  refine ⟨?_, ?_⟩
  · unfold closed
    rw [List.filter_filter, List.filter_filter]
    apply List.filter_congr
    intro x _
    exact Bool.and_comm _ _
  · refine (C151_order_false a c k k' hs order ho (fresh (closed w.jar)) ?_ ⟨?_, ?_⟩ as hx).2
    · exact ⟨SessionFlow.tidy_filter a.sess k _ hb.1 _, fun x hx => hb.2 x (List.mem_filter.1 hx).1⟩
    · intro x hx e
      obtain ⟨h1, h2⟩ := List.mem_filter.1 hx
      have : x ∈ w.jar.filter fun x => x.key = k' := List.mem_filter.2 ⟨h1, by simpa using e⟩
      rw [h.1, List.mem_singleton] at this
      rw [this] at h2
      cases h2
    · intro i p hp
      cases hp

example :
    let jar := (Spec.run app .csrf SessionFlow.client id (fresh []) login).jar
    let again := [Act.start 0 (at' 5) get, .finish 0 5 (fun s => if s = [] then user else s) plain,
      .start 1 (at' 6) (post token)]
    jar.map (·.key) = [slot, home] ∧ (closed jar).map (·.key) = [home] ∧
      (Spec.run app .csrf SessionFlow.client id (fresh (closed jar)) again).log = [(0, user)] ∧
      (Spec.run app .csrf SessionFlow.client id (fresh (closed jar)) again).refused = [1] ∧
      (Spec.run app .sessions SessionFlow.client id (fresh (closed jar)) again).refused = [] := by
  refine ⟨?_, ?_, ?_, ?_, ?_⟩ <;> decide +kernel

/-- **C151** is false for cookies of one name: with the sessions outside, the CSRF cookie is taken for that of the
session, and the login is lost. -/
theorem C151_names_false :
    let same : App := { app with csrf := { app.csrf with name := "session".toList } }
    (Spec.run same .sessions SessionFlow.client id (fresh [])
      [.start 0 (at' 0) get, .finish 0 0 (fun _ => user) plain, .start 1 (at' 1) get]).log = [(0, []), (1, [])] ∧
    (Spec.run app .sessions SessionFlow.client id (fresh [])
      [.start 0 (at' 0) get, .finish 0 0 (fun _ => user) plain, .start 1 (at' 1) get]).log = [(0, []), (1, user)] := by
  refine ⟨?_, ?_⟩ <;> decide +kernel

end Verif.LoginForms.Props
