import Verif.LoginForms.Spec
import Verif.Csrf.Props
import Verif.CsrfFlow.Lemmas
import Verif.SessionFlow.Lemmas

/-!
# Lemmas on sessions and CSRF protection together
-/

namespace Verif.LoginForms

open Verif Verif.LoginForms.Spec
open Verif.SessionFlow.Spec (Kept Visit sent view take put Below Goes Orders)
open Verif.CsrfFlow.Spec (Random Hex options)

/-! ## The CSRF cookie in the browser -/

theorem starts_other (n n' rest : Str) (h' : '=' ∉ n') (h : '=' ∉ n) (hne : n ≠ n') :
    startsWith (n' ++ '=' :: rest) (n ++ "=".toList) = false := by
  have e : "=".toList = ['='] := by decide
  rw [e]
  unfold startsWith
  rw [← Bool.not_eq_true, List.isPrefixOf_iff_prefix]
  rintro ⟨v, hv⟩
  rw [List.append_assoc] at hv
  apply hne
  clear e hne
  induction n generalizing n' with
  | nil =>
    cases n' with
    | nil => rfl
    | cons x n' =>
      injection hv with hv _
      exact absurd (by rw [← hv]; exact List.mem_cons_self) h'
  | cons y n ih =>
    cases n' with
    | nil =>
      injection hv with hv _
      exact absurd (by rw [hv]; exact List.mem_cons_self) h
    | cons x n' =>
      injection hv with h1 h2
      rw [h1, ih n' (fun hm => h' (List.mem_cons_of_mem _ hm)) (fun hm => h (List.mem_cons_of_mem _ hm)) h2]

theorem legal_no_eq (n : Str) (h : Cookies.Spec.Legal n) : '=' ∉ n := by
  intro hm
  have := List.all_eq_true.mp (Cookies.legal_all _ h.2) _ hm
  exact absurd this (by decide)

/-- The field with a token, and what the browser makes of it. -/
theorem take_token (date : Int → Str) (s : CsrfFlow.Site) (c : SetCookie.Spec.Client) (k' : SetCookie.Spec.Key)
    (hs : CsrfFlow.Spec.Sound s c k') (t : Str) :
    ∃ f, CsrfFlow.field date (s.cookie t) = [f] ∧ (∃ rest, f = s.name ++ '=' :: rest) ∧
      ∀ now b, take c now b f = (b.filter fun y => y.key ≠ k') ++ [⟨k', Cookies.quote t, none, s.secure⟩] := by
  obtain ⟨hn, hss, hp, hd, hw⟩ := hs
  have hclean : SetCookie.Spec.CleanOpts date (options s) := by
    refine ⟨?_, hd, ?_⟩
    · intro p h
      rw [← Option.some.inj h]
      exact hp
    · intro e h
      exact absurd h (by intro h; cases h)
  have hseen := SetCookie.seen_eq date s.name t (options s) hn hclean hss
  obtain ⟨h1, h2, -, h4, h5, -, h7⟩ := SetCookie.get_attrs date (options s) hclean hss
  refine ⟨strip isSpace (' ' :: joinWith "; ".toList
    ((s.name ++ '=' :: Cookies.quote t) :: SetCookie.attrs date (options s))), ?_, ?_, ?_⟩
  · unfold CsrfFlow.field
    rw [CsrfFlow.toHeader_eq date (s.cookie t) hn]
    rfl
  · obtain ⟨-, h2⟩ := SetCookie.joinWith_trimmed (s.name ++ '=' :: Cookies.quote t)
      (SetCookie.attrs date (options s)) (by
        intro q hq
        rcases List.mem_cons.mp hq with e | hq
        · rw [e]; exact SetCookie.legal_part s.name t hn.1
        · exact SetCookie.parts_attrs date (options s) hclean hss q hq)
    rw [SetCookie.strip_space isSpace _ (by decide) h2.1 h2.2, SessionFlow.joinWith_flat, List.append_assoc]
    exact ⟨_, rfl⟩
  · intro now b
    unfold take
    rw [hseen]
    simp only
    have e1 : SetCookie.Spec.Seen.get ⟨s.name, Cookies.quote t, SetCookie.readAttrs (SetCookie.attrs date (options s))⟩
      "domain".toList = SetCookie.Spec.given s.domain := h1
    have e2 : SetCookie.Spec.Seen.get ⟨s.name, Cookies.quote t, SetCookie.readAttrs (SetCookie.attrs date (options s))⟩
      "path".toList = SetCookie.Spec.given (some s.path) := h5
    have e3 : SetCookie.Spec.Seen.get ⟨s.name, Cookies.quote t, SetCookie.readAttrs (SetCookie.attrs date (options s))⟩
      "max-age".toList = none := h4
    have e4 : SetCookie.Spec.Seen.get ⟨s.name, Cookies.quote t, SetCookie.readAttrs (SetCookie.attrs date (options s))⟩
      "expires".toList = none := h2
    have e5 : SetCookie.Spec.Seen.get ⟨s.name, Cookies.quote t, SetCookie.readAttrs (SetCookie.attrs date (options s))⟩
      "secure".toList = (if s.secure then some [] else none) := h7
    have hplace : SetCookie.Spec.place { c with now := now }
        ⟨s.name, Cookies.quote t, SetCookie.readAttrs (SetCookie.attrs date (options s))⟩ = some k' := by
      rw [← hw]
      unfold SetCookie.Spec.place SetCookie.Spec.wanted
      rw [e1, e2]
      show _ = match SetCookie.Spec.given s.domain with
        | none => _
        | some d => _
      cases hg : SetCookie.Spec.given s.domain with
      | none => rfl
      | some d =>
        have : d ≠ [] := fun e => SetCookie.given_ne s.domain (by rw [hg, e])
        simp only
        rw [if_neg this]
        rfl
    rw [hplace]
    simp only
    have hexp : ¬ SetCookie.Spec.Expired { c with now := (now : Int) }
        ⟨s.name, Cookies.quote t, SetCookie.readAttrs (SetCookie.attrs date (options s))⟩ := by
      unfold SetCookie.Spec.Expired
      rw [e3, e4]
      exact id
    rw [if_neg hexp]
    unfold SessionFlow.Spec.endOf
    rw [e3, e4, e5]
    cases s.secure <;> rfl


theorem place_name (s : CsrfFlow.Site) (c : SetCookie.Spec.Client) (k' : SetCookie.Spec.Key)
    (hs : CsrfFlow.Spec.Sound s c k') : k'.1 = s.name := by
  have hw := hs.2.2.2.2
  unfold SetCookie.Spec.wanted at hw
  split at hw
  · injection hw with hw; rw [← hw]
  · split at hw
    · injection hw with hw; rw [← hw]
    · cases hw

theorem places_ne (a : App) (c : SetCookie.Spec.Client) (k k' : SetCookie.Spec.Key) (hs : Sound a c k k') : k' ≠ k := by
  intro e
  apply hs.apart
  rw [← SessionFlow.home_name c a.sess k hs.home, ← e, place_name a.csrf c k' hs.csrf]

/-! ## The CSRF cookie in requests -/

theorem cookie_eq (a : App) (k k' : SetCookie.Spec.Key) (hk' : k'.1 = a.csrf.name) (order : List Kept → List Kept)
    (ho : Orders order) (b : List Kept) (hb : Spec.Tidy a k k' b) (v : Visit) (l : List Kept) (hl : l.length ≤ 1)
    (hf : (b.filter fun x => x.key = k') = l) :
    Spec.cookie a order b v =
      ((l.filter fun x => Goes v x).getLast?).map fun x => Url.unquote (Cookies.unquoteCookie x.value) := by
  unfold Spec.cookie sent
  rw [Session.lookup_header, SessionFlow.lookup_eq _ (fun v => Url.unquote (Cookies.unquoteCookie v)), List.filter_map,
    List.getLast?_map]
  · have hb' : SessionFlow.Spec.Tidy { a.sess with name := a.csrf.name } k' b :=
      fun x hx => ⟨hb.2 x hx, (hb.1 x hx).2⟩
    have := SessionFlow.mine_sent { a.sess with name := a.csrf.name } k' hk' order ho b hb' v l hl hf
    have e : ((fun kv : Str × Str => decide (kv.1 = a.csrf.name)) ∘ fun x : Kept => (x.key.1, x.value)) =
        fun x : Kept => decide (x.key.1 = a.csrf.name) := rfl
    rw [e, this]
    cases (l.filter fun x => Goes v x).getLast? <;> rfl
  · intro kv hkv
    obtain ⟨x, hx, rfl⟩ := List.mem_map.mp hkv
    exact (hb.1 x (List.mem_filter.mp ((ho _).mem_iff.mp hx)).1).2

theorem cookie_none (a : App) (k k' : SetCookie.Spec.Key) (hk' : k'.1 = a.csrf.name) (order : List Kept → List Kept)
    (ho : Orders order) (b : List Kept) (hb : Spec.Tidy a k k' b) (v : Visit) (hn : ∀ x ∈ b, x.key ≠ k') :
    Spec.cookie a order b v = none := by
  rw [cookie_eq a k k' hk' order ho b hb v [] (by simp) (by
    rw [List.filter_eq_nil_iff]
    intro x hx
    simpa using hn x hx)]
  rfl

theorem cookie_token (a : App) (k k' : SetCookie.Spec.Key) (hk' : k'.1 = a.csrf.name) (order : List Kept → List Kept)
    (ho : Orders order) (b : List Kept) (hb : Spec.Tidy a k k' b) (v : Visit) (hv : Reaches a k' v) (t : Str)
    (hne : t ≠ []) (hx : Hex t) (hf : (b.filter fun x => x.key = k') = [⟨k', t, none, a.csrf.secure⟩]) :
    Spec.cookie a order b v = some t := by
  rw [cookie_eq a k k' hk' order ho b hb v _ (by simp) hf]
  have hg : Goes v ⟨k', t, none, a.csrf.secure⟩ := ⟨hv.1, (by intro e h; cases h), hv.2⟩
  rw [List.filter_cons, if_pos (by simpa using hg)]
  simp only [List.filter_nil, List.getLast?_singleton, Option.map_some]
  have h1 : Cookies.unquoteCookie t = t := by
    have := Cookies.unquote_quote t
    rw [CsrfFlow.quote_hex t hne hx] at this
    exact this
  rw [h1, Cookies.unquote_no_percent t (fun hm => (CsrfFlow.hex_small _ (hx _ hm)).2.1 rfl)]

/-! ## Fields of a response -/

/-- Fields that set the CSRF cookie, if any. -/
def Csrfs (a : App) (fs : List Str) : Prop := fs = [] ∨ ∃ t, fs = CsrfFlow.field a.date (a.csrf.cookie t)

theorem csrfs_page (a : App) (p : Pending) (r : Reply) : Csrfs a (a.page p r).2 := by
  unfold App.page CsrfFlow.handle
  cases r.page with
  | plain => exact .inl rfl
  | template => exact .inl rfl
  | helper =>
    simp only [List.nil_append]
    split
    · exact .inr ⟨_, rfl⟩
    · exact .inl rfl

theorem protect_cases (a : App) (p : Pending) (rnd : Str) (fs : List Str) :
    (fs = [] ∧ Csrfs a (a.protect p rnd fs)) ∨ a.protect p rnd fs = fs := by
  unfold App.protect
  split
  · rename_i h
    exact .inl ⟨h.2.2, .inr ⟨_, rfl⟩⟩
  · exact .inr rfl

theorem respond_pre (a : App) (c : SetCookie.Spec.Client) (k k' : SetCookie.Spec.Key) (hs : Sound a c k k')
    (now : Nat) (was : Bool) (left : Session.Sess) (fs : List Str) (h : Csrfs a fs) :
    a.sess.respond now was fs left = fs ++ a.sess.respond now was [] left := by
  have hany : (fs.any fun f => startsWith f (a.sess.name ++ "=".toList)) = false := by
    rcases h with rfl | ⟨t, rfl⟩
    · rfl
    · obtain ⟨f, hf, ⟨rest, hr⟩, -⟩ := take_token a.date a.csrf c k' hs.csrf t
      rw [hf, hr, List.any_cons, List.any_nil, Bool.or_false]
      exact starts_other _ _ _ (legal_no_eq _ hs.csrf.1.1) (legal_no_eq _ hs.sane.1) hs.apart
  unfold SessionFlow.Site.respond
  rw [hany]
  simp only [List.any_nil, Bool.false_eq_true, if_false, List.nil_append]
  split
  · rfl
  · split
    · rfl
    · rw [List.append_nil]

/-- The fields of a response are those of the session, with CSRF cookies around. -/
theorem fields_eq (a : App) (c : SetCookie.Spec.Client) (k k' : SetCookie.Spec.Key) (hs : Sound a c k k') (o : Outer)
    (now : Nat) (p : Pending) (left : Session.Sess) (r : Reply) :
    ∃ pre post, Csrfs a pre ∧ Csrfs a post ∧
      a.fields o now p left r = pre ++ a.sess.respond now p.wasEmpty [] left ++ post := by
  cases o with
  | sessions =>
    have hc : Csrfs a (a.protect p r.rnd' (a.page p r).2) := by
      rcases protect_cases a p r.rnd' (a.page p r).2 with ⟨-, h⟩ | h
      · exact h
      · rw [h]; exact csrfs_page a p r
    refine ⟨_, [], hc, .inl rfl, ?_⟩
    rw [List.append_nil]
    exact respond_pre a c k k' hs now p.wasEmpty left _ hc
  | csrf =>
    have he := respond_pre a c k k' hs now p.wasEmpty left _ (csrfs_page a p r)
    unfold App.fields
    simp only
    rcases protect_cases a p r.rnd' (a.sess.respond now p.wasEmpty (a.page p r).2 left) with ⟨h1, h2⟩ | h
    · rw [he] at h1
      have h3 := List.append_eq_nil_iff.1 h1
      exact ⟨[], _, .inl rfl, h2, by rw [h3.2]; rfl⟩
    · rw [h]
      exact ⟨_, [], csrfs_page a p r, .inl rfl, by rw [List.append_nil, he]⟩

/-! ## The cookies after a response -/

theorem filter_same (b b' : List Kept) (k k' : SetCookie.Spec.Key) (hne : k' ≠ k)
    (h : (b'.filter fun y => y.key ≠ k) = b.filter fun y => y.key ≠ k) :
    (b'.filter fun y => y.key = k') = b.filter fun y => y.key = k' := by
  have key : ∀ b : List Kept, (b.filter fun y => y.key = k') =
      (b.filter fun y => y.key ≠ k).filter fun y => y.key = k' := by
    intro b
    rw [List.filter_filter]
    apply List.filter_congr
    intro x _
    by_cases e : x.key = k'
    · simp [e, hne]
    · simp [e]
  rw [key b', key b, h]

theorem filter_twice (b : List Kept) (k : SetCookie.Spec.Key) :
    ((b.filter fun y => y.key ≠ k).filter fun y => y.key ≠ k) = b.filter fun y => y.key ≠ k := by
  rw [List.filter_filter]
  apply List.filter_congr
  intro x _
  by_cases e : x.key = k <;> simp [e]

/-- What is kept elsewhere stays when the fields of the session arrive. -/
theorem session_fold (a : App) (c : SetCookie.Spec.Client) (k k' : SetCookie.Spec.Key) (hs : Sound a c k k')
    (now : Nat) (was : Bool) (left : Session.Sess) (b : List Kept) :
    (((a.sess.respond now was [] left).foldl (take c now) b).filter fun y => y.key ≠ k) =
      b.filter fun y => y.key ≠ k := by
  unfold SessionFlow.Site.respond
  simp only [List.any_nil, Bool.false_eq_true, if_false, List.nil_append]
  split
  · simp only [List.foldl_cons, List.foldl_nil]
    rw [SessionFlow.take_field c a.sess hs.sane hs.timed k hs.home, List.filter_append, filter_twice]
    simp
  · split
    · simp only [List.foldl_cons, List.foldl_nil]
      rw [SessionFlow.take_ending c hs.date a.sess hs.sane k hs.home, filter_twice]
    · rfl

theorem session_tidy (a : App) (c : SetCookie.Spec.Client) (k k' : SetCookie.Spec.Key) (hs : Sound a c k k')
    (now : Nat) (was : Bool) (left : Session.Sess) (b : List Kept) (hb : Spec.Tidy a k k' b) :
    Spec.Tidy a k k' ((a.sess.respond now was [] left).foldl (take c now) b) := by
  have hn := SessionFlow.home_name c a.sess k hs.home
  refine ⟨?_, ?_⟩
  · unfold SessionFlow.Site.respond
    simp only [List.any_nil, Bool.false_eq_true, if_false, List.nil_append]
    split
    · simp only [List.foldl_cons, List.foldl_nil]
      rw [SessionFlow.take_field c a.sess hs.sane hs.timed k hs.home]
      exact SessionFlow.tidy_cookie a.sess hs.sane hs.timed k hn (now, left) _
        (SessionFlow.tidy_filter a.sess k _ hb.1 _)
    · split
      · simp only [List.foldl_cons, List.foldl_nil]
        rw [SessionFlow.take_ending c hs.date a.sess hs.sane k hs.home]
        exact SessionFlow.tidy_filter a.sess k _ hb.1 _
      · exact hb.1
  · intro x hx hxn
    have hxk : x.key ≠ k := fun e => hs.apart (by rw [← hn, ← e, hxn])
    have : x ∈ ((a.sess.respond now was [] left).foldl (take c now) b).filter fun y => y.key ≠ k :=
      List.mem_filter.2 ⟨hx, by simpa using hxk⟩
    rw [session_fold a c k k' hs] at this
    exact hb.2 x (List.mem_filter.1 this).1 hxn

theorem csrf_fold (a : App) (c : SetCookie.Spec.Client) (k k' : SetCookie.Spec.Key) (hs : Sound a c k k')
    (now : Nat) (fs : List Str) (h : Csrfs a fs) (b : List Kept) :
    ((fs.foldl (take c now) b).filter fun y => y.key ≠ k') = b.filter fun y => y.key ≠ k' := by
  rcases h with rfl | ⟨t, rfl⟩
  · rfl
  · obtain ⟨f, hf, -, ht⟩ := take_token a.date a.csrf c k' hs.csrf t
    rw [hf, List.foldl_cons, List.foldl_nil, ht, List.filter_append, filter_twice]
    simp

theorem csrf_tidy (a : App) (c : SetCookie.Spec.Client) (k k' : SetCookie.Spec.Key) (hs : Sound a c k k')
    (now : Nat) (fs : List Str) (h : Csrfs a fs) (b : List Kept) (hb : Spec.Tidy a k k' b) :
    Spec.Tidy a k k' (fs.foldl (take c now) b) := by
  rcases h with rfl | ⟨t, rfl⟩
  · exact hb
  · obtain ⟨f, hf, -, ht⟩ := take_token a.date a.csrf c k' hs.csrf t
    rw [hf, List.foldl_cons, List.foldl_nil, ht]
    have hn := place_name a.csrf c k' hs.csrf
    have hl := Cookies.legal_all _ hs.csrf.1.1.2
    refine ⟨fun x hx => ?_, fun x hx hxn => ?_⟩
    · rcases List.mem_append.1 hx with hx | hx
      · exact hb.1 x (List.mem_filter.1 hx).1
      · rw [List.mem_singleton.1 hx]
        have hchar : ∀ ch, Cookies.legal ch = false → ch ∉ a.csrf.name := by
          intro ch hch hm
          rw [List.all_eq_true.mp hl _ hm] at hch
          cases hch
        refine ⟨fun e => absurd (by rw [← hn]; exact e.symm) hs.apart, ?_, Cookies.quote_trimmed t, ?_, ?_,
          Cookies.quote_no_semi t⟩
        · show Cookies.Spec.Trimmed k'.1; rw [hn]; exact Cookies.legal_trimmed _ hl
        · show ';' ∉ k'.1; rw [hn]; exact hchar _ (by decide)
        · show '=' ∉ k'.1; rw [hn]; exact hchar _ (by decide)
    · rcases List.mem_append.1 hx with hx | hx
      · exact hb.2 x (List.mem_filter.1 hx).1 hxn
      · rw [List.mem_singleton.1 hx]

theorem fields_tidy (a : App) (c : SetCookie.Spec.Client) (k k' : SetCookie.Spec.Key) (hs : Sound a c k k') (o : Outer)
    (now : Nat) (p : Pending) (left : Session.Sess) (r : Reply) (b : List Kept) (hb : Spec.Tidy a k k' b) :
    Spec.Tidy a k k' ((a.fields o now p left r).foldl (take c now) b) := by
  obtain ⟨pre, post, h1, h2, h3⟩ := fields_eq a c k k' hs o now p left r
  rw [h3, List.foldl_append, List.foldl_append]
  exact csrf_tidy a c k k' hs now post h2 _ (session_tidy a c k k' hs now _ left _ (csrf_tidy a c k k' hs now pre h1 b
      hb))

theorem step_tidy (a : App) (c : SetCookie.Spec.Client) (k k' : SetCookie.Spec.Key) (hs : Sound a c k k') (o : Outer)
    (order : List Kept → List Kept) (w : World) (x : Act) (hb : Spec.Tidy a k k' w.jar) :
    Spec.Tidy a k k' (Spec.step a o c order w x).jar := by
  cases x with
  | start i v r =>
    simp only [Spec.step]
    cases a.admits (arriving a order w.jar v r) <;> exact hb
  | finish i now f r =>
    simp only [Spec.step]
    cases w.waiting i with
    | none => exact hb
    | some p => exact fields_tidy a c k k' hs o now p _ r _ hb

/-! ## Sessions -/

/-- The part of the world that concerns sessions. -/
def part (w : World) : SessionFlow.Spec.World :=
  ⟨w.jar, fun i => (w.waiting i).map fun p => (p.seen, p.wasEmpty), w.log⟩

theorem rel_jar (s : SessionFlow.Site) (k : SetCookie.Spec.Key) (clock : Nat) (w w' : SessionFlow.Spec.World)
    (m : SessionFlow.Spec.Store) (h : SessionFlow.Rel s k clock w m) (ht : SessionFlow.Spec.Tidy s k w'.jar)
    (hf : (w'.jar.filter fun x => x.key = k) = w.jar.filter fun x => x.key = k) (hw : w'.waiting = w.waiting)
    (hl : w'.log = w.log) : SessionFlow.Rel s k clock w' m :=
  ⟨ht, hl.trans h.log, by rw [hw]; exact h.waiting, by rw [hw]; exact h.flags, hf.trans h.mine, h.past⟩

theorem put_map (f : Nat → Option Pending) (i : Nat) (x : Option Pending) :
    (fun j => (put f i x j).map fun p => (p.seen, p.wasEmpty)) =
      put (fun j => (f j).map fun p => (p.seen, p.wasEmpty)) i (x.map fun p => (p.seen, p.wasEmpty)) := by
  funext j
  unfold put
  by_cases h : j = i
  · rw [if_pos h, if_pos h]
  · rw [if_neg h, if_neg h]

theorem rel_start (a : App) (c : SetCookie.Spec.Client) (k k' : SetCookie.Spec.Key) (hs : Sound a c k k') (o : Outer)
    (order : List Kept → List Kept) (ho : Orders order) (clock : Nat) (w : World) (m : SessionFlow.Spec.Store)
    (h : SessionFlow.Rel a.sess k clock (part w) m) (i : Nat) (v : Visit) (r : Csrf.Request)
    (hv : SessionFlow.Spec.Within a.sess k v) (hle : clock ≤ v.time) :
    SessionFlow.Rel a.sess k v.time (part (Spec.step a o c order w (.start i v r)))
      (SessionFlow.Spec.Store.run a.sess m
        (if (a.admits (arriving a order w.jar v r)).isSome then [.start i v] else [])) := by
  simp only [Spec.step]
  cases hadm : a.admits (arriving a order w.jar v r) with
  | none =>
    exact ⟨h.tidy, h.log, h.waiting, h.flags, h.mine, fun p hp => ⟨Nat.le_trans (h.past p hp).1 hle, (h.past p hp).2⟩⟩
  | some safe =>
    have := SessionFlow.rel_step c hs.date a.sess hs.sane hs.timed k hs.home order ho clock (part w) m h (.start i v)
      (fun i' v' e => by injection e with _ e; rw [← e]; exact hv) hle
    have e : part { w with
        waiting := put w.waiting i
          (some ⟨Spec.cookie a order w.jar v, safe, (view a.sess order w.jar v).1, (view a.sess order w.jar v).2⟩)
        log := w.log ++ [(i, (view a.sess order w.jar v).1)] } =
        SessionFlow.Spec.step a.sess c order (part w) (.start i v) := by
      unfold part
      simp only [SessionFlow.Spec.step, put_map, Option.map_some]
    rw [e]
    exact this

theorem rel_finish (a : App) (c : SetCookie.Spec.Client) (k k' : SetCookie.Spec.Key) (hs : Sound a c k k') (o : Outer)
    (order : List Kept → List Kept) (ho : Orders order) (clock : Nat) (w : World) (m : SessionFlow.Spec.Store)
    (hb : Spec.Tidy a k k' w.jar) (h : SessionFlow.Rel a.sess k clock (part w) m) (i now : Nat)
    (f : Session.Sess → Session.Sess) (r : Reply) (hle : clock ≤ now) :
    SessionFlow.Rel a.sess k now (part (Spec.step a o c order w (.finish i now f r)))
      (SessionFlow.Spec.Store.step a.sess m (.finish i now f)) := by
  have hne := places_ne a c k k' hs
  have key : ∀ w0 : SessionFlow.Spec.World, SessionFlow.Rel a.sess k clock w0 m →
      SessionFlow.Rel a.sess k now (SessionFlow.Spec.step a.sess c order w0 (.finish i now f))
        (SessionFlow.Spec.Store.step a.sess m (.finish i now f)) := fun w0 h0 =>
    SessionFlow.rel_step c hs.date a.sess hs.sane hs.timed k hs.home order ho clock w0 m h0 (.finish i now f)
      (fun i' v' e => by cases e) hle
  simp only [Spec.step]
  cases hi : w.waiting i with
  | none =>
    have := key (part w) h
    have e : SessionFlow.Spec.step a.sess c order (part w) (.finish i now f) = part w := by
      simp only [SessionFlow.Spec.step, part, hi, Option.map_none]
    rw [e] at this
    exact this
  | some p =>
    simp only
    obtain ⟨pre, post, h1, h2, h3⟩ := fields_eq a c k k' hs o now p (f p.seen) r
    have hpre : Spec.Tidy a k k' (pre.foldl (take c now) w.jar) := csrf_tidy a c k k' hs now pre h1 _ hb
    have hr := rel_jar a.sess k clock (part w) { part w with jar := pre.foldl (take c now) w.jar } m h hpre.1
      (filter_same _ _ k' k hne.symm (csrf_fold a c k k' hs now pre h1 w.jar)) rfl rfl
    have hst := key _ hr
    have e : SessionFlow.Spec.step a.sess c order { part w with jar := pre.foldl (take c now) w.jar }
        (.finish i now f) =
        ⟨(a.sess.respond now p.wasEmpty [] (f p.seen)).foldl (take c now) (pre.foldl (take c now) w.jar),
          put (part w).waiting i none, w.log⟩ := by
      simp only [SessionFlow.Spec.step, part, hi, Option.map_some]
    rw [e] at hst
    refine rel_jar a.sess k now _ _ _ hst ?_ ?_ ?_ rfl
    · exact (fields_tidy a c k k' hs o now p (f p.seen) r _ hb).1
    · show ((List.foldl (take c now) w.jar (a.fields o now p (f p.seen) r)).filter fun x => x.key = k) = _
      rw [h3, List.foldl_append, List.foldl_append]
      exact filter_same _ _ k' k hne.symm (csrf_fold a c k k' hs now post h2 _)
    · exact put_map w.waiting i none

/-! ## The token -/

theorem page_some (a : App) (p : Pending) (r : Reply) (t : Str) (hne : t ≠ []) (hp : p.cookie = some t) :
    a.page p r = (if r.page = .plain then none else some t, []) := by
  unfold App.page CsrfFlow.handle
  rw [hp]
  cases t with
  | nil => exact absurd rfl hne
  | cons x t => cases r.page <;> rfl

theorem fields_some (a : App) (o : Outer) (now : Nat) (p : Pending) (left : Session.Sess) (r : Reply) (t : Str)
    (hne : t ≠ []) (hp : p.cookie = some t) :
    a.fields o now p left r = a.sess.respond now p.wasEmpty [] left := by
  have hpr : ∀ rnd fs, a.protect p rnd fs = fs := by
    intro rnd fs
    unfold App.protect
    rw [if_neg]
    rintro ⟨-, h, -⟩
    rw [hp] at h
    cases h
  unfold App.fields
  cases o <;> simp only [hpr, page_some a p r t hne hp]

theorem signed_facts (a : App) (hh : CsrfFlow.Spec.HexDigest a.hmac) (t : Str) (h : Signed a t) : t ≠ [] ∧ Hex t := by
  obtain ⟨rnd, hr, rfl⟩ := h
  exact ⟨CsrfFlow.token_ne a.hmac hh _ _ hr, CsrfFlow.hex_token a.hmac hh _ _ hr⟩

theorem holds_step (a : App) (c : SetCookie.Spec.Client) (k k' : SetCookie.Spec.Key) (hs : Sound a c k k') (o : Outer)
    (order : List Kept → List Kept) (ho : Orders order) (w : World) (hb : Spec.Tidy a k k' w.jar) (t : Str)
    (ht : Signed a t) (h : Holds a k' t w) (x : Act) (hx : ∀ i v r, x = .start i v r → Reaches a k' v) :
    Holds a k' t (Spec.step a o c order w x) ∧
      ∀ y ∈ (Spec.step a o c order w x).tabs, y ∈ w.tabs ∨ y = none ∨ y = some t := by
  obtain ⟨hne, hhex⟩ := signed_facts a hs.hex t ht
  cases x with
  | start i v r =>
    have hc := cookie_token a k k' (place_name a.csrf c k' hs.csrf) order ho w.jar hb v (hx i v r rfl) t hne hhex h.1
    simp only [Spec.step]
    cases a.admits (arriving a order w.jar v r) with
    | none => exact ⟨h, fun y hy => .inl hy⟩
    | some safe =>
      refine ⟨⟨h.1, ?_⟩, fun y hy => .inl hy⟩
      intro j p hp
      simp only [put] at hp
      by_cases hj : j = i
      · rw [if_pos hj] at hp
        injection hp with hp
        rw [← hp]; exact hc
      · rw [if_neg hj] at hp
        exact h.2 j p hp
  | finish i now f r =>
    simp only [Spec.step]
    cases hi : w.waiting i with
    | none => exact ⟨h, fun y hy => .inl hy⟩
    | some p =>
      have hp := h.2 i p hi
      refine ⟨⟨?_, ?_⟩, ?_⟩
      · show ((List.foldl (take c now) w.jar (a.fields o now p (f p.seen) r)).filter fun x => x.key = k') = _
        rw [fields_some a o now p _ r t hne hp,
          filter_same w.jar _ k k' (places_ne a c k k' hs) (session_fold a c k k' hs now _ _ _)]
        exact h.1
      · intro j q hq
        simp only [put] at hq
        by_cases hj : j = i
        · rw [if_pos hj] at hq; cases hq
        · rw [if_neg hj] at hq; exact h.2 j q hq
      · intro y hy
        rcases List.mem_append.1 hy with hy | hy
        · exact .inl hy
        · rw [List.mem_singleton.1 hy, page_some a p r t hne hp]
          right
          by_cases hpl : r.page = .plain
          · simp [hpl]
          · simp [hpl]

theorem holds_run (a : App) (c : SetCookie.Spec.Client) (k k' : SetCookie.Spec.Key) (hs : Sound a c k k') (o : Outer)
    (order : List Kept → List Kept) (ho : Orders order) (t : Str) (ht : Signed a t) (as : List Act) (w : World)
    (hb : Spec.Tidy a k k' w.jar) (h : Holds a k' t w) (hx : AllReach a k' as) :
    Spec.Tidy a k k' (Spec.run a o c order w as).jar ∧ Holds a k' t (Spec.run a o c order w as) ∧
      ∀ y ∈ (Spec.run a o c order w as).tabs, y ∈ w.tabs ∨ y = none ∨ y = some t := by
  induction as generalizing w with
  | nil => exact ⟨hb, h, fun y hy => .inl hy⟩
  | cons x as ih =>
    obtain ⟨h1, h2⟩ := holds_step a c k k' hs o order ho w hb t ht h x
      (fun i v r e => hx x List.mem_cons_self i v r e)
    obtain ⟨h3, h4, h5⟩ := ih _ (step_tidy a c k k' hs o order w x hb) h1
      (fun y hy => hx y (List.mem_cons_of_mem _ hy))
    refine ⟨h3, h4, fun y hy => ?_⟩
    rcases h5 y hy with h | h
    · exact h2 y h
    · exact .inr h

theorem passes_token (a : App) (c : SetCookie.Spec.Client) (k k' : SetCookie.Spec.Key) (hs : Sound a c k k')
    (order : List Kept → List Kept) (ho : Orders order) (t : Str) (ht : Signed a t) (w : World)
    (hb : Spec.Tidy a k k' w.jar) (h : Holds a k' t w) (v : Visit) (hv : Reaches a k' v) (r : Csrf.Request)
    (hr : CsrfFlow.Spec.Submits a.csrf r t) : CsrfFlow.Spec.Passes a.hmac a.csrf (arriving a order w.jar v r) := by
  obtain ⟨hne, hhex⟩ := signed_facts a hs.hex t ht
  have hc := cookie_token a k k' (place_name a.csrf c k' hs.csrf) order ho w.jar hb v hv t hne hhex h.1
  have hsub : CsrfFlow.Spec.Submits a.csrf (arriving a order w.jar v r) t := hr
  rw [CsrfFlow.passes_iff a.hmac a.csrf _ t hne hsub]
  show Csrf.tokensMatch a.hmac a.csrf.conf.secret (some t) (Spec.cookie a order w.jar v) = some true
  rw [hc]
  obtain ⟨rnd, hrnd, rfl⟩ := ht
  exact (Csrf.C13_roundtrip a.hmac (CsrfFlow.hexMac_of a.hmac hs.hex) a.csrf.conf.secret rnd hrnd.1
    (fun x hx => (CsrfFlow.hex_small x (hrnd.2 x hx)).2.2)).2

/-! ## Without a token -/

theorem refuses (hmac : Str → Str → Str) (s : CsrfFlow.Site) (r : Csrf.Request) (hc : r.cookie = none)
    (hm : ¬ Csrf.Spec.SafeMethod s.conf r.method) : ¬ CsrfFlow.Spec.Passes hmac s r := by
  have hm : r.method ∉ s.conf.safe := fun h => hm ((Csrf.safe_iff _ _).1 h)
  have hfin : ∀ t recv, Csrf.finish hmac s.conf r t recv = .denied := by
    intro t recv
    unfold Csrf.finish
    rw [if_neg hm, hc]
    cases t <;> rfl
  rintro ⟨recv, w, h⟩
  unfold Csrf.serve at h
  split at h
  · split at h
    · cases h
    · rw [hfin] at h; cases h
    · rw [hfin] at h; cases h
  · rw [hfin] at h; cases h

theorem lacks_step (a : App) (c : SetCookie.Spec.Client) (k k' : SetCookie.Spec.Key) (hs : Sound a c k k')
    (order : List Kept → List Kept) (ho : Orders order) (w : World) (hb : Spec.Tidy a k k' w.jar) (h : Lacks k' w)
    (x : Act) (hx : ∀ i now f r, x = .finish i now f r → (∀ s, f s ≠ []) ∧ r.page ≠ .helper) :
    Lacks k' (Spec.step a .csrf c order w x) := by
  cases x with
  | start i v r =>
    have hc := cookie_none a k k' (place_name a.csrf c k' hs.csrf) order ho w.jar hb v h.1
    simp only [Spec.step]
    cases a.admits (arriving a order w.jar v r) with
    | none => exact h
    | some safe =>
      refine ⟨h.1, ?_⟩
      intro j p hp
      simp only [put] at hp
      by_cases hj : j = i
      · rw [if_pos hj] at hp
        injection hp with hp
        rw [← hp]; exact hc
      · rw [if_neg hj] at hp
        exact h.2 j p hp
  | finish i now f r =>
    obtain ⟨hf, hpage⟩ := hx i now f r rfl
    simp only [Spec.step]
    cases hi : w.waiting i with
    | none => exact h
    | some p =>
      have hp := h.2 i p hi
      have hnil : (a.page p r).2 = [] := by
        unfold App.page CsrfFlow.handle
        cases hr : r.page with
        | plain => rfl
        | template => rfl
        | helper => exact absurd hr hpage
      have hfields : a.fields .csrf now p (f p.seen) r = a.sess.respond now p.wasEmpty [] (f p.seen) := by
        unfold App.fields
        simp only [hnil]
        unfold App.protect
        rw [if_neg]
        rintro ⟨-, -, h⟩
        unfold SessionFlow.Site.respond at h
        simp only [List.any_nil, Bool.false_eq_true, if_false, List.nil_append, if_pos (hf p.seen)] at h
        cases h
      refine ⟨?_, ?_⟩
      · intro y hy e
        have hy : y ∈ (a.fields .csrf now p (f p.seen) r).foldl (take c now) w.jar := hy
        rw [hfields] at hy
        have : y ∈ ((a.sess.respond now p.wasEmpty [] (f p.seen)).foldl (take c now) w.jar).filter
            fun y => y.key = k' := List.mem_filter.2 ⟨hy, by simpa using e⟩
        rw [filter_same w.jar _ k k' (places_ne a c k k' hs) (session_fold a c k k' hs now _ _ _)] at this
        exact h.1 y (List.mem_filter.1 this).1 e
      · intro j q hq
        simp only [put] at hq
        by_cases hj : j = i
        · rw [if_pos hj] at hq; cases hq
        · rw [if_neg hj] at hq; exact h.2 j q hq

end Verif.LoginForms
