import Verif.Stack.Spec
import Verif.Gzip.Props
import Verif.Cors.Lemmas

/-!
# Lemmas about stacks
-/

namespace Verif.Stack

open Verif Verif.MultiDict Spec
open Verif.Gzip (Bytes Codec)

variable {E : Type}

theorem follows_started {ph ph' : Phase} {m : Msg} (h : Follows ph m ph') :
    (decide (ph ≠ .idle) || m.isStart) = true ∧ decide (ph' ≠ .idle) = true := by
  cases h <;> exact ⟨rfl, rfl⟩

theorem withHeaders_proper (f : Items Str → Except E (Items Str)) {ph : Phase} {p : Prog E} (h : Proper ph p) :
    Proper ph (withHeaders f p) := by
  induction h with
  | ret => exact .ret
  | raise ph e => exact .raise ph e
  | send ph ph' m next fail h hn hf ih =>
    have hf' : ∀ e, ∃ x, withHeaders f (fail e) = .raise x := by
      intro e
      obtain ⟨x, hx⟩ := hf e
      exact ⟨x, by rw [hx]; rfl⟩
    cases h with
    | start st hs =>
      rw [withHeaders]
      cases f hs with
      | ok h' => exact .send _ _ _ _ _ (.start st h') ih hf'
      | error e =>
        obtain ⟨x, hx⟩ := hf' e
        show Proper .idle (withHeaders f (fail e))
        rw [hx]
        exact .raise _ _
    | more d => exact .send _ _ _ _ _ (.more d) ih hf'
    | last d => exact .send _ _ _ _ _ (.last d) ih hf'
  | other ph next fail hn hf ih ihf => exact .other _ _ _ ih ihf

theorem handled_proper (handler : E → Option (Prog E)) (hh : ∀ e p, handler e = some p → Proper .idle p) {ph : Phase}
    {p : Prog E} (h : Proper ph p) : ∀ started, started = decide (ph ≠ .idle) → Proper ph (handled handler started p)
        := by
  induction h with
  | ret => intro _ _; exact .ret
  | raise ph e =>
    intro started hs
    show Proper ph (match handler e with
      | none => .raise e
      | some p => if started then .raise e else p)
    cases he : handler e with
    | none => exact .raise _ _
    | some q =>
      by_cases hi : ph = .idle
      · subst hi
        have : started = false := by rw [hs]; rfl
        subst this
        exact hh e q he
      · have : started = true := by rw [hs]; exact decide_eq_true hi
        subst this
        exact .raise _ _
  | send ph ph' m next fail h hn hf ih =>
    intro started hs
    obtain ⟨h1, h2⟩ := follows_started h
    have h3 : (started || m.isStart) = true := by rw [hs]; exact h1
    show Proper ph (.send m (handled handler (started || m.isStart) next) fun e =>
      handled handler (started || m.isStart) (fail e))
    rw [h3]
    refine .send _ _ _ _ _ h (ih true h2.symm) fun e => ?_
    obtain ⟨x, hx⟩ := hf e
    refine ⟨x, ?_⟩
    show handled handler true (fail e) = _
    rw [hx]
    rw [handled]
    cases handler x <;> rfl
  | other ph next fail hn hf ih ihf =>
    intro started hs
    have h3 : (started || Msg.isStart .other) = started := Bool.or_false started
    show Proper ph (.send .other (handled handler (started || Msg.isStart .other) next) fun e =>
      handled handler (started || Msg.isStart .other) (fail e))
    rw [h3]
    exact .other _ _ _ (ih started hs) fun e => ihf e started hs

theorem intercepted_proper (catches : E → Bool) (handler : E → Prog E) (hh : ∀ e, Proper .idle (handler e)) {ph : Phase}
    {p : Prog E} (h : Proper ph p) :
    ∀ started, started = decide (ph ≠ .idle) → Proper ph (intercepted catches handler started p) := by
  induction h with
  | ret => intro _ _; exact .ret
  | raise ph e =>
    intro started hs
    show Proper ph (if catches e = true ∧ started = false then handler e else .raise e)
    split
    · rename_i hc
      by_cases hi : ph = .idle
      · subst hi; exact hh e
      · rw [hc.2] at hs
        exact absurd hs (by rw [decide_eq_true hi]; exact Bool.false_ne_true)
    · exact .raise _ _
  | send ph ph' m next fail h hn hf ih =>
    intro started hs
    obtain ⟨h1, h2⟩ := follows_started h
    have h3 : (started || m.isStart) = true := by rw [hs]; exact h1
    show Proper ph (.send m (intercepted catches handler (started || m.isStart) next) fun e =>
      intercepted catches handler (started || m.isStart) (fail e))
    rw [h3]
    refine .send _ _ _ _ _ h (ih true h2.symm) fun e => ?_
    obtain ⟨x, hx⟩ := hf e
    refine ⟨x, ?_⟩
    show intercepted catches handler true (fail e) = _
    rw [hx]
    exact if_neg fun hc => Bool.noConfusion hc.2
  | other ph next fail hn hf ih ihf =>
    intro started hs
    have h3 : (started || Msg.isStart .other) = started := Bool.or_false started
    show Proper ph (.send .other (intercepted catches handler (started || Msg.isStart .other) next) fun e =>
      intercepted catches handler (started || Msg.isStart .other) (fail e))
    rw [h3]
    exact .other _ _ _ (ih started hs) fun e => ihf e started hs

theorem thenRaise_proper (e : E) {ph : Phase} {p : Prog E} (h : Proper ph p) : Proper ph (thenRaise e p) := by
  induction h with
  | ret => exact .raise _ _
  | raise ph x => exact .raise _ _
  | send ph ph' m next fail h hn hf ih =>
    refine .send _ _ _ _ _ h ih fun x => ?_
    obtain ⟨y, hy⟩ := hf x
    exact ⟨y, by show thenRaise e (fail x) = _; rw [hy]; rfl⟩
  | other ph next fail hn hf ih ihf => exact .other _ _ _ ih ihf

theorem guarded_raise (catches : E → Bool) (handler : E → Except E (Prog E)) (started : Bool) (e : E) :
    guarded catches handler started (.raise e) = if catches e then
      match handler e with
      | .error x => .raise x
      | .ok p => if started then .raise e else thenRaise e p
    else .raise e := rfl

theorem guarded_proper (catches : E → Bool) (handler : E → Except E (Prog E))
    (hh : ∀ e p, handler e = .ok p → Proper .idle p) {ph : Phase} {p : Prog E} (h : Proper ph p) :
    ∀ started, started = decide (ph ≠ .idle) → Proper ph (guarded catches handler started p) := by
  induction h with
  | ret => intro _ _; exact .ret
  | raise ph e =>
    intro started hs
    rw [guarded_raise]
    split
    · cases he : handler e with
      | error x => exact .raise _ _
      | ok q =>
        by_cases hi : ph = .idle
        · subst hi
          have : started = false := by rw [hs]; rfl
          subst this
          exact thenRaise_proper e (hh e q he)
        · have : started = true := by rw [hs]; exact decide_eq_true hi
          subst this
          exact .raise _ _
    · exact .raise _ _
  | send ph ph' m next fail h hn hf ih =>
    intro started hs
    obtain ⟨h1, h2⟩ := follows_started h
    have h3 : (started || m.isStart) = true := by rw [hs]; exact h1
    show Proper ph (.send m (guarded catches handler (started || m.isStart) next) fun e =>
      guarded catches handler (started || m.isStart) (fail e))
    rw [h3]
    refine .send _ _ _ _ _ h (ih true h2.symm) fun e => ?_
    obtain ⟨x, hx⟩ := hf e
    show ∃ x, guarded catches handler true (fail e) = .raise x
    rw [hx, guarded_raise]
    split
    · cases handler x with
      | error y => exact ⟨y, rfl⟩
      | ok q => exact ⟨x, rfl⟩
    · exact ⟨x, rfl⟩
  | other ph next fail hn hf ih ihf =>
    intro started hs
    have h3 : (started || Msg.isStart .other) = started := Bool.or_false started
    show Proper ph (.send .other (guarded catches handler (started || Msg.isStart .other) next) fun e =>
      guarded catches handler (started || Msg.isStart .other) (fail e))
    rw [h3]
    exact .other _ _ _ (ih started hs) fun e => ihf e started hs

/-! ## Compression -/

/-- What the responder knows when the application is in one phase and the server in another. -/
inductive Held {c : Codec} : Phase → Gzip.State c → Phase → Prop where
  | idle (s : Gzip.State c) (hs : s.started = false) (hf : s.file = .unused) : Held .idle s .idle
  | held (s : Gzip.State c) (h : Items Str) (hi : s.initial = some h) (hs : s.started = false) (hf : s.file = .unused) :
      Held .opened s .idle
  | plain (s : Gzip.State c) (he : s.encodingSet = true) (hs : s.started = true) : Held .opened s .opened
  | stream (s : Gzip.State c) (f : c.S) (he : s.encodingSet = false) (hs : s.started = true) (hf : s.file = .isOpen f) :
      Held .opened s .opened
  | closed (s : Gzip.State c) : Held .closed s .closed

/-- The phase after a body. -/
def phaseOf (more : Bool) : Phase := if more then .opened else .closed

theorem step_first {c : Codec} (min : Nat) (s : Gzip.State c) (h : Items Str) (hi : s.initial = some h)
    (hs : s.started = false) (hf : s.file = .unused) (d : Bytes) (more : Bool) :
    ∃ s' h' d', Gzip.step min s (.body d more) = some (s', [.start h', .body d' more]) ∧
      Held (phaseOf more) s' (phaseOf more) := by
  obtain ⟨init, started, enc, file, buf⟩ := s
  obtain rfl : init = some h := hi
  obtain rfl : started = false := hs
  obtain rfl : file = .unused := hf
  cases enc with
  | true =>
    refine ⟨⟨some h, true, true, .unused, buf⟩, h, d, rfl, ?_⟩
    cases more
    · exact .closed _
    · exact .plain _ rfl rfl
  | false =>
    cases more with
    | false =>
      by_cases hd : d.length < min
      · exact ⟨⟨some h, true, false, .unused, buf⟩, h, d, by simp [Gzip.step, Gzip.onFirst, Gzip.initialMsg, hd],
          .closed _⟩
      · simp only [Gzip.step, Gzip.onFirst, hd]
        exact ⟨_, _, _, rfl, .closed _⟩
    | true =>
      have hstep : Gzip.step (c := c) min ⟨some h, false, false, .unused, buf⟩ (.body d true) =
          Gzip.onStream ⟨some h, true, false, .unused, buf⟩ d := by
        simp [Gzip.step, Gzip.onFirst]
      rw [hstep]
      exact ⟨_, _, _, rfl, .stream _ _ rfl rfl rfl⟩

theorem step_next {c : Codec} (min : Nat) (s : Gzip.State c) (hh : Held .opened s .opened) (d : Bytes) (more : Bool) :
    ∃ s' d', Gzip.step min s (.body d more) = some (s', [.body d' more]) ∧ Held (phaseOf more) s' (phaseOf more) := by
  cases hh with
  | plain s he hs =>
    refine ⟨s, d, by simp [Gzip.step, Gzip.onEncoded, he, hs], ?_⟩
    cases more
    · exact .closed _
    · exact .plain _ he hs
  | stream s f he hs hf =>
    obtain ⟨init, started, enc, file, buf⟩ := s
    obtain rfl : enc = false := he
    obtain rfl : started = true := hs
    obtain rfl : file = .isOpen f := hf
    cases more
    · exact ⟨_, _, rfl, .closed _⟩
    · exact ⟨_, _, rfl, .stream _ _ rfl rfl rfl⟩

theorem compressed_proper {c : Codec} (min : Nat) (broken : E) {ph : Phase} {p : Prog E} (h : Proper ph p) :
    ∀ (s : Gzip.State c) (status : Nat) (out : Phase), Held ph s out → Proper out (compressed min broken s status p)
        := by
  induction h with
  | ret => intro s status out hh; cases hh; exact .ret
  | raise ph e => intro s status out _; exact .raise _ _
  | send ph ph' m next fail h hn hf ih =>
    intro s status out hh
    have hfail : ∀ (s' : Gzip.State c) st e, ∃ x, compressed min broken s' st (fail e) = .raise x := by
      intro s' st e
      obtain ⟨x, hx⟩ := hf e
      exact ⟨x, by rw [hx]; rfl⟩
    have bodyCase : ∀ (d : Bytes) (more : Bool), ph = .opened → ph' = phaseOf more → m = .body d more →
        Proper out (compressed min broken s status (.send m next fail)) := by
      rintro d more rfl rfl rfl
      rw [compressed]
      cases hh with
      | held s h hi hs hu =>
        obtain ⟨s', h', d', hstep, hheld⟩ := step_first min s h hi hs hu d more
        rw [show down (.body d more) = .body d more from rfl, hstep]
        refine .send _ _ _ _ _ (.start _ h') (.send _ (phaseOf more) _ _ _ ?_ (ih _ _ _ hheld) (hfail s' _)) (hfail s'
            _)
        cases more
        · exact .last d'
        · exact .more d'
      | plain s he hs =>
        obtain ⟨s', d', hstep, hheld⟩ := step_next min s (.plain s he hs) d more
        rw [show down (.body d more) = .body d more from rfl, hstep]
        refine .send _ (phaseOf more) _ _ _ ?_ (ih _ _ _ hheld) (hfail s' _)
        cases more
        · exact .last d'
        · exact .more d'
      | stream s f he hs hu =>
        obtain ⟨s', d', hstep, hheld⟩ := step_next min s (.stream s f he hs hu) d more
        rw [show down (.body d more) = .body d more from rfl, hstep]
        refine .send _ (phaseOf more) _ _ _ ?_ (ih _ _ _ hheld) (hfail s' _)
        cases more
        · exact .last d'
        · exact .more d'
    cases h with
    | start st h =>
      cases hh with
      | idle s hs hu => exact ih _ _ _ (.held _ h rfl hs hu)
    | more d => exact bodyCase d true rfl rfl rfl
    | last d => exact bodyCase d false rfl rfl rfl
  | other ph next fail hn hf ih ihf =>
    intro s status out hh
    exact ih _ _ _ hh

theorem wrap_proper (l : Layer E) (hl : Good l) {p : Prog E} (h : Proper .idle p) : Proper .idle (l.wrap p) := by
  cases l with
  | headers f => exact withHeaders_proper f h
  | gzip c min broken => exact compressed_proper min broken h _ _ _ (.idle _ rfl rfl)
  | own q => exact hl
  | exceptions handler => exact handled_proper handler hl h false rfl
  | intercept catches handler => exact intercepted_proper catches handler hl h false rfl
  | errors catches handler => exact guarded_proper catches handler hl h false rfl

theorem stack_proper (ls : List (Layer E)) (hl : ∀ l ∈ ls, Good l) {p : Prog E} (h : Proper .idle p) :
    Proper .idle (stack ls p) := by
  induction ls with
  | nil => exact h
  | cons l ls ih => exact wrap_proper l (hl l (.head _)) (ih fun x hx => hl x (.tail _ hx))

/-! ## Runs -/

theorem parts_cons_other (ms : List Msg) : parts (.other :: ms) = parts ms := rfl

theorem parts_cons (m : Msg) (ms : List Msg) (h : m ≠ .other) : parts (m :: ms) = m :: parts ms :=
  List.filter_cons_of_pos (p := fun m => decide (m ≠ Msg.other)) (decide_eq_true h)

theorem parts_start (st : Nat) (h : Items Str) (ms : List Msg) : parts (.start st h :: ms) = .start st h :: parts ms :=
  parts_cons _ _ nofun

theorem parts_body (d : Bytes) (more : Bool) (ms : List Msg) : parts (.body d more :: ms) = .body d more :: parts ms :=
  parts_cons _ _ nofun

/-- What is sent from a phase on. -/
def Rest : Phase → List Msg → Option E → Prop
  | .idle, ms, e => (parts ms = [] ∧ e ≠ none) ∨ (Begun ms ∧ e ≠ none) ∨ Complete ms
  | .opened, ms, e => (∃ ds : List Bytes, parts ms = ds.map (fun d => .body d true) ∧ e ≠ none) ∨
      ∃ (ds : List Bytes) (last : Bytes), parts ms = ds.map (fun d => .body d true) ++ [.body last false]
  | .closed, ms, _ => parts ms = []

theorem run_rest {ph : Phase} {p : Prog E} (h : Proper ph p) : Rest ph (run p).1 (run p).2 := by
  induction h with
  | ret => exact rfl
  | raise ph e =>
    cases ph with
    | idle => exact .inl ⟨rfl, nofun⟩
    | opened => exact .inl ⟨[], rfl, nofun⟩
    | closed => exact rfl
  | send ph ph' m next fail h hn hf ih =>
    cases h with
    | start st hs =>
      rcases ih with ⟨ds, h1, h2⟩ | ⟨ds, last, h1⟩
      · exact .inr (.inl ⟨⟨st, hs, ds, by show parts (_ :: _) = _; rw [parts_start, h1]⟩, h2⟩)
      · exact .inr (.inr ⟨st, hs, ds, last, by show parts (_ :: _) = _; rw [parts_start, h1]; rfl⟩)
    | more d =>
      rcases ih with ⟨ds, h1, h2⟩ | ⟨ds, last, h1⟩
      · exact .inl ⟨d :: ds, by show parts (_ :: _) = _; rw [parts_body, h1]; rfl, h2⟩
      · exact .inr ⟨d :: ds, last, by show parts (_ :: _) = _; rw [parts_body, h1]; rfl⟩
    | last d =>
      exact .inr ⟨[], d, by show parts (_ :: _) = _; rw [parts_body, show parts _ = [] from ih]; rfl⟩
  | other ph next fail hn hf ih ihf =>
    cases ph <;> exact ih

theorem run_thenRaise (e : E) (p : Prog E) (h : (run p).2 = none) : run (thenRaise e p) = ((run p).1, some e) := by
  induction p with
  | ret => rfl
  | raise x => cases h
  | send m next fail ih _ =>
    show (m :: (run (thenRaise e next)).1, (run (thenRaise e next)).2) = _
    rw [ih h]
    rfl

theorem run_guarded (catches : E → Bool) (handler : E → Except E (Prog E)) (hc : ∀ e, catches e = true)
    (hh : ∀ e, ∃ p, handler e = .ok p ∧ (run p).2 = none ∧ Complete (run p).1) {ph : Phase} {p : Prog E}
    (h : Proper ph p) : ph = .idle → Begun (run (guarded catches handler false p)).1 ∨
      Complete (run (guarded catches handler false p)).1 := by
  have hp : ∀ {ph : Phase} {p : Prog E}, Proper ph p → ph ≠ .idle →
      (run (guarded catches handler true p)).1 = (run p).1 := by
    intro ph p h
    induction h with
    | ret => intro _; rfl
    | raise ph e =>
      intro _
      rw [guarded_raise, if_pos (hc e)]
      obtain ⟨q, hq, _⟩ := hh e
      rw [hq]
      rfl
    | send ph ph' m next fail h hn hf ih =>
      intro _
      show m :: (run (guarded catches handler true next)).1 = m :: _
      rw [ih (of_decide_eq_true (follows_started h).2)]
    | other ph next fail hn hf ih ihf =>
      intro hne
      show Msg.other :: (run (guarded catches handler true next)).1 = Msg.other :: _
      rw [ih hne]
  induction h with
  | ret => intro h; cases h
  | raise ph e =>
    intro _
    rw [guarded_raise, if_pos (hc e)]
    obtain ⟨q, hq, hn, hw⟩ := hh e
    rw [hq]
    show Begun (run (thenRaise e q)).1 ∨ Complete (run (thenRaise e q)).1
    rw [run_thenRaise e q hn]
    exact .inr hw
  | send ph ph' m next fail h hn hf ih =>
    rintro rfl
    cases h with
    | start st hs =>
      have hr := run_rest hn
      have e1 : (run (guarded catches handler false (.send (.start st hs) next fail))).1 =
          .start st hs :: (run next).1 := by
        show Msg.start st hs :: (run (guarded catches handler true next)).1 = _
        rw [hp hn nofun]
      rw [e1]
      rcases hr with ⟨ds, h1, _⟩ | ⟨ds, last, h1⟩
      · exact .inl ⟨st, hs, ds, by rw [parts_start, h1]⟩
      · exact .inr ⟨st, hs, ds, last, by show parts (_ :: _) = _; rw [parts_start, h1]; rfl⟩
  | other ph next fail hn hf ih ihf => intro hi; exact ih hi

theorem run_guarded_ok (catches : E → Bool) (handler : E → Except E (Prog E)) (p : Prog E) :
    ∀ started, (run p).2 = none → run (guarded catches handler started p) = ((run p).1, none) := by
  induction p with
  | ret => intro _ _; rfl
  | raise e => intro _ h; cases h
  | send m next fail ih _ =>
    intro started h
    show (m :: (run (guarded catches handler (started || m.isStart) next)).1,
      (run (guarded catches handler (started || m.isStart) next)).2) = _
    rw [ih _ h]
    rfl

/-! ## Headers -/

theorem run_withHeaders (f : Items Str → Except E (Items Str)) (g : Items Str → Items Str) (hg : ∀ h, f h = .ok (g h))
    (p : Prog E) : run (withHeaders f p) = ((run p).1.map (reheaded g), (run p).2) := by
  induction p with
  | ret => rfl
  | raise e => rfl
  | send m next fail ih _ =>
    cases m with
    | start st h =>
      rw [withHeaders, hg h]
      show (Msg.start st (g h) :: (run (withHeaders f next)).1, (run (withHeaders f next)).2) = _
      rw [ih]; rfl
    | body d more =>
      show (Msg.body d more :: (run (withHeaders f next)).1, (run (withHeaders f next)).2) = _
      rw [ih]; rfl
    | other =>
      show (Msg.other :: (run (withHeaders f next)).1, (run (withHeaders f next)).2) = _
      rw [ih]; rfl

theorem parts_reheaded (g : Items Str → Items Str) (ms : List Msg) :
    parts (ms.map (reheaded g)) = (parts ms).map (reheaded g) := by
  induction ms with
  | nil => rfl
  | cons m ms ih =>
    cases m with
    | other => exact ih
    | start st h =>
      show parts (Msg.start st (g h) :: _) = _
      rw [parts_start, ih, parts_start]; rfl
    | body d more =>
      show parts (Msg.body d more :: _) = _
      rw [parts_body, ih, parts_body]; rfl

theorem whole_reheaded (g : Items Str → Items Str) (ms : List Msg) (st : Nat) (h : Items Str) (ds : List Bytes)
    (last : Bytes) (hw : Whole ms st h ds last) : Whole (ms.map (reheaded g)) st (g h) ds last := by
  unfold Whole at hw ⊢
  rw [parts_reheaded, hw]
  simp [reheaded, Function.comp_def]

/-! ## Whole answers through compression -/

theorem run_sendAll (ms : List Msg) (next : Prog E) (fail : E → Prog E) :
    run (sendAll ms next fail) = (ms ++ (run next).1, (run next).2) := by
  induction ms with
  | nil => rfl
  | cons m ms ih => rw [sendAll, run, ih]; rfl

theorem run_bodies {c : Codec} (min : Nat) (broken : E) (st : Nat) (p : Prog E) : ∀ (s : Gzip.State c) (outs : List
    Gzip.Msg),
    (∀ m ∈ (run p).1, m.isStart = false) → Gzip.runFrom min s ((run p).1.map down) = some outs →
    run (compressed min broken s st p) = (outs.map (up st), (run p).2) := by
  induction p with
  | ret => intro s outs _ h; cases h; rfl
  | raise e => intro s outs _ h; cases h; rfl
  | send m next fail ih _ =>
    intro s outs hm h
    have hk : kept st m = st := by
      have := hm m (.head _)
      cases m with
      | start _ _ => cases this
      | _ => rfl
    rw [run, List.map_cons, Gzip.runFrom] at h
    rw [compressed]
    cases hs : Gzip.step min s (down m) with
    | none => rw [hs] at h; cases h
    | some so =>
      obtain ⟨s', out⟩ := so
      rw [hs] at h
      simp only at h ⊢
      cases hr : Gzip.runFrom min s' ((run next).1.map down) with
      | none => rw [hr] at h; cases h
      | some rest =>
        rw [hr] at h
        cases h
        rw [hk, run_sendAll, ih s' rest (fun x hx => hm x (.tail _ hx)) hr, List.map_append]
        rfl

theorem runFrom_parts {c : Codec} (min : Nat) (ms : List Msg) : ∀ s : Gzip.State c,
    Gzip.runFrom min s (ms.map down) = Gzip.runFrom min s ((parts ms).map down) := by
  induction ms with
  | nil => intro s; rfl
  | cons m ms ih =>
    intro s
    by_cases h : m = .other
    · subst h
      rw [parts_cons_other, ← ih s, List.map_cons, Gzip.runFrom]
      show (match Gzip.runFrom min s (ms.map down) with
        | none => none
        | some rest => some ([] ++ rest)) = _
      cases Gzip.runFrom min s (ms.map down) <;> rfl
    · rw [parts_cons m ms h, List.map_cons, List.map_cons, Gzip.runFrom, Gzip.runFrom]
      cases Gzip.step min s (down m) with
      | none => rfl
      | some so => simp only; rw [ih]

theorem no_start_of_parts {ms : List Msg} (h : ∀ m ∈ parts ms, m.isStart = false) : ∀ m ∈ ms, m.isStart = false := by
  intro m hm
  by_cases ho : m = .other
  · subst ho; rfl
  · exact h m (List.mem_filter.2 ⟨hm, decide_eq_true ho⟩)

theorem parts_up (st : Nat) (h : Items Str) (ds : List Bytes) (last : Bytes) :
    parts ((Gzip.Spec.response h ds last).map (up st)) =
      .start st h :: (ds.map fun d => .body d true) ++ [.body last false] := by
  unfold Gzip.Spec.response parts
  rw [List.filter_eq_self.2]
  · simp [up, Function.comp_def]
  · intro m hm
    obtain ⟨g, hg, rfl⟩ := List.mem_map.1 hm
    simp only [List.cons_append, List.mem_cons, List.mem_append, List.mem_map, List.not_mem_nil, or_false] at hg
    rcases hg with rfl | ⟨d, _, rfl⟩ | rfl <;> rfl

theorem run_whole {c : Codec} (min : Nat) (broken : E) (st : Nat) (h h' : Items Str) (ds outs : List Bytes)
    (last lo : Bytes) (hr : Gzip.run c min (Gzip.Spec.response h ds last) = some (Gzip.Spec.response h' outs lo))
    (p : Prog E) : ∀ status, Whole (run p).1 st h ds last →
      Whole (run (compressed min broken (Gzip.State.init c) status p)).1 st h' outs lo ∧
      (run (compressed min broken (Gzip.State.init c) status p)).2 = (run p).2 := by
  induction p with
  | ret => intro status hw; cases hw
  | raise e => intro status hw; cases hw
  | send m next fail ih _ =>
    intro status hw
    cases m with
    | other => exact ih status hw
    | body d more => cases hw
    | start st2 h2 =>
      unfold Whole at hw
      rw [run, parts_start] at hw
      injection hw with h1 hb
      injection h1 with h3 h4
      subst h3 h4
      have hb : parts (run next).1 = (ds.map fun d => Msg.body d true) ++ [.body last false] := hb
      have hns : ∀ m ∈ (run next).1, m.isStart = false := by
        apply no_start_of_parts
        intro m hm
        rw [hb] at hm
        simp only [List.mem_append, List.mem_map, List.mem_cons, List.not_mem_nil, or_false] at hm
        rcases hm with ⟨d, _, rfl⟩ | rfl <;> rfl
      have hrun : Gzip.runFrom min (Gzip.onStart (Gzip.State.init c) h2) ((run next).1.map down) =
          some (Gzip.Spec.response h' outs lo) := by
        rw [runFrom_parts, hb, ← hr]
        show _ = Gzip.runFrom min _ (Gzip.Msg.start h2 :: _)
        rw [Gzip.runFrom]
        have e1 : (List.map down ((ds.map fun d => Msg.body d true) ++ [.body last false])) =
            (ds.map fun d => Gzip.Msg.body d true) ++ [.body last false] := by
          simp [down, Function.comp_def]
        rw [e1]
        show _ = (match Gzip.runFrom min (Gzip.onStart (Gzip.State.init c) h2)
            ((ds.map fun d => Gzip.Msg.body d true) ++ [.body last false]) with
          | none => none
          | some rest => some ([] ++ rest))
        generalize Gzip.runFrom min (Gzip.onStart (Gzip.State.init c) h2) _ = z
        cases z <;> rfl
      have := run_bodies min broken st2 next (Gzip.onStart (Gzip.State.init c) h2) _ hns hrun
      show Whole (run (compressed min broken (Gzip.onStart (Gzip.State.init c) h2) st2 next)).1 _ _ _ _ ∧
        (run (compressed min broken (Gzip.onStart (Gzip.State.init c) h2) st2 next)).2 = _
      rw [this]
      exact ⟨parts_up st2 h' outs lo, rfl⟩

/-! ## CORS leaves the encoding alone -/

theorem encoding_addVary (d : Items Str) (v : Str) :
    Gzip.Spec.valuesOf (addVary d v) "content-encoding".toList = Gzip.Spec.valuesOf d "content-encoding".toList := by
  rw [Gzip.valuesOf_eq, Gzip.valuesOf_eq]
  exact Gzip.getall_addVary_other d v _ (by decide)

theorem getall_add_other (h : Items Str) (k v x : Str) (hk : lower k ≠ lower x) :
    getall lower (h ++ [(k, v)]) x = getall lower h x := by
  rw [getall_append, getall_cons, getall_nil, if_neg hk, List.append_nil]

theorem encoding_setitem (d : Items Str) (k v : Str) (hk : lower k ≠ lower "content-encoding".toList) :
    Gzip.Spec.valuesOf (setitem lower d k v) "content-encoding".toList =
      Gzip.Spec.valuesOf d "content-encoding".toList := by
  rw [Gzip.valuesOf_eq, Gzip.valuesOf_eq, getall_setitem, if_neg (fun h => hk h.symm)]

end Verif.Stack
