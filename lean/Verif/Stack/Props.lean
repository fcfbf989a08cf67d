import Verif.Stack.Lemmas
import Verif.Csrf.Props

/-!
# C124: stacks of middlewares
-/

namespace Verif.Stack.Props

open Verif Verif.MultiDict Spec
open Verif.Gzip (Bytes Codec)

variable {E : Type}

/-- A response in one piece, as the examples use it. -/
def respond (st : Nat) (h : Items Str) (d : Bytes) : Prog E :=
  .send (.start st h) (.send (.body d false) .ret .raise) .raise

/-- Configurations of CORS for the examples. -/
def noCors : Cors.Config := ⟨[], [], [], false, none, false, [], 600⟩
/-- Every origin. -/
def anyCors : Cors.Config := { noCors with origins := ["*".toList] }

theorem respond_proper (st : Nat) (h : Items Str) (d : Bytes) : Proper .idle (respond (E := E) st h d) :=
  .send _ _ _ _ _ (.start st h) (.send _ _ _ _ _ (.last d) .ret fun e => ⟨e, rfl⟩) fun e => ⟨e, rfl⟩

theorem respond_whole (st : Nat) (h : Items Str) (d : Bytes) :
    Complete (run (respond (E := E) st h d)).1 ∧ (run (respond (E := E) st h d)).2 = none :=
  ⟨⟨st, h, [], d, rfl⟩, rfl⟩

/-! ## One answer -/

/-- However middlewares are stacked, the server is sent nothing, the beginning of one answer, or one whole answer; if no
exception is left, a whole one. -/
theorem C124_one (ls : List (Layer E)) (hl : ∀ l ∈ ls, Good l) (p : Prog E) (hp : Proper .idle p) :
    (parts (run (stack ls p)).1 = [] ∨ Begun (run (stack ls p)).1 ∨ Complete (run (stack ls p)).1) ∧
    ((run (stack ls p)).2 = none → Complete (run (stack ls p)).1) := by
  rcases run_rest (stack_proper ls hl hp) with ⟨h1, h2⟩ | ⟨h1, h2⟩ | h
  · exact ⟨.inl h1, fun h => absurd h h2⟩
  · exact ⟨.inr (.inl h1), fun h => absurd h h2⟩
  · exact ⟨.inr (.inr h), fun _ => h⟩

/-- The middleware around it may count on the same: stacks can be put into stacks. -/
theorem C124_nested (ls : List (Layer E)) (hl : ∀ l ∈ ls, Good l) (p : Prog E) (hp : Proper .idle p) :
    Proper .idle (stack ls p) := stack_proper ls hl hp

example : ∀ l ∈ ([.gzip Gzip.toy 500 0, corsLayer noCors "o".toList false,
    .exceptions fun e => if e = 1 then some (respond 404 [] []) else none] : List (Layer Nat)), Good l := by
  intro l hl
  simp only [List.mem_cons, List.not_mem_nil, or_false] at hl
  rcases hl with rfl | rfl | rfl
  · trivial
  · trivial
  · intro e p h
    by_cases he : e = 1
    · subst he; cases h; exact respond_proper _ _ _
    · exact absurd ((if_neg he).symm.trans h) nofun

/-- An application answers every request: whatever the router and the middlewares raise, one answer has been begun or
given in whole, provided that the handler for errors answers. -/
theorem C124_answered (catches : E → Bool) (hc : ∀ e, catches e = true) (onError : E → Except E (Prog E))
    (ho : ∀ e, ∃ p, onError e = .ok p ∧ Proper .idle p ∧ (run p).2 = none) (intercept : Option (E → Prog E))
    (hi : ∀ f, intercept = some f → ∀ e, Proper .idle (f e)) (custom : List (Layer E)) (hl : ∀ l ∈ custom, Good l)
    (handlers : E → Option (Prog E)) (hh : ∀ e p, handlers e = some p → Proper .idle p) (router : Prog E)
    (hp : Proper .idle router) :
    Begun (run (application catches onError intercept custom handlers router)).1 ∨
    Complete (run (application catches onError intercept custom handlers router)).1 := by
  have hbelow : Proper .idle (stack ((intercept.map (Layer.intercept catches)).toList ++ custom ++
      [.exceptions handlers]) router) := by
    apply stack_proper _ _ hp
    intro l hm
    rw [List.mem_append, List.mem_append, Option.mem_toList, List.mem_singleton] at hm
    rcases hm with (hm | hm) | rfl
    · obtain ⟨f, hf, rfl⟩ := Option.map_eq_some_iff.mp hm
      exact hi f hf
    · exact hl l hm
    · exact hh
  refine run_guarded catches onError hc (fun e => ?_) hbelow rfl
  obtain ⟨p, h1, h2, h3⟩ := ho e
  refine ⟨p, h1, h3, ?_⟩
  rcases run_rest h2 with ⟨_, h⟩ | ⟨_, h⟩ | h
  · exact absurd h3 h
  · exact absurd h3 h
  · exact h

example : ∀ e : Nat, ∃ p : Prog Nat, (fun _ : Nat => (.ok (respond 500 [] []) : Except Nat (Prog Nat))) e = .ok p ∧
    Proper .idle p ∧ (run p).2 = none :=
  fun _ => ⟨_, rfl, respond_proper _ _ _, rfl⟩

/-- A handler that raises after the start: without compression the client has the beginning of an answer, with
compression,
which holds the start back, the whole answer of the handler for errors. -/
theorem C124_broken (st : Nat) (h : Items Str) (e : E) (q : Prog E) (hq : (run q).2 = none) (c : Codec) (min : Nat)
    (broken : E) (handlers : E → Option (Prog E)) :
    run (application (fun _ => true) (fun _ => .ok q) none [] handlers (.send (.start st h) (.raise e) .raise)) =
      ([.start st h], some e) ∧
    run (application (fun _ => true) (fun _ => .ok q) none [.gzip c min broken] handlers
      (.send (.start st h) (.raise e) .raise)) = ((run q).1, some e) := by
  have hx : handled handlers true (.raise e) = .raise e := by
    rw [handled]
    cases handlers e <;> rfl
  constructor
  · show run (guarded _ _ false (.send (.start st h) (handled handlers true (.raise e)) fun x =>
      handled handlers true (.raise x))) = _
    rw [hx]
    rfl
  · show run (guarded _ _ false (compressed min broken (Gzip.onStart (Gzip.State.init c) h) st
      (handled handlers true (.raise e)))) = _
    rw [hx]
    exact run_thenRaise e q hq

/-! ## Headers -/

/-- Everything that is sent from below passes the headers of every middleware, from the inside outwards, and nothing
else
of it is changed. -/
theorem C124_headers (fs : List (Items Str → Items Str)) (ls : List (Layer E)) (p : Prog E) :
    run (stack (fs.map (fun f => .headers fun h => .ok (f h)) ++ ls) p) =
      ((run (stack ls p)).1.map (reheaded fun h => fs.foldr (fun f h => f h) h), (run (stack ls p)).2) := by
  induction fs with
  | nil =>
    have : (reheaded fun h => h) = id := by
      funext m
      cases m <;> rfl
    show run (stack ls p) = ((run (stack ls p)).1.map (reheaded fun h => h), _)
    rw [this, List.map_id]
  | cons f fs ih =>
    show run (withHeaders (fun h => .ok (f h)) (stack (fs.map _ ++ ls) p)) = _
    rw [run_withHeaders _ f (fun _ => rfl), ih, List.map_map]
    congr 1
    apply List.map_congr_left
    intro m _
    cases m <;> rfl

/-- In particular an answer to an exception that has a handler, and no exception is left. -/
theorem C124_handled (fs : List (Items Str → Items Str)) (handlers : E → Option (Prog E)) (e : E) (q : Prog E)
    (hq : handlers e = some q) (catches : E → Bool) (onError : E → Except E (Prog E)) (hn : (run q).2 = none) :
    run (application catches onError none (fs.map (fun f => .headers fun h => .ok (f h))) handlers (.raise e)) =
      ((run q).1.map (reheaded fun h => fs.foldr (fun f h => f h) h), none) := by
  have hr : run (stack (fs.map (fun f => .headers fun h => .ok (f h)) ++ [.exceptions handlers]) (.raise e)) =
      ((run q).1.map (reheaded fun h => fs.foldr (fun f h => f h) h), none) := by
    have h0 : stack [.exceptions handlers] (.raise e) = q := by
      show handled handlers false (.raise e) = _
      rw [handled, hq]
      rfl
    rw [C124_headers, h0, hn]
  show run (guarded catches onError false (stack (fs.map (fun f => .headers fun h => .ok (f h)) ++
    [.exceptions handlers]) (.raise e))) = _
  rw [run_guarded_ok catches onError _ false (by rw [hr]), hr]

example : (fun e : Nat => if e = 1 then some (respond (E := Nat) 404 [] []) else none) 1 = some (respond 404 [] []) ∧
    (run (respond (E := Nat) 404 [] [])).2 = none := ⟨rfl, rfl⟩

/-- **C124 is false of answers to errors**: the answer to an exception that has no handler passes none of the
middlewares, whatever headers they add and whether they compress. -/
theorem C124_error_false (custom : List (Layer E))
    (hc : ∀ l ∈ custom, (∃ f, l = .headers f) ∨ ∃ c min b, l = .gzip c min b) (handlers : E → Option (Prog E)) (e : E)
    (he : handlers e = none) (catches : E → Bool) (hk : catches e = true) (onError : E → Except E (Prog E)) (q : Prog E)
    (hq : onError e = .ok q) (hn : (run q).2 = none) :
    run (application catches onError none custom handlers (.raise e)) = ((run q).1, some e) := by
  have hs : stack (custom ++ [.exceptions handlers]) (.raise e) = .raise e := by
    induction custom with
    | nil =>
      show handled handlers false (.raise e) = _
      rw [handled, he]
    | cons l ls ih =>
      show l.wrap (stack (ls ++ [.exceptions handlers]) (.raise e)) = _
      rw [ih fun x hx => hc x (.tail _ hx)]
      rcases hc l (.head _) with ⟨f, rfl⟩ | ⟨c, min, b, rfl⟩ <;> rfl
  show run (guarded catches onError false (stack (custom ++ [.exceptions handlers]) (.raise e))) = _
  rw [hs, guarded_raise, if_pos hk, hq]
  exact run_thenRaise e q hn

/-- A browser of another origin cannot read the answer to an error: it has no `Access-Control-Allow-Origin`, though
every
other answer has. -/
example : run (application (E := Nat) (fun _ => true) (fun _ => .ok (respond 500 [] [1])) none
      [corsLayer anyCors "o".toList false] (fun _ => none) (.raise 7)) =
      ([.start 500 [], .body [1] false], some 7) ∧
    run (application (E := Nat) (fun _ => true) (fun _ => .ok (respond 500 [] [1])) none
      [corsLayer anyCors "o".toList false] (fun _ => none)
      (respond 200 [] [1])) =
      ([.start 200 [("Access-Control-Allow-Origin".toList, "*".toList)], .body [1] false], none) := by
  decide +kernel

/-- **C124 is false of exceptions of middlewares**: `PermissionDenied` of CSRF and any other exception that a middleware
raises is answered as an error, though the application has a handler for it. -/
theorem C124_refused_false (outer inner : List (Layer E))
    (hc : ∀ l ∈ outer, (∃ f, l = .headers f) ∨ ∃ c min b, l = .gzip c min b) (handlers : E → Option (Prog E)) (e : E)
    (catches : E → Bool) (hk : catches e = true) (onError : E → Except E (Prog E)) (q : Prog E) (hq : onError e = .ok q)
    (hn : (run q).2 = none) (router : Prog E) :
    run (application catches onError none (outer ++ .own (.raise e) :: inner) handlers router) = ((run q).1, some e)
        := by
  have hs : ∀ below, stack (outer ++ .own (.raise e) :: below) router = .raise e := by
    intro below
    induction outer with
    | nil => rfl
    | cons l ls ih =>
      show l.wrap (stack (ls ++ .own (.raise e) :: below) router) = _
      rw [ih fun x hx => hc x (.tail _ hx)]
      rcases hc l (.head _) with ⟨f, rfl⟩ | ⟨c, min, b, rfl⟩ <;> rfl
  show run (guarded catches onError false (stack (outer ++ .own (.raise e) :: inner ++ [.exceptions handlers])
      router)) = _
  rw [List.append_assoc, List.cons_append, hs, guarded_raise, if_pos hk, hq]
  exact run_thenRaise e q hn

example : run (application (fun _ => true) (fun _ => .ok (respond 500 [] [])) none [.own (.raise 403)]
      (fun e => if e = 403 then some (respond 403 [] []) else none) (respond 200 [] [])) =
    ([.start 500 [], .body [] false], some 403) := by decide +kernel

/-- With interception it is answered by what interception does, and no exception is left; the middlewares within do not
add their headers. -/
theorem C124_intercepted (outer inner : List (Layer E))
    (hc : ∀ l ∈ outer, (∃ f, l = .headers f) ∨ ∃ c min b, l = .gzip c min b) (handlers : E → Option (Prog E)) (e : E)
    (catches : E → Bool) (hk : catches e = true) (onError : E → Except E (Prog E)) (answer : E → Prog E)
    (hn : (run (answer e)).2 = none) (router : Prog E) :
    run (application catches onError (some answer) (outer ++ .own (.raise e) :: inner) handlers router) =
      ((run (answer e)).1, none) := by
  have hs : ∀ below, stack (outer ++ .own (.raise e) :: below) router = .raise e := by
    intro below
    induction outer with
    | nil => rfl
    | cons l ls ih =>
      show l.wrap (stack (ls ++ .own (.raise e) :: below) router) = _
      rw [ih fun x hx => hc x (.tail _ hx)]
      rcases hc l (.head _) with ⟨f, rfl⟩ | ⟨c, min, b, rfl⟩ <;> rfl
  show run (guarded catches onError false (intercepted catches answer false
    (stack (outer ++ .own (.raise e) :: inner ++ [.exceptions handlers]) router))) = _
  rw [List.append_assoc, List.cons_append, hs, intercepted, if_pos ⟨hk, rfl⟩]
  exact run_guarded_ok catches onError _ false hn

/-! ## Contents -/

/-- Through any stack of middlewares that add headers and compress, a client reads the status and the body that were
sent
below. -/
theorem C124_body (inflate : Bytes → Option Bytes) (ls : List (Layer E)) (hl : ∀ l ∈ ls, Plain inflate l) (p : Prog E)
    (st : Nat) (data : Bytes) (hp : Reads inflate (run p).1 st data) : Reads inflate (run (stack ls p)).1 st data := by
  induction ls with
  | nil => exact hp
  | cons l ls ih =>
    have ih := ih fun x hx => hl x (.tail _ hx)
    have hl := hl l (.head _)
    show Reads inflate (run (l.wrap (stack ls p))).1 st data
    generalize stack ls p = p at ih
    obtain ⟨h, ds, last, hw, hd⟩ := ih
    cases l with
    | headers f =>
      have hg : ∀ h, f h = .ok (Classical.choose (hl h)) := fun h => (Classical.choose_spec (hl h)).1
      show Reads inflate (run (withHeaders f p)).1 st data
      rw [run_withHeaders f (fun h => Classical.choose (hl h)) hg]
      refine ⟨_, ds, last, whole_reheaded _ _ _ _ _ _ hw, ?_⟩
      rw [(Classical.choose_spec (hl h)).2]
      exact hd
    | gzip c min broken =>
      obtain ⟨hf, rfl⟩ := hl
      show Reads c.inflate (run (compressed min broken (Gzip.State.init c) 0 p)).1 st data
      rcases hd with ⟨h0, hd⟩ | ⟨h1, hd⟩
      · by_cases hsmall : ds ≠ [] ∨ min ≤ last.length
        · obtain ⟨h', outs, lo, hr, _, hinf, hce, _⟩ := Gzip.C14_compressed c hf min h ds last h0 hsmall
          exact ⟨h', outs, lo, (run_whole min broken st h h' ds outs last lo hr p 0 hw).1,
            .inr ⟨hce, by rw [hinf, hd]⟩⟩
        · have hnil : ds = [] := Classical.byContradiction fun hx => hsmall (.inl hx)
          subst hnil
          have hr := Gzip.C14_small c min h last (Nat.lt_of_not_le fun hx => hsmall (.inr hx))
          exact ⟨h, [], last, (run_whole min broken st h h [] [] last last hr p 0 hw).1, .inl ⟨h0, hd⟩⟩
      · have hr := Gzip.C14_encoded c min h ds last (by rw [h1]; exact List.cons_ne_nil _ _)
        exact ⟨h, ds, last, (run_whole min broken st h h ds ds last last hr p 0 hw).1, .inr ⟨h1, hd⟩⟩
    | own q => exact hl.elim
    | exceptions x => exact hl.elim
    | intercept a b => exact hl.elim
    | errors a b => exact hl.elim

/-- CORS, sessions and CSRF are such middlewares. -/
theorem C124_plain (inflate : Bytes → Option Bytes) :
    (∀ c origin cookie, Plain inflate (corsLayer (E := E) c origin cookie)) ∧
    (∀ v, Plain inflate (sessionLayer (E := E) v)) ∧
    (∀ hmac c rnd cookie text, Plain inflate (csrfLayer (E := E) hmac c rnd cookie text)) := by
  have hadd : ∀ (v : Str) (h : Items Str), Gzip.Spec.valuesOf (addCookie v h) "content-encoding".toList =
      Gzip.Spec.valuesOf h "content-encoding".toList := by
    intro v h
    rw [Gzip.valuesOf_eq, Gzip.valuesOf_eq]
    exact getall_add_other h _ v _ (by decide)
  refine ⟨?_, ?_, ?_⟩
  · intro c origin cookie h
    refine ⟨_, rfl, ?_⟩
    have hset : ∀ d : Items Str, Gzip.Spec.valuesOf (Cors.setExplicit d origin) "content-encoding".toList =
        Gzip.Spec.valuesOf d "content-encoding".toList := by
      intro d
      have h1 : Gzip.Spec.valuesOf (addVary (setitem lower d Cors.acao origin) "Origin".toList)
          "content-encoding".toList = Gzip.Spec.valuesOf d "content-encoding".toList := by
        rw [encoding_addVary, encoding_setitem _ _ _ (by decide)]
      show Gzip.Spec.valuesOf (match get lower (addVary (setitem lower d Cors.acao origin) "Origin".toList)
          "Access-Control-Expose-Headers".toList with
        | some e => if e ≠ [] then addVary (addVary (setitem lower d Cors.acao origin) "Origin".toList)
            "Access-Control-Expose-Headers".toList else addVary (setitem lower d Cors.acao origin) "Origin".toList
        | none => addVary (setitem lower d Cors.acao origin) "Origin".toList) _ = _
      split
      · split
        · rw [encoding_addVary]; exact h1
        · exact h1
      · exact h1
    have hup : Gzip.Spec.valuesOf (update lower h (Cors.simpleHeaders c)) "content-encoding".toList =
        Gzip.Spec.valuesOf h "content-encoding".toList := by
      have : ∀ (m : List (Str × Str)) (d : Items Str), (∀ kv ∈ m, lower kv.1 ≠ lower "content-encoding".toList) →
          Gzip.Spec.valuesOf (update lower d m) "content-encoding".toList =
            Gzip.Spec.valuesOf d "content-encoding".toList := by
        intro m
        induction m with
        | nil => intro d _; rfl
        | cons kv m ih =>
          intro d hm
          show Gzip.Spec.valuesOf (update lower (setitem lower d kv.1 kv.2) m) _ = _
          rw [ih _ fun x hx => hm x (.tail _ hx), encoding_setitem _ _ _ (hm kv (.head _))]
      apply this
      intro kv hkv
      unfold Cors.simpleHeaders at hkv
      simp only [List.mem_append] at hkv
      rcases hkv with ((hkv | hkv) | hkv) | hkv
      all_goals
        split at hkv
        · rw [List.mem_singleton.1 hkv]
          dsimp only
          decide
        · cases hkv
    show Gzip.Spec.valuesOf (if c.allOrigins && cookie then
        Cors.setExplicit (update lower h (Cors.simpleHeaders c)) origin
      else if !c.allOrigins && Cors.validateOrigin c origin then
        Cors.setExplicit (update lower h (Cors.simpleHeaders c)) origin
      else update lower h (Cors.simpleHeaders c)) _ = _
    split
    · rw [hset, hup]
    · split
      · rw [hset, hup]
      · exact hup
  · intro v h
    exact ⟨_, rfl, hadd v h⟩
  · intro hmac c rnd cookie text h
    refine ⟨_, rfl, ?_⟩
    unfold csrfHeaders
    split
    · exact hadd _ h
    · rfl

example : Reads Gzip.toy.inflate (run (respond (E := Nat) 200 [] [1, 2])).1 200 [1, 2] :=
  ⟨[], [], [1, 2], rfl, .inl ⟨rfl, rfl⟩⟩

/-! ## Order -/

/-- **The order matters for cookies**: outside of the middleware of sessions, CSRF never gives out its cookie when the
session is stored; inside it does, to every client without one. -/
theorem C124_order_false (hmac : Str → Str → Str) (c : Csrf.Config) (rnd : Str) (text : Str → Str) (v : Str)
    (h : Items Str) (hh : ∀ kv ∈ h, lower kv.1 ≠ "set-cookie".toList) (st : Nat) (d : Bytes) :
    (run (stack [csrfLayer hmac c rnd none text, sessionLayer v] (respond (E := E) st h d))).1 =
      [.start st (h ++ [("set-cookie".toList, v)]), .body d false] ∧
    (run (stack [sessionLayer v, csrfLayer hmac c rnd none text] (respond (E := E) st h d))).1 =
      [.start st (h ++ [("set-cookie".toList, text (Csrf.generate hmac c.secret rnd)), ("set-cookie".toList, v)]),
        .body d false] := by
  have hno : Csrf.issued hmac c rnd none (addCookie v h) = none := by
    cases hi : Csrf.issued hmac c rnd none (addCookie v h) with
    | none => rfl
    | some t =>
      have := ((Csrf.C13_issued_exact hmac c rnd none (addCookie v h)).1 (by rw [hi]; nofun)).2
        ("set-cookie".toList, v) (List.mem_append_right _ (.head _))
      exact absurd (show lower "set-cookie".toList = "set-cookie".toList by decide) this
  have hyes : Csrf.issued hmac c rnd none h = some (Csrf.generate hmac c.secret rnd) := by
    have hne := (Csrf.C13_issued_exact hmac c rnd none h).2 ⟨rfl, hh⟩
    unfold Csrf.issued at hne ⊢
    split
    · rfl
    · rename_i hx
      exact absurd (if_neg hx) hne
  constructor
  · show [Msg.start st (csrfHeaders hmac c rnd none text (addCookie v h)), .body d false] = _
    unfold csrfHeaders
    rw [hno]
    rfl
  · show [Msg.start st (addCookie v (csrfHeaders hmac c rnd none text h)), .body d false] = _
    unfold csrfHeaders
    rw [hyes]
    unfold addCookie
    rw [List.append_assoc]
    rfl

example : ∀ kv ∈ ([("content-type".toList, "text/html".toList)] : Items Str), lower kv.1 ≠ "set-cookie".toList := by
  decide

end Verif.Stack.Props
