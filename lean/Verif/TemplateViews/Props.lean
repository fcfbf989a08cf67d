import Verif.TemplateViews.Lemmas
import Verif.Csrf.Props

/-!
# C86: what a template is given

A template gets the request, the CSRF token, what the context processors give and what was passed for the
page; what was passed wins.  Forms show their initial data, and after an invalid submission what was
submitted, with the errors.
-/

namespace Verif.TemplateViews

open Verif Spec

/-! ## Examples -/

/-- A state that counts; random texts are different each time. -/
def exRandom : Nat → Str × Nat := fun n => (List.replicate 64 (if n = 0 then '0' else '1'), n + 1)

/-- The processor `def tenant(request): return {"tenant": …}`. -/
def exTenant : Proc Nat :=
  ⟨[⟨"request".toList, true⟩], fun _ n => (.dict (only "tenant".toList (.obj 5)), n)⟩

/-- The processor `def theme(request, theme, size=None)`, which gives what it got. -/
def exTheme : Proc Nat :=
  ⟨[⟨"request".toList, true⟩, ⟨"theme".toList, true⟩, ⟨"size".toList, false⟩], fun kw n =>
    (.dict (layers [fun k => if k = "got".toList then (aget kw "theme".toList) else none,
      only "tenant".toList (.obj 6)]), n)⟩

/-- A controller with the two. -/
def exController : Controller Nat :=
  ⟨true, "csrf_token".toList, "k".toList, exRandom, [exTenant, exTheme], plainExtend, []⟩

/-- `{"theme": 9, "request": 3}`. -/
def exExplicit : Ctx := layers [only "theme".toList (.obj 9), only "request".toList (.obj 3)]

/-- A first visit. -/
def exGet : Request := ⟨"GET".toList, []⟩

/-! ## Pages -/

/-- **C86, the context.**  A template controller gives the template: what the template engine adds, else
what was passed for this page, else what the context processors give (later ones first), else the token,
else the request.  The processors get by name what was passed, the request and the controller. -/
theorem C86_page {S : Type} (hmac : Str → Str → Str) (c : Controller S) (hx : c.extend = plainExtend) (r : Request)
    (explicit : Ctx) (s : S) (ctx : Ctx) (s' : S) :
    render hmac c r explicit s = (.ok ctx, s') ↔
      ∃ base s0 given s1 engine, Ground hmac c r s base s0 ∧
        Ran (offered (without explicit "request".toList)) c.procs s0 given s1 ∧
        Engine c.engine s1 engine s' ∧ ctx = page engine (without explicit "request".toList) given base := by
  have key : ∀ base s0 given engine, Ground hmac c r s base s0 →
      setdefault (layers (engine ++ [without explicit requestKey,
        layers (given ++ without explicit requestKey :: base)])) requestKey .request =
      layers (engine ++ without explicit requestKey :: given ++ base) := by
    intro base s0 given engine hg
    have e : layers (engine ++ [without explicit requestKey, layers (given ++ without explicit requestKey :: base)]) =
        layers (engine ++ without explicit requestKey :: given ++ base) := by
      funext k
      rw [List.append_assoc, layers_append, layers_append]
      congr 1
      simp only [layers, List.cons_append]
      rw [layers_append, layers_append]
      simp only [layers]
      cases without explicit requestKey k with
      | some v => rfl
      | none => simp
    rw [e]
    refine setdefault_some _ _ _ ?_
    rw [layers_append, Option.isSome_or, ground_request _ _ _ _ _ _ hg, Bool.or_true]
  rw [render_ok]
  unfold contextData
  constructor
  · rintro ⟨merged, s1, engine, h1, h2, rfl⟩
    obtain ⟨b, s2, hb, h3⟩ := (andThen_ok _ _ _ _ _).1 h1
    rw [hx] at h3
    injection h3 with h3 h4
    injection h3 with h3
    subst h3
    subst h4
    obtain ⟨base, s0, given, hg, hr, rfl⟩ := (baseContext_ok _ _ _ _ _ _ _).1 hb
    exact ⟨base, s0, given, _, engine, hg, hr, h2, key base s0 _ _ hg⟩
  · rintro ⟨base, s0, given, s1, engine, hg, hr, h2, rfl⟩
    refine ⟨_, s1, engine, (andThen_ok _ _ _ _ _).2 ⟨_, s1, (baseContext_ok _ _ _ _ _ _ _).2 ⟨base, s0, given, hg, hr, rfl⟩, ?_⟩,
      h2, (key base s0 _ _ hg).symm⟩
    rw [hx]
    rfl

/-- The context of the example at some names. -/
def exShown (ks : List Str) : Res Ctx × Nat → List (Option Val)
  | (.ok c, _) => ks.map c
  | _ => []

example : exShown ["theme".toList, "tenant".toList, "got".toList, "request".toList, "size".toList]
    (render Csrf.fakeMac exController exGet exExplicit 0) =
      [some (.obj 9), some (.obj 6), some (.obj 9), some .request, none] := by decide +kernel

/-- **C86, what was passed wins.**  For every controller, with any override of `get_context_data`. -/
theorem C86_explicit {S : Type} (hmac : Str → Str → Str) (c : Controller S) (r : Request) (explicit : Ctx) (s : S)
    (ctx : Ctx) (s' : S) (h : render hmac c r explicit s = (.ok ctx, s')) (k : Str) (v : Val) (hk : k ≠ "request".toList)
    (he : explicit k = some v) (hq : Silent c.engine k) : ctx k = some v :=
  render_explicit hmac c r explicit s ctx s' h k v hk he hq

example : exExplicit "theme".toList = some (.obj 9) ∧ Silent exController.engine "theme".toList :=
  ⟨by decide, fun _ h => by cases h⟩

/-- **C86, misconfiguration.**  A page is refused as misconfigured exactly when a processor, reached after
others that ran, asks for something that is not on offer or gives no dictionary. -/
theorem C86_refused {S : Type} (hmac : Str → Str → Str) (c : Controller S) (hx : c.extend = plainExtend) (r : Request)
    (explicit : Ctx) (s : S) (s' : S) :
    render hmac c r explicit s = (.improper, s') ↔
      ∃ base s0 pre p post given s1, Ground hmac c r s base s0 ∧ c.procs = pre ++ p :: post ∧
        Ran (offered (without explicit "request".toList)) pre s0 given s1 ∧
        ((¬ Served (offered (without explicit "request".toList)) p.params ∧ s' = s1) ∨
          (Served (offered (without explicit "request".toList)) p.params ∧
            p.call (byName (offered (without explicit "request".toList)) p.params) s1 = (.other, s'))) := by
  have h1 : render hmac c r explicit s = (.improper, s') ↔
      baseContext hmac c r (without explicit "request".toList) s = (.improper, s') := by
    unfold render
    rw [andThen_improper]
    unfold contextData
    rw [andThen_improper, hx]
    constructor
    · rintro ((h | ⟨_, _, _, h⟩) | ⟨_, _, _, h⟩)
      · exact h
      · cases h
      · rcases (andThen_improper _ _ _ _).1 h with h | ⟨_, _, _, h⟩
        · exact absurd h (runEngine_proper _ _ _ _)
        · cases h
    · exact fun h => .inl (.inl h)
  rw [h1]
  unfold baseContext
  rw [available_offered, runProcs_improper]
  constructor
  · rintro ⟨pre, p, post, given, s1, h2, h3, h4⟩
    obtain ⟨base, s0, hg⟩ := ground_exists hmac c r s
    rw [firstContext_ground _ _ _ _ _ _ hg] at h3
    exact ⟨base, s0, pre, p, post, given, s1, hg, h2, h3, h4⟩
  · rintro ⟨base, s0, pre, p, post, given, s1, hg, h2, h3, h4⟩
    rw [firstContext_ground _ _ _ _ _ _ hg]
    exact ⟨pre, p, post, given, s1, h2, h3, h4⟩

/-- No context was made. -/
def exImproper : Res Ctx × Nat → Bool
  | (.improper, _) => true
  | _ => false

example : exImproper (render Csrf.fakeMac exController exGet empty 0) = true := by decide +kernel

/-- **C86, lists.**  A list controller shows its list, whatever the processors give, unless something else
was passed under that name. -/
theorem C86_list {S : Type} (hmac : Str → Str → Str) (c : Controller S) (name : Str) (queryset : S → Val × S)
    (hx : c.extend = listExtend name queryset) (r : Request) (explicit : Ctx) (s : S) (ctx : Ctx) (s' : S)
    (h : render hmac c r explicit s = (.ok ctx, s')) (hn : explicit name = none) (hq : Silent c.engine name) :
    ∃ s1, ctx name = some (queryset s1).1 := by
  obtain ⟨merged, s1, engine, h1, h2, rfl⟩ := (render_ok _ _ _ _ _ _ _).1 h
  obtain ⟨b, s2, -, h3⟩ := (andThen_ok _ _ _ _ _).1 h1
  rw [hx] at h3
  injection h3 with h3 _
  injection h3 with h3
  refine ⟨s2, ?_⟩
  have hw : without explicit requestKey name = none := by
    unfold without
    split
    · rfl
    · exact hn
  have hl : layers (engine.reverse ++ [without explicit requestKey, merged]) name = some (queryset s2).1 := by
    rw [layers_append, engine_silent h2 name hq]
    simp [layers, hw, ← h3, put]
  unfold setdefault
  split
  · exact hl
  · rename_i hs
    unfold put
    split
    · rename_i e
      rw [e] at hl
      rw [hl] at hs
      exact absurd rfl hs
    · exact hl

example : exShown ["tenant".toList] (render Csrf.fakeMac
    { exController with extend := listExtend "tenant".toList (fun n => (.obj 77, n)) } exGet exExplicit 0) =
      [some (.obj 77)] := by decide +kernel

/-! ## Forms -/

/-- A form whose only field is `name`, which must be there. -/
def exForm : FormView Nat :=
  ⟨{ exController with extend := formExtend [("name".toList, "Ann".toList)], procs := [exTenant] },
    some (fun d => match d with
      | [(k, _)] => if k = "name".toList then .ok 1 else .error "bad".toList
      | _ => .error "missing".toList), none, some "/done".toList⟩

/-- The names of a form page. -/
def formKey : Str := "form".toList

/-- The name of the errors of a form page. -/
def errorsKey : Str := "errors".toList

/-- **C86, the first page of a form** shows the initial data, whatever processors there are. -/
theorem C86_initial {S : Type} (hmac : Str → Str → Str) (f : FormView S) (initial : List (Str × Str))
    (hx : f.view.extend = formExtend initial) (r : Request) (kw : Ctx) (s : S) (ctx : Ctx) (s' : S)
    (h : formGet hmac f r kw s = (.ok ctx, s')) (hq : Silent f.view.engine formKey) :
    ctx formKey = some (.fields initial) := by
  obtain ⟨first, s1, h1, h2⟩ := (andThen_ok _ _ _ _ _).1 h
  refine render_explicit hmac f.view r first s1 ctx s' h2 formKey _ (by decide) ?_ hq
  obtain ⟨b, s2, -, h3⟩ := (andThen_ok _ _ _ _ _).1 h1
  rw [hx] at h3
  injection h3 with h3 _
  injection h3 with h3
  rw [← h3]
  unfold setdefault
  have hp : put b formKey (.fields initial) formKey = some (.fields initial) := if_pos rfl
  have hne : formKey ≠ errorsKey := by decide
  show (if ((put b formKey (.fields initial)) errorsKey).isSome = true then put b formKey (.fields initial)
    else put (put b formKey (.fields initial)) errorsKey .noErrors) formKey = _
  split
  · exact hp
  · show (if formKey = errorsKey then _ else _) = _
    rw [if_neg hne]
    exact hp

example : exShown [formKey, errorsKey, "tenant".toList] (formGet Csrf.fakeMac exForm exGet empty 0) =
    [some (.fields [("name".toList, "Ann".toList)]), some .noErrors, some (.obj 5)] := by decide +kernel

/-- **C86, the data of a form**: the first value of every name. -/
theorem C86_data (form : List (Str × Str)) : FirstOf form (asDict form) := by
  obtain ⟨h1, h2⟩ := firstValues_spec form []
  refine ⟨h1, fun k v => ?_⟩
  unfold asDict
  rw [h2 k v]
  simp

example : asDict [("a".toList, "1".toList), ("b".toList, "2".toList), ("a".toList, "3".toList)] =
    [("a".toList, "1".toList), ("b".toList, "2".toList)] := by decide +kernel

/-- **C86, an invalid submission** is answered by a page with what was submitted and the message, whatever
the processors and overrides of `get_context_data` give. -/
theorem C86_invalid {S : Type} (hmac : Str → Str → Str) (f : FormView S) (cls : List (Str × Str) → Except Str Nat)
    (hc : f.formClass = some cls) (r : Request) (form : List (Str × Str)) (message : Str)
    (hv : validate f.validator cls (asDict form) = .error message) (kw : Ctx) (s : S) (a : Answer) (s' : S)
    (h : formPost hmac f r form kw s = (.ok a, s')) (hq : Silent f.view.engine formKey) (hq' : Silent f.view.engine errorsKey) :
    ∃ ctx, a = .page ctx ∧ ctx formKey = some (.fields (asDict form)) ∧ ctx errorsKey = some (.text message) := by
  unfold formPost at h
  rw [hc] at h
  simp only [hv] at h
  obtain ⟨first, s1, -, h2⟩ := (andThen_ok _ _ _ _ _).1 h
  obtain ⟨ctx, s2, h2, h3⟩ := (andThen_ok _ _ _ _ _).1 h2
  injection h3 with h3 _
  injection h3 with h3
  refine ⟨ctx, h3.symm, ?_, ?_⟩
  · refine render_explicit hmac f.view r _ s1 ctx s2 h2 formKey _ (by decide) ?_ hq
    show (if formKey = errorsKey then _ else if formKey = formKey then _ else _) = _
    rw [if_neg (by decide), if_pos rfl]
  · refine render_explicit hmac f.view r _ s1 ctx s2 h2 errorsKey _ (by decide) ?_ hq'
    exact if_pos rfl

/-- The page of an answer. -/
def exAnswer (ks : List Str) : Res Answer × Nat → List (Option Val)
  | (.ok (.page c), _) => ks.map c
  | _ => []

/-- A submission. -/
def exPost : Request := ⟨"POST".toList, []⟩

example : exAnswer [formKey, errorsKey] (formPost Csrf.fakeMac exForm exPost [("nam".toList, "B".toList)] empty 0) =
    [some (.fields [("nam".toList, "B".toList)]), some (.text "bad".toList)] := by decide +kernel

/-- **C86, a valid submission** is answered by 303 to the success URL; without one, or without a form class,
the controller is misconfigured. -/
theorem C86_valid {S : Type} (hmac : Str → Str → Str) (f : FormView S) (r : Request) (form : List (Str × Str)) (kw : Ctx) (s : S) :
    (f.formClass = none → formPost hmac f r form kw s = (.improper, s)) ∧
    ∀ cls n, f.formClass = some cls → validate f.validator cls (asDict form) = .ok n →
      (∀ url, f.successUrl = some url → url ≠ [] → formPost hmac f r form kw s = (.ok (.redirect url 303), s)) ∧
      ((f.successUrl = none ∨ f.successUrl = some []) → formPost hmac f r form kw s = (.improper, s)) := by
  refine ⟨?_, ?_⟩
  · intro h
    unfold formPost
    rw [h]
  · intro cls n hc hv
    unfold formPost
    rw [hc]
    simp only [hv]
    refine ⟨?_, ?_⟩
    · intro url hu hne
      unfold formValid
      rw [hu]
      exact if_neg hne
    · rintro (h | h)
      · unfold formValid
        rw [h]
      · unfold formValid
        rw [h]
        exact if_pos rfl

example : validate exForm.validator (fun d => match d with
      | [(k, _)] => if k = "name".toList then .ok 1 else .error "bad".toList
      | _ => .error "missing".toList) (asDict [("name".toList, "B".toList)]) = .ok 1 ∧
    exForm.successUrl = some "/done".toList := ⟨rfl, rfl⟩

/-! ## The token -/

/-- **C86 (partial), the token.**  When the browser has the cookie that the middleware gave it, the page
of a controller with `csrf_enabled` has a token that the middleware accepts with that cookie.

The full statement is for all pages with a form.  Missing: the first visit (`C86_first_false`) and pages
that answer a submission (`C86_again_false`); and the middleware must use the cookie name `csrftoken`. -/
theorem C86_token_partial {S : Type} (hmac : Str → Str → Str) (hh : Csrf.Spec.HexMac hmac) (c : Controller S)
    (hx : c.extend = plainExtend) (he : c.csrf = true) (r : Request) (hm : Safe r.method) (secret rnd : Str)
    (hl : rnd.length = 64) (ha : ∀ x ∈ rnd, x.toNat < 128)
    (hk : aget r.cookies "csrftoken".toList = some (Csrf.generate hmac secret rnd)) (explicit : Ctx) (s : S)
    (ctx : Ctx) (s' : S) (h : render hmac c r explicit s = (.ok ctx, s')) (hn : explicit c.csrfName = none)
    (hp : ∀ p ∈ c.procs, ∀ kw s d s', p.call kw s = (.dict d, s') → d c.csrfName = none)
    (hq : Silent c.engine c.csrfName) :
    ∃ t, ctx c.csrfName = some (.token t) ∧
      Csrf.tokensMatch hmac secret (some t) (aget r.cookies "csrftoken".toList) = some true := by
  obtain ⟨base, s0, given, s1, engine, hg, hr, hen, rfl⟩ := (C86_page hmac c hx r explicit s ctx s').1 h
  have hne : Csrf.generate hmac secret rnd ≠ [] := by
    intro e
    have := congrArg List.length e
    unfold Csrf.generate at this
    rw [List.length_append, hl] at this
    simp at this
  have hgiven := ran_silent hr c.csrfName hp
  have hw : without explicit "request".toList c.csrfName = none := by
    unfold without
    split
    · rfl
    · exact hn
  have hbase : layers base c.csrfName = some (.token (Csrf.generate hmac secret rnd)) := by
    clear h
    cases hg with
    | plain h =>
      rcases h with h | h
      · rw [he] at h; cases h
      · exact absurd hm h
    | cookie t _ _ hc _ =>
      rw [hk] at hc
      injection hc with hc
      rw [hc]
      exact layers_top _ _ _
    | fresh _ _ _ _ hc _ => exact absurd (hc _ hk) hne
  refine ⟨Csrf.generate hmac secret rnd, ?_, ?_⟩
  · unfold page
    rw [List.append_assoc, layers_append, engine_silent hen _ hq, List.cons_append]
    simp only [layers]
    rw [hw, layers_append, hgiven, hbase]
    rfl
  · rw [hk]
    exact (Csrf.C13_roundtrip hmac hh secret rnd hl ha).2

example : exShown ["csrf_token".toList] (render Csrf.fakeMac { exController with procs := [exTenant] }
    ⟨"GET".toList, [("csrftoken".toList, Csrf.generate Csrf.fakeMac "k".toList (List.replicate 64 '3'))]⟩ empty 0) =
      [some (.token (Csrf.generate Csrf.fakeMac "k".toList (List.replicate 64 '3')))] := by decide +kernel

/-- **C86, false for the first visit.**  Without a cookie, the page carries a token of its own and the
middleware sets a cookie of its own, so the form is refused; for all secrets and all random texts that
differ. -/
theorem C86_first_false :
    (∀ (hmac : Str → Str → Str), Csrf.Spec.HexMac hmac → ∀ (r1 r2 k1 k2 : Str), r1.length = 64 → r2.length = 64 → r1 ≠ r2 →
      Csrf.tokensMatch hmac k2 (some (Csrf.generate hmac k1 r1)) (some (Csrf.generate hmac k2 r2)) ≠ some true) ∧
    exShown ["csrf_token".toList] (render Csrf.fakeMac { exController with procs := [] } exGet empty 0) =
      [some (.token (Csrf.generate Csrf.fakeMac "k".toList (List.replicate 64 '0')))] ∧
    Csrf.issued Csrf.fakeMac ⟨"k".toList, [], [], 1⟩ (List.replicate 64 '2') (aget exGet.cookies "csrftoken".toList) [] =
      some (Csrf.generate Csrf.fakeMac "k".toList (List.replicate 64 '2')) ∧
    Csrf.tokensMatch Csrf.fakeMac "k".toList (some (Csrf.generate Csrf.fakeMac "k".toList (List.replicate 64 '0')))
      (some (Csrf.generate Csrf.fakeMac "k".toList (List.replicate 64 '2'))) = some false := by
  refine ⟨?_, by decide +kernel, by decide +kernel, by decide +kernel⟩
  intro hmac hh r1 r2 k1 k2 h1 h2 hne h
  obtain ⟨s, x, ha, hb, -⟩ := Csrf.C13_match hmac hh k2 _ _ h
  injection ha with ha
  injection hb with hb
  rw [← hb] at ha
  unfold Csrf.generate at ha
  exact hne (List.append_inj_left ha (by rw [h1, h2]))

/-- **C86, false after a submission.**  The page that shows a form again has no token, although the
controller has `csrf_enabled` and the browser has the cookie. -/
theorem C86_again_false :
    exForm.view.csrf = true ∧
    exAnswer [formKey, exForm.view.csrfName] (formPost Csrf.fakeMac exForm
      ⟨"POST".toList, [("csrftoken".toList, Csrf.generate Csrf.fakeMac "k".toList (List.replicate 64 '3'))]⟩
      [("nam".toList, "B".toList)] empty 0) =
      [some (.fields [("nam".toList, "B".toList)]), none] := ⟨rfl, by decide +kernel⟩

/-! ## What does not hold -/

/-- **C86, false: processors build on each other.**  The example of the documentation, a processor with
parameters `user` and `tenant` after the processors that give them, is refused as misconfigured. -/
theorem C86_chain_false :
    exImproper (render Csrf.fakeMac { exController with procs :=
      [⟨[⟨"request".toList, true⟩], fun _ n => (.dict (only "user".toList (.obj 1)), n)⟩, exTenant,
        ⟨[⟨"request".toList, true⟩, ⟨"user".toList, true⟩, ⟨"tenant".toList, true⟩],
          fun _ n => (.dict (only "theme".toList (.obj 2)), n)⟩] } exGet empty 0) = true := by decide +kernel

/-- **C86, false: the template has the request.**  A context processor can put something else in its place,
which what was passed cannot. -/
theorem C86_request_false :
    exShown ["request".toList] (render Csrf.fakeMac { exController with procs :=
      [⟨[], fun _ n => (.dict (only "request".toList (.obj 8)), n)⟩] } exGet exExplicit 0) = [some (.obj 8)] := by
  decide +kernel

/-- **C86, false: processors run once for a page.**  For the page of a form they run twice, the second
time with what the first gave as arguments, and the page may have values of both. -/
theorem C86_twice_false :
    exShown ["visit0".toList, "visit1".toList] (formGet Csrf.fakeMac { exForm with view :=
      { exForm.view with csrf := false, procs := [⟨[], fun _ n =>
        (.dict (only ("visit".toList ++ (if n = 0 then "0".toList else "1".toList)) (.obj n)), n + 1)⟩] } } exGet empty 0) =
      [some (.obj 0), some (.obj 1)] := by decide +kernel

/-- **C86 (partial), the validator** is called with the form class and the data.

The full statement is for every `validator`.  Missing: one that is a function of the class
(`C86_validator_false`). -/
theorem C86_validator_partial (v : Validator) (h : v.inClass = false) (cls : List (Str × Str) → Except Str Nat)
    (data : List (Str × Str)) : validate (some v) cls data = v.call [.formClass, .data data] := by
  show v.call ((if v.inClass = true then [Arg.self] else []) ++ [.formClass, .data data]) = _
  rw [h]
  rfl

/-- A validator with two parameters that accepts everything. -/
def exAccepts (inClass : Bool) : Validator :=
  ⟨inClass, fun args => match args with
    | [_, _] => .ok 1
    | _ => .error "takes 2 positional arguments but 3 were given".toList⟩

example : validate (some (exAccepts false)) (fun _ => .error []) [] = .ok 1 := rfl

/-- **C86, false for a validator in the class.**  It becomes a method, gets the controller as its first
argument, and no submission is valid. -/
theorem C86_validator_false (cls : List (Str × Str) → Except Str Nat) (data : List (Str × Str)) :
    validate (some (exAccepts true)) cls data = .error "takes 2 positional arguments but 3 were given".toList := rfl

end Verif.TemplateViews
