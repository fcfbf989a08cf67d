import Verif.OauthPage.Lemmas

/-!
# C149: the redirect page of the documentation

English: the page to which an authorization server sends the browser tells the documentation exactly what the server
said: the code, the token or the error, whatever characters are in it; an answer to another request is not used; and
the documentation is given one code at most.
-/

namespace Verif.OauthPage.Props

open Verif Spec

/-- A page that waits for a code gets exactly the code of the address; it is warned before that when the state is not
the one that was sent. -/
theorem C149_code_partial (o : Opener) (ho : Waits o) (l : Location) (ts : List (Str × Str × Str)) (h : Good ts)
    (hl : Carries l (query ts)) (c : Str) (hc : c ≠ []) (hv : value ts "code".toList = some c) :
    run o l = some (⟨none, o.flow, c⟩, warned o ts ++ [.code c]) := by
  obtain ⟨qp, hp, hq⟩ := run_params l ts hl h
  have ht : truthy qp "code".toList = some c := by
    unfold truthy
    rw [hq, hv]
    exact Option.filter_some_pos (by simpa using hc)
  unfold run
  rw [hp]
  simp only [if_pos ((waits_iff o).mpr ho), ht]
  unfold warned
  rw [hq]

/-- An address with a code that has a blank, an equals sign, an ampersand and a byte beyond ASCII, and two states. -/
def answer : List (Str × Str × Str) :=
  [("state".toList, "old".toList, "old".toList), ("code".toList, "a%20b=%26%C3".toList, "a b=&Ã".toList),
    ("state".toList, "x%2f".toList, "x/".toList)]

theorem encoded_plain (t : Str) (h : ∀ c ∈ t, c ∉ "&%?\\\"".toList) : Encoded t t := by
  induction t with
  | nil => exact .nil
  | cons c t ih => exact .plain c t t (h c List.mem_cons_self) (ih fun d hd => h d (List.mem_cons_of_mem _ hd))

theorem answer_good : Good answer := by
  intro t ht
  simp only [answer, List.mem_cons, List.not_mem_nil, or_false] at ht
  rcases ht with rfl | rfl | rfl
  · exact ⟨⟨by decide, by decide⟩, encoded_plain _ (by decide)⟩
  · exact ⟨⟨by decide, by decide⟩, .plain 'a' _ _ (by decide)
      (.byte '2' '0' 2 0 _ _ (.inl (by decide)) (.inl (by decide))
      (.plain 'b' _ _ (by decide) (.plain '=' _ _ (by decide)
      (.byte '2' '6' 2 6 _ _ (.inl (by decide)) (.inl (by decide))
      (.byte 'C' '3' 12 3 _ _ (.inr (by decide)) (.inl (by decide)) .nil)))))⟩
  · exact ⟨⟨by decide, by decide⟩, .plain 'x' _ _ (by decide) (.byte '2' 'f' 2 15 _ _ (.inl (by decide))
      (.inl (by decide)) .nil)⟩

/-- A page that waits for a code. -/
def waiting (state : String) : Opener := ⟨some state.toList, "authorizationCode".toList, []⟩

example : Waits (waiting "x/") ∧ Carries ⟨'?' :: query answer, "#_=_".toList⟩ (query answer) ∧
    warned (waiting "x/") answer = [] ∧ warned (waiting "old") answer = [.warning] := by
  refine ⟨⟨.inr (.inl rfl), rfl⟩, .inl ⟨?_, rfl⟩, by decide +kernel, by decide +kernel⟩
  unfold Word
  decide

example : run (waiting "x/") ⟨'?' :: query answer, []⟩ =
    some (⟨none, "authorizationCode".toList, "a b=&Ã".toList⟩, [.code "a b=&Ã".toList]) := by decide +kernel

/-- Without a code it is told an error, with what the server says about it. -/
theorem C149_error (o : Opener) (ho : Waits o) (l : Location) (ts : List (Str × Str × Str)) (h : Good ts)
    (hl : Carries l (query ts)) (hc : value ts "code".toList = none ∨ value ts "code".toList = some []) :
    ∃ m, run o l = some (o, warned o ts ++ [.error m]) ∧
      ∀ e, e ≠ [] → value ts "error".toList = some e → "[".toList ++ e ++ "]: ".toList <+: m ∧
        (∀ d, value ts "error_description".toList = some d → d <:+: m) ∧
        (∀ u, value ts "error_uri".toList = some u → u <:+: m) := by
  obtain ⟨qp, hp, hq⟩ := run_params l ts hl h
  have ht : truthy qp "code".toList = none := by
    unfold truthy
    rw [hq]
    rcases hc with hc | hc <;> rw [hc] <;> rfl
  refine ⟨errorText qp, ?_, ?_⟩
  · unfold run
    rw [hp]
    simp only [if_pos ((waits_iff o).mpr ho), ht]
    unfold warned
    rw [hq]
  · intro e he hv
    have hte : truthy qp "error".toList = some e := by
      unfold truthy
      rw [hq, hv]
      exact Option.filter_some_pos (by simpa using he)
    have part : ∀ n v, value ts n = some v → v = [] ∨ truthy qp n = some v := by
      intro n v hv
      by_cases hn : v = []
      · exact .inl hn
      · right
        unfold truthy
        rw [hq, hv]
        exact Option.filter_some_pos (by simpa using hn)
    have hx : errorText qp = "[".toList ++ e ++ "]: ".toList ++ described (truthy qp "error_description".toList) ++
        linked (truthy qp "error_uri".toList) := by
      unfold errorText
      simp only [hte]
    rw [hx]
    refine ⟨?_, fun d hd => ?_, fun u hu => ?_⟩
    · rw [List.append_assoc _ _ (linked _)]
      exact List.prefix_append _ _
    · rcases part _ _ hd with hd | hd
      · rw [hd]
        exact List.nil_infix
      · rw [hd]
        have hd : d <:+: described (some d) := (List.prefix_append _ _).isInfix
        exact hd.trans ((List.suffix_append _ _).isInfix.trans (List.prefix_append _ _).isInfix)
    · rcases part _ _ hu with hu | hu
      · rw [hu]
        exact List.nil_infix
      · rw [hu]
        have hd : u <:+: linked (some u) := (List.suffix_append _ _).isInfix
        exact hd.trans (List.suffix_append _ _).isInfix

example : run (waiting "x") ⟨"?error=denied&error_description=no%2C%20thanks&state=x".toList, []⟩ =
    some (waiting "x", [.error "[denied]: no, thanks. ".toList]) := by decide +kernel

/-- The exact text of the error; an empty value counts as missing. -/
theorem C149_message (o : Opener) (ho : Waits o) (l : Location) (ts : List (Str × Str × Str)) (h : Good ts)
    (hl : Carries l (query ts)) (hc : value ts "code".toList = none ∨ value ts "code".toList = some []) :
    ((value ts "error".toList).getD [] = [] → run o l = some (o, warned o ts ++
      [.error "[Authorization failed]: no accessCode received from the server.".toList])) ∧
    ∀ e d u, (value ts "error".toList).getD [] = e → (value ts "error_description".toList).getD [] = d →
      (value ts "error_uri".toList).getD [] = u → e ≠ [] → run o l = some (o, warned o ts ++ [.error
        ("[".toList ++ e ++ "]: ".toList ++
          (if d = [] then "no accessCode received from the server. ".toList else d ++ ". ".toList) ++
          (if u = [] then [] else "More info: ".toList ++ u))]) := by
  obtain ⟨qp, hp, hq⟩ := run_params l ts hl h
  have none_of : ∀ n, (value ts n).getD [] = [] → truthy qp n = none := by
    intro n hn
    unfold truthy
    rw [hq]
    cases hv : value ts n with
    | none => rfl
    | some v =>
      rw [hv] at hn
      have hn : v = [] := hn
      rw [hn]
      rfl
  have some_of : ∀ n v, (value ts n).getD [] = v → v ≠ [] → truthy qp n = some v := by
    intro n v hn hv
    unfold truthy
    rw [hq]
    cases hx : value ts n with
    | none => rw [hx] at hn; exact absurd hn.symm hv
    | some w =>
      rw [hx] at hn
      have hn : w = v := hn
      subst hn
      exact Option.filter_some_pos (by simpa using hv)
  have ht : truthy qp "code".toList = none := none_of _ (by rcases hc with hc | hc <;> rw [hc] <;> rfl)
  have hr : run o l = some (o, warned o ts ++ [.error (errorText qp)]) := by
    unfold run
    rw [hp]
    simp only [if_pos ((waits_iff o).mpr ho), ht]
    unfold warned
    rw [hq]
  rw [hr]
  refine ⟨fun he => ?_, fun e d u he hd hu hne => ?_⟩
  · unfold errorText
    rw [none_of _ he]
  · have e1 : described (truthy qp "error_description".toList) =
        if d = [] then "no accessCode received from the server. ".toList else d ++ ". ".toList := by
      by_cases h0 : d = []
      · rw [none_of _ (hd.trans h0), if_pos h0]
        rfl
      · rw [some_of _ _ hd h0, if_neg h0]
        rfl
    have e2 : linked (truthy qp "error_uri".toList) = if u = [] then [] else "More info: ".toList ++ u := by
      by_cases h0 : u = []
      · rw [none_of _ (hu.trans h0), if_pos h0]
        rfl
      · rw [some_of _ _ hu h0, if_neg h0]
        rfl
    unfold errorText
    rw [some_of _ _ he hne]
    dsimp only
    rw [e1, e2]

example : run (waiting "x") ⟨"?error=denied&error_uri=h%3Ax&error_description=&state=y".toList, []⟩ =
    some (waiting "x", [.warning,
      .error "[denied]: no accessCode received from the server. More info: h:x".toList]) := by decide +kernel

/-- The page makes JSON text of the address: a backslash that is not percent-encoded escapes what is after it. -/
theorem C149_escapes (o : Opener) (ho : Waits o) (t m c : Str) (ht : '&' ∉ t) (hm : Written t m) (hv : Encoded m c)
    (hc : c ≠ []) : ∃ w, run o ⟨'?' :: "code=".toList ++ t, []⟩ = some (⟨none, o.flow, c⟩, w ++ [.code c]) := by
  have e1 : "code=".toList = "code".toList ++ ['='] := by decide
  have hs : source ⟨'?' :: "code=".toList ++ t, []⟩ = "code".toList ++ '=' :: t := by
    unfold source
    have hn : ¬ mentions [] = true := by decide
    rw [if_neg hn, e1, List.cons_append, List.append_assoc]
    rfl
  have hx : '&' ∉ "code".toList ++ '=' :: t := by
    intro h
    rcases List.mem_append.mp h with h | h
    · exact absurd h (by decide)
    · rcases List.mem_cons.mp h with h | h
      · exact absurd h (by decide)
      · exact ht h
  have hme : member ("code".toList ++ '=' :: t) = some ("code".toList, m) := by
    unfold member
    rw [Url.partition_append _ _ _ (by decide)]
    simp only [unescape_plain "code".toList (by decide), unescape_written t m hm]
  have hp : params ("code".toList ++ '=' :: t) = some [("code".toList, c)] := by
    unfold params
    rw [if_neg (by simp), splitOn_of_not_mem _ _ hx]
    have hr : revive ("code".toList, m) = some ("code".toList, c) := by
      unfold revive
      have hn : "code".toList ≠ [] := by decide
      rw [if_neg hn, decode_encoded m c hv]
      rfl
    rw [List.map_cons, List.map_nil, hme]
    show sequence [revive ("code".toList, m)] = _
    rw [hr]
    rfl
  have htr : truthy [("code".toList, c)] "code".toList = some c := by
    have hg : aget [("code".toList, c)] "code".toList = some c := by simp [aget]
    unfold truthy
    rw [hg]
    exact Option.filter_some_pos (by simpa using hc)
  refine ⟨if aget [("code".toList, c)] "state".toList = o.state then [] else [Event.warning], ?_⟩
  unfold run
  rw [hs, hp]
  simp only [if_pos ((waits_iff o).mpr ho), htr]

/-- So a code with a backslash that a server has not encoded is not the code that is handed over, or none is. -/
theorem C149_backslash_false :
    run (waiting "x") ⟨"?code=a\\tb&state=x".toList, []⟩ =
      some (⟨none, "authorizationCode".toList, "a\tb".toList⟩, [.code "a\tb".toList]) ∧
    run (waiting "x") ⟨"?code=\\u0041&state=x".toList, []⟩ =
      some (⟨none, "authorizationCode".toList, "A".toList⟩, [.code "A".toList]) ∧
    run (waiting "x") ⟨"?code=a\\d&state=x".toList, []⟩ = none ∧
    run (waiting "x") ⟨"?code=a\\&state=x".toList, []⟩ = none := by
  refine ⟨?_, ?_, ?_, ?_⟩ <;> decide +kernel

example : Written "\\u0041\\/\\n-".toList "A/\n-".toList :=
  .unit '0' '0' '4' '1' 0 0 4 1 _ _ (.inl (by decide)) (.inl (by decide)) (.inl (by decide)) (.inl (by decide))
    (.letter '/' 47 _ _ (by unfold Letter; decide) (.letter 'n' 10 _ _ (by unfold Letter; decide)
      (.plain '-' _ _ (by decide) .nil)))

/-- In the other flows the page gets all parameters, and the flag says whether the state is the one that was sent. -/
theorem C149_token (o : Opener) (ho : ¬ Waits o) (l : Location) (ts : List (Str × Str × Str)) (h : Good ts)
    (hl : Carries l (query ts)) :
    ∃ qp, run o l = some (o, [.token qp (decide (value ts "state".toList = o.state))]) ∧
      ∀ n, aget qp n = value ts n := by
  obtain ⟨qp, hp, hq⟩ := run_params l ts hl h
  refine ⟨qp, ?_, hq⟩
  unfold run
  rw [hp]
  simp only [if_neg (fun e => ho ((waits_iff o).mp e))]
  rw [hq]

example : run ⟨some "x".toList, "implicit".toList, []⟩ ⟨[], "#access_token=t%2B&state=x".toList⟩ =
    some (⟨some "x".toList, "implicit".toList, []⟩,
      [.token [("access_token".toList, "t+".toList), ("state".toList, "x".toList)] true]) := by decide +kernel

example : Carries ⟨[], "#access_token=t&state=x".toList⟩
    (query [("access_token".toList, "t".toList, "t".toList), ("state".toList, "x".toList, "x".toList)]) :=
  .inr ⟨.inr (.inl ⟨"#access_".toList, "=t&state=x".toList, by decide +kernel⟩), by decide +kernel⟩

/-- Whatever addresses the windows of a page have, it is given one code at most. -/
theorem C149_once (o : Opener) (ls : List Location) : ((runs o ls).filter fun e => IsCode e).length ≤ 1 := by
  have used : ∀ (ls : List Location) (o : Opener), o.code ≠ [] → (runs o ls).filter (fun e => IsCode e) = [] := by
    intro ls
    induction ls with
    | nil => intro o _; rfl
    | cons l ls ih =>
      intro o ho
      unfold runs
      cases hr : run o l with
      | none => exact ih o ho
      | some p =>
        obtain ⟨o', ev⟩ := p
        unfold run at hr
        split at hr
        · cases hr
        · rw [if_neg (fun e => ho e.2)] at hr
          injection hr with hr
          injection hr with e1 e2
          subst e1
          subst e2
          dsimp only
          rw [List.filter_append, ih o ho]
          rfl
  have nowarn : ∀ (b : Prop) [Decidable b],
      ((if b then [] else [Event.warning]) : List Event).filter (fun e => IsCode e) = [] := by
    intro b _
    split <;> rfl
  induction ls generalizing o with
  | nil => exact Nat.zero_le _
  | cons l ls ih =>
    unfold runs
    cases hr : run o l with
    | none => exact ih o
    | some p =>
      obtain ⟨o', ev⟩ := p
      dsimp only
      unfold run at hr
      split at hr
      · cases hr
      · rename_i qp _
        split at hr
        · dsimp only at hr
          generalize hw : (if aget qp "state".toList = o.state then [] else [Event.warning]) = warn at hr
          have hwarn : warn.filter (fun e => IsCode e) = [] := hw ▸ nowarn _
          split at hr
          · rename_i c hc
            injection hr with hr
            injection hr with e1 e2
            subst e1
            subst e2
            have hne : c ≠ [] := by
              unfold truthy at hc
              have := Option.filter_eq_some_iff.mp hc
              simpa using this.2
            rw [List.filter_append, used ls _ hne, List.append_nil, List.filter_append, hwarn, List.nil_append]
            exact Nat.le_refl 1
          · injection hr with hr
            injection hr with e1 e2
            subst e1
            subst e2
            rw [List.filter_append, List.filter_append, hwarn]
            exact ih o
        · injection hr with hr
          injection hr with e1 e2
          subst e1
          subst e2
          rw [List.filter_append]
          exact ih o

example : runs (waiting "x") [⟨"?code=1&state=x".toList, []⟩, ⟨"?code=2&state=x".toList, []⟩] =
    [.code "1".toList, .token [("code".toList, "2".toList), ("state".toList, "x".toList)] false] := by decide +kernel

/-- An answer to another request is used: the code of somebody else, with another state or without one, is handed
over after the warning. -/
theorem C149_state_false :
    run (waiting "x") ⟨"?code=evil&state=y".toList, []⟩ =
      some (⟨none, "authorizationCode".toList, "evil".toList⟩, [.warning, .code "evil".toList]) ∧
    run (waiting "x") ⟨"?code=evil".toList, []⟩ =
      some (⟨none, "authorizationCode".toList, "evil".toList⟩, [.warning, .code "evil".toList]) := by
  refine ⟨?_, ?_⟩ <;> decide +kernel

/-- RFC 6749 prescribes the encoding of forms, in which `+` is a blank; the page leaves it. -/
theorem C149_plus_false :
    Url.urlencode [("error".toList, "denied".toList), ("error_description".toList, "not now".toList),
      ("state".toList, "x".toList)] = "error=denied&error_description=not+now&state=x".toList ∧
    run (waiting "x") ⟨"?error=denied&error_description=not+now&state=x".toList, []⟩ =
      some (waiting "x", [.error "[denied]: not+now. ".toList]) := by
  refine ⟨?_, ?_⟩ <;> decide +kernel

/-- A parameter without `=`, an empty one, a percent sign that begins no escape, or a fragment with one of the words:
the page raises, tells nothing and stays open, though the address has a code. -/
theorem C149_shape_false :
    run (waiting "x") ⟨"?code=1&state=x&prompt".toList, []⟩ = none ∧
    run (waiting "x") ⟨"?code=1&state=x&".toList, []⟩ = none ∧
    run (waiting "x") ⟨"?code=1&state=x&rate=5%".toList, []⟩ = none ∧
    run (waiting "x") ⟨"?code=1&state=x&rate=5%zz".toList, []⟩ = none ∧
    run (waiting "x") ⟨"?code=1&state=x".toList, "#unicode".toList⟩ = none := by
  refine ⟨?_, ?_, ?_, ?_, ?_⟩ <;> decide +kernel

/-- **C149**, fragments: a fragment that has one of the words counts alone, and its first question mark separates
parameters like `&`. -/
theorem C149_fragment (o : Opener) (search a b : Str) (ha : '?' ∉ a)
    (hw : ∃ w ∈ ["code".toList, "token".toList, "error".toList], w <:+: '#' :: a ++ '?' :: b) :
    run o ⟨search, '#' :: a ++ '?' :: b⟩ = run o ⟨'?' :: a ++ '&' :: b, []⟩ := by
  have hr : ∀ x : Str, '?' ∉ x → replaceFirst '?' '&' (x ++ '?' :: b) = x ++ '&' :: b := by
    intro x
    induction x with
    | nil => intro _; rfl
    | cons c x ih =>
      intro hx
      have hc : ¬ c = '?' := fun e => hx (e ▸ List.mem_cons_self)
      show (if c = '?' then _ else _) = _
      rw [if_neg hc]
      exact congrArg (c :: ·) (ih fun h => hx (List.mem_cons_of_mem _ h))
  have hm : mentions ('#' :: a ++ '?' :: b) = true := by
    obtain ⟨w, hw, hi⟩ := hw
    have hc := (contains_iff _ _).2 hi
    unfold mentions
    simp only [List.mem_cons, List.not_mem_nil, or_false] at hw
    rcases hw with rfl | rfl | rfl <;> simp only [hc, Bool.or_true, Bool.true_or]
  have hn : ¬ mentions [] = true := by decide
  unfold run
  have : source ⟨search, '#' :: a ++ '?' :: b⟩ = source ⟨'?' :: a ++ '&' :: b, []⟩ := by
    unfold source
    rw [if_pos hm, if_neg hn]
    exact hr a ha
  rw [this]

example : run (waiting "x") ⟨"?code=2".toList, "#state=x?code=1".toList⟩ =
    some (⟨none, "authorizationCode".toList, "1".toList⟩, [.code "1".toList]) :=
  (C149_fragment (waiting "x") "?code=2".toList "state=x".toList "code=1".toList (by decide)
    ⟨"code".toList, by decide, "#state=x?".toList, "=1".toList, by decide⟩).trans (by decide +kernel)

end Verif.OauthPage.Props
