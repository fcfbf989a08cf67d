import Verif.TrustedLinks.Spec
import Verif.Hosts.Props
import Verif.AbsoluteUrl.Props
import Verif.RelayResponse.Lemmas

/-!
# Lemmas for C153
-/

namespace Verif.TrustedLinks

open Verif Spec Verif.Hosts.Spec Verif.AbsoluteUrl.Spec

theorem takeWhile_append_stop {α : Type} (p : α → Bool) (a b : List α) (ha : ∀ x ∈ a, p x = true)
    (hb : ∀ x, b.head? = some x → p x = false) : (a ++ b).takeWhile p = a := by
  induction a with
  | nil =>
    cases b with
    | nil => rfl
    | cons x b => rw [List.nil_append, List.takeWhile_cons, hb x rfl]; rfl
  | cons x a ih =>
    rw [List.cons_append, List.takeWhile_cons, ha x List.mem_cons_self, ih fun y hy => ha y (List.mem_cons_of_mem _ hy)]
    rfl

theorem dropWhile_append_stop {α : Type} (p : α → Bool) (a b : List α) (ha : ∀ x ∈ a, p x = true)
    (hb : ∀ x, b.head? = some x → p x = false) : (a ++ b).dropWhile p = b := by
  induction a with
  | nil =>
    cases b with
    | nil => rfl
    | cons x b => rw [List.nil_append, List.dropWhile_cons, hb x rfl]; rfl
  | cons x a ih =>
    rw [List.cons_append, List.dropWhile_cons, ha x List.mem_cons_self]
    exact ih fun y hy => ha y (List.mem_cons_of_mem _ hy)

theorem takeWhile_partition (c : Char) (s : Str) : s.takeWhile (· ≠ c) = (Url.partition c s).1 := by
  induction s with
  | nil => rfl
  | cons x s ih =>
    rw [List.takeWhile_cons, Url.partition]
    by_cases h : x = c
    · simp [h]
    · simp only [h, ne_eq, not_false_eq_true, decide_true, if_true, if_false]
      rw [← ih]

/-- Where an address leads if nothing in its authority can be mistaken. -/
theorem target_plain (s v r : Str) (hs : ':' ∉ s) (hv : ∀ c ∈ v, c ∉ "/\\?#@".toList) :
    target (s ++ "://".toList ++ v ++ '/' :: r) = lower (Hosts.hostOf (some v)) := by
  have e : "://".toList = [':', '/', '/'] := by decide
  have sub : ∀ c, c ∉ "/\\?#@".toList → c ∉ "/\\?#".toList ∧ c ≠ '@' := by
    intro c hc
    refine ⟨fun h => hc ?_, ?_⟩
    · have all : ∀ d ∈ "/\\?#".toList, d ∈ "/\\?#@".toList := by decide
      exact all c h
    · rintro rfl
      exact hc (by decide)
  unfold target
  have h1 : (s ++ "://".toList ++ v ++ '/' :: r).dropWhile (· ≠ ':') = [':', '/', '/'] ++ (v ++ '/' :: r) := by
    rw [List.append_assoc, List.append_assoc, e]
    refine dropWhile_append_stop _ _ _ (fun x hx => ?_) (fun x hx => ?_)
    · refine decide_eq_true ?_
      rintro rfl
      exact hs hx
    · have hx : ':' = x := Option.some.inj hx
      rw [← hx]
      decide
  have h2 : (v ++ '/' :: r).takeWhile (fun c => decide (c ∉ "/\\?#".toList)) = v := by
    refine takeWhile_append_stop _ _ _ (fun x hx => decide_eq_true (sub x (hv x hx)).1) (fun x hx => ?_)
    have hx : '/' = x := Option.some.inj hx
    rw [← hx]
    decide
  have h3 : (v.reverse.takeWhile (· ≠ '@')).reverse = v := by
    rw [Url.takeWhile_all _ _ (fun x hx => decide_eq_true (sub x (hv x (List.mem_reverse.mp hx))).2),
        List.reverse_reverse]
  dsimp only
  rw [h1, show ([':', '/', '/'] ++ (v ++ '/' :: r)).drop 3 = v ++ '/' :: r from rfl, h2, h3, takeWhile_partition]
  unfold Hosts.hostOf
  rw [Option.getD_some, Hosts.splitOn_headD]

theorem authority_fine {h t : Str} (hh : PlainHost h) (ht : PortText t) : ∀ c ∈ h ++ t, c ∉ "/\\?#@".toList := by
  intro c hc hm
  have no : ∀ d ∈ "/\\?#@".toList, ¬ (Url.alwaysSafe d = true ∨ d = ':') := by decide
  exact no c hm (Hosts.authority_chars hh ht c hc)

theorem host_plain {h t : Str} (hh : PlainHost h) (ht : PortText t) : Hosts.hostOf (some (h ++ t)) = h := by
  rw [← Hosts.hostName_iff]
  refine ⟨fun hm => (Hosts.alwaysSafe_facts (Hosts.plainHost_safe hh _ hm)).2.2.2.2.2.1 rfl, ?_⟩
  rcases ht with rfl | ⟨d, rfl, _⟩
  · exact .inl (List.append_nil _)
  · exact .inr ⟨d, rfl⟩

theorem target_addresses {loc s h t p q : Str} (hs : ':' ∉ s) (hh : PlainHost h) (ht : PortText t)
    (ha : Addresses loc s (h ++ t) p q) : target loc = lower h := by
  obtain ⟨p', rfl, ⟨r, rfl⟩, _⟩ := ha
  rw [List.append_assoc _ ('/' :: r)]
  rw [List.cons_append, target_plain _ _ _ hs (authority_fine hh ht), host_plain hh ht]

theorem get_first (sc : AbsoluteUrl.Sc) (hl : Lowered sc) :
    MultiDict.get lower sc.headers "host".toList = aget sc.headers "host".toList := by
  unfold MultiDict.get MultiDict.getall
  have e : lower "host".toList = "host".toList := by decide
  rw [e]
  unfold Lowered at hl
  revert hl
  generalize sc.headers = l
  intro hl
  induction l with
  | nil => rfl
  | cons kv l ih =>
    rw [List.filterMap_cons, hl kv List.mem_cons_self, aget]
    by_cases h : kv.1 = "host".toList
    · simp only [h, if_true]
      rfl
    · simp only [h, if_false]
      exact ih fun x hx => hl x (List.mem_cons_of_mem _ hx)

theorem scheme_colon (a b : Bool) : ':' ∉ AbsoluteUrl.Spec.scheme a b := by
  cases a <;> cases b <;> decide

theorem schemeOf_colon (p : Reverse.Proto) (a b : Bool) : ':' ∉ AbsoluteUrl.Spec.schemeOf p a b := by
  cases p <;> cases a <;> cases b <;> decide

theorem secure_colon (s : Str) : ':' ∉ Hosts.secure s := by
  unfold Hosts.secure
  split <;> decide

theorem made {sc : AbsoluteUrl.Sc} {socket secure : Bool} {h t : Str} (o : Ordinary sc socket secure h t) :
    Made sc secure (h ++ t) := by
  have key : ∀ l : List (Str × Str), aget l "host".toList = some (h ++ t) →
      ∃ b a, l = b ++ ("host".toList, h ++ t) :: a ∧ ∀ kv ∈ b, kv.1 ≠ "host".toList := by
    intro l
    induction l with
    | nil => intro e; cases e
    | cons kv l ih =>
      intro e
      rw [aget] at e
      by_cases hk : kv.1 = "host".toList
      · rw [if_pos hk] at e
        refine ⟨[], l, ?_, fun _ hm => by cases hm⟩
        rw [← hk, ← Option.some.inj e]
        rfl
      · rw [if_neg hk] at e
        obtain ⟨b, a, rfl, hb⟩ := ih e
        refine ⟨kv :: b, a, rfl, fun x hx => ?_⟩
        rcases List.mem_cons.1 hx with rfl | hx
        · exact hk
        · exact hb x hx
  obtain ⟨b, a, e, hb⟩ := key _ o.header
  exact .header b a e hb o.host o.port

theorem reqOf_host {sc : AbsoluteUrl.Sc} {socket secure : Bool} {h t : Str} (o : Ordinary sc socket secure h t) :
    (reqOf sc).host = some (h ++ t) := by
  unfold reqOf
  dsimp only
  rw [get_first sc o.names, o.header]

theorem listed_of {allowed : List Str} {h t : Str} (hh : PlainHost h) (ht : PortText t)
    (ha : Admitted allowed (h ++ t)) : Listed allowed h := by
  obtain ⟨x, hx, hl⟩ := ha
  rw [Hosts.hostName_iff, host_plain hh ht] at hx
  rw [hx]
  exact hl

theorem texts_mem {l : List (Except AbsoluteUrl.Err AbsoluteUrl.URL)} {x : Str} (h : x ∈ texts l) :
    ∃ u, Except.ok u ∈ l ∧ x = u.text := by
  induction l with
  | nil => cases h
  | cons r l ih =>
    cases r with
    | error e =>
      obtain ⟨u, h1, h2⟩ := ih h
      exact ⟨u, List.mem_cons_of_mem _ h1, h2⟩
    | ok u =>
      rcases List.mem_cons.1 h with rfl | h
      · exact ⟨u, List.mem_cons_self, rfl⟩
      · obtain ⟨u, h1, h2⟩ := ih h
        exact ⟨u, List.mem_cons_of_mem _ h1, h2⟩

theorem made_same {sc sc' : AbsoluteUrl.Sc} {secure : Bool} {auth : Str} (h : Made sc secure auth)
    (e1 : sc'.headers = sc.headers) (e2 : sc'.server = sc.server) : Made sc' secure auth := by
  cases h with
  | header before after h1 h2 h3 h4 => exact .header before after (e1.trans h1) h2 h3 h4
  | usual h1 h2 h3 => exact .usual (by rw [e1]; exact h1) (e2.trans h2) h3
  | other h1 h2 h3 h4 h5 h6 h7 h8 h9 => exact .other (by rw [e1]; exact h1) (e2.trans h2) h3 h4 h5 h6 h7 h8 h9

theorem base_target (ip6 : Str → Bool) {sc : AbsoluteUrl.Sc} {socket secure : Bool} {h t : Str}
    (o : Ordinary sc socket secure h t) :
    ∃ u, AbsoluteUrl.baseUrl ip6 sc = .ok u ∧ target u.text = lower h := by
  obtain ⟨h1, _⟩ := AbsoluteUrl.root_slash o.root
  unfold AbsoluteUrl.baseUrl
  dsimp only
  generalize (if endsWith (AbsoluteUrl.appRoot sc) ['/'] = true then AbsoluteUrl.appRoot sc
    else AbsoluteUrl.appRoot sc ++ ['/']) = p at h1 ⊢
  have hm : Made { sc with path := p, query := [], rootPath := AbsoluteUrl.appRoot sc } secure (h ++ t) :=
    made_same (made o) rfl rfl
  obtain ⟨u, e, a, _⟩ := AbsoluteUrl.C89_request_partial ip6
    { sc with path := p, query := [], rootPath := AbsoluteUrl.appRoot sc } socket secure o.scheme _ hm h1
    (fun c hc => by cases hc)
  refine ⟨u, e, target_addresses ?_ o.host o.port a⟩
  show ':' ∉ sc.scheme
  rw [o.scheme]
  exact scheme_colon _ _

theorem url_target (ip6 : Str → Bool) {sc : AbsoluteUrl.Sc} {socket secure : Bool} {h t : Str}
    (o : Ordinary sc socket secure h t) :
    ∃ u, AbsoluteUrl.ofScope ip6 sc = .ok u ∧ target u.text = lower h := by
  obtain ⟨u, e, a, _⟩ := AbsoluteUrl.C89_request_partial ip6 sc socket secure o.scheme _ (made o) o.path o.query
  refine ⟨u, e, target_addresses ?_ o.host o.port a⟩
  rw [o.scheme]
  exact scheme_colon _ _

theorem link_target (ip6 : Str → Bool) {sc : AbsoluteUrl.Sc} {socket secure : Bool} {h t : Str}
    (o : Ordinary sc socket secure h t) {rs : List Reverse.Route} {name : Str} {params : Reverse.Params}
    (own : Own rs name params) {u : Reverse.Url} (hu : Reverse.lookupAny rs name params = .found u) :
    ∃ url, AbsoluteUrl.urlPathFor ip6 sc (some rs) name params = .ok url ∧ target url.text = lower h := by
  obtain ⟨hp, hh⟩ := own u hu
  obtain ⟨url, e, a⟩ := AbsoluteUrl.C89_absolute_partial ip6 sc socket secure o.scheme _ (made o) o.root rs name
      params u
    hu hp
  rw [if_pos hh] at a
  exact ⟨url, e, target_addresses (schemeOf_colon _ _ _) o.host o.port a⟩

theorem page_targets (ip6 : Str → Bool) (a : App) {sc : AbsoluteUrl.Sc} {socket secure : Bool} {h t : Str}
    (o : Ordinary sc socket secure h t) (name : Str) (params : Reverse.Params) (own : Own a.routes name params) :
    ∀ x ∈ given (page ip6 a sc name params), target x = lower h := by
  intro x hx
  obtain ⟨u, hm, rfl⟩ := texts_mem hx
  rcases List.mem_cons.1 hm with e | hm
  · obtain ⟨v, e1, e2⟩ := url_target ip6 o
    rw [← e] at e1
    rw [Except.ok.inj e1]
    exact e2
  rcases List.mem_cons.1 hm with e | hm
  · obtain ⟨v, e1, e2⟩ := base_target ip6 o
    rw [← e] at e1
    rw [Except.ok.inj e1]
    exact e2
  rcases List.mem_cons.1 hm with e | hm
  · cases hl : Reverse.lookupAny a.routes name params with
    | noMatch =>
      unfold AbsoluteUrl.urlPathFor at e
      simp only [hl] at e
      cases e
    | raised =>
      unfold AbsoluteUrl.urlPathFor at e
      simp only [hl] at e
      cases e
    | found w =>
      obtain ⟨v, e1, e2⟩ := link_target ip6 o own hl
      rw [← e] at e1
      rw [Except.ok.inj e1]
      exact e2
  · cases hm

theorem scheme_cases (socket secure : Bool) : (secure = false ∧ (AbsoluteUrl.Spec.scheme socket secure = "http".toList ∨
    AbsoluteUrl.Spec.scheme socket secure = "ws".toList)) ∨ (secure = true ∧
    (AbsoluteUrl.Spec.scheme socket secure = "https".toList ∨ AbsoluteUrl.Spec.scheme socket secure = "wss".toList))
        := by
  cases socket <;> cases secure <;> decide

theorem https_target (ip6 : Str → Bool) {sc : AbsoluteUrl.Sc} {socket : Bool} {h t : Str}
    (o : Ordinary sc socket false h t) :
    ∃ loc, Hosts.httpsRedirect ip6 true (reqOf sc) = .redirect loc ∧ target loc = lower h := by
  have hs : (reqOf sc).scheme = "http".toList ∨ (reqOf sc).scheme = "ws".toList := by
    show sc.scheme = _ ∨ sc.scheme = _
    rw [o.scheme]
    cases socket
    · exact .inl rfl
    · exact .inr rfl
  obtain ⟨loc, auth, e, a, h1, h2⟩ := Hosts.C09_redirect_partial ip6 (reqOf sc) h t hs (reqOf_host o) o.host o.port
      o.path
    o.query
  refine ⟨loc, e, ?_⟩
  by_cases hd : DefaultPort t
  · rw [h1 hd, ← List.append_nil (lower h)] at a
    rw [target_addresses (secure_colon _) (Hosts.lower_plainHost o.host) (.inl rfl) a, RelayResponse.lower_lower]
  · rw [h2 hd] at a
    exact target_addresses (secure_colon _) o.host o.port a

theorem www_plain {h : Str} (hh : PlainHost h) : PlainHost ("www.".toList ++ h) := by
  refine ⟨?_, fun c hc => ?_⟩
  · have : "www.".toList = 'w' :: "ww.".toList := by decide
    rw [this]
    exact fun e => nomatch e
  · rcases List.mem_append.1 hc with hc | hc
    · have all : ∀ d ∈ "www.".toList, ('a' ≤ d ∧ d ≤ 'z') ∨ ('A' ≤ d ∧ d ≤ 'Z') ∨ ('0' ≤ d ∧ d ≤ '9') ∨
        d = '_' ∨ d = '.' ∨ d = '-' ∨ d = '~' := by decide
      exact all c hc
    · exact hh.2 c hc

end Verif.TrustedLinks
