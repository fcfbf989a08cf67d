import Verif.ClientIp.Lemmas

/-!
# Property C18
-/

namespace Verif.ClientIp

open Verif Verif.MultiDict Spec

/-- C18.  When the peer is not a trusted proxy, the headers have no influence on the reported
address. -/
theorem C18_headers_ignored (t : Trusted) (sc sp : Option (Str → Str)) (client : Option Str)
    (headers headers' : Items Str) (h : ¬ Believed t ((sp.getD id) (peerOf client))) :
    getIp t sc sp client headers = getIp t sc sp client headers' := by
  have hf : t.has ((sp.getD id) (peerOf client)) = false := by
    cases hb : t.has ((sp.getD id) (peerOf client)) with
    | false => rfl
    | true => exact absurd ((has_iff t _).1 hb) h
  unfold getIp
  simp only [hf, Bool.false_eq_true, if_false]

/-- C18.  The address reported for an untrusted peer is the peer's. -/
theorem C18_peer (t : Trusted) (peer : Str) (hp : Bare peer) (headers : Items Str)
    (h : ¬ Believed t peer) : getIp t none none (some peer) headers = some peer := by
  have hpeer : peerOf (some peer) = peer := by
    show (if peer = [] then _ else _) = _; rw [if_neg hp.1]
  have hf : t.has peer = false := by
    cases hb : t.has peer with
    | false => rfl
    | true => exact absurd ((has_iff t _).1 hb) h
  unfold getIp
  simp only [hpeer, Option.getD_none, id, hf, Bool.false_eq_true, if_false]
  rw [if_neg hp.2.1, cleanPort_bare _ hp]

/-- The same with a configured `sanitize_clientip`: the sanitised peer. -/
theorem C18_peer_sanitized (t : Trusted) (sc sp : Option (Str → Str)) (peer : Str) (hp : Bare peer)
    (headers : Items Str) (h : ¬ Believed t ((sp.getD id) peer)) :
    getIp t sc sp (some peer) headers = some ((sc.getD id) peer) := by
  have hpeer : peerOf (some peer) = peer := by
    show (if peer = [] then _ else _) = _; rw [if_neg hp.1]
  have hf : t.has ((sp.getD id) peer) = false := by
    cases hb : t.has ((sp.getD id) peer) with
    | false => rfl
    | true => exact absurd ((has_iff t _).1 hb) h
  unfold getIp
  simp only [hpeer, hf, Bool.false_eq_true, if_false]
  rw [if_neg hp.2.1, cleanPort_bare _ hp]

/-- A trusted peer that sends no forwarding header is reported itself. -/
theorem C18_trusted_silent (t : Trusted) (peer : Str) (hp : Bare peer) (headers : Items Str)
    (h1 : getall lower headers "forwarded".toList = [])
    (h2 : getall lower headers "x-forwarded-for".toList = []) :
    getIp t none none (some peer) headers = some peer := by
  have hpeer : peerOf (some peer) = peer := by
    show (if peer = [] then _ else _) = _; rw [if_neg hp.1]
  have hfh : fromHeaders headers peer = peer := by
    unfold fromHeaders MultiDict.get
    rw [h1, h2]
    rfl
  unfold getIp
  simp only [hpeer, Option.getD_none, id, hfh, ite_self]
  rw [if_neg hp.2.1, cleanPort_bare _ hp]

/-- A trusted peer is believed: the first address in `X-Forwarded-For`, when there is no `Forwarded`. -/
theorem C18_trusted_believed (t : Trusted) (peer : Str) (headers : Items Str) (pre a rest : Str)
    (ht : Believed t peer) (hne : peer ≠ []) (ha : Bare a) (hs : ∀ c ∈ a, c ∉ separators)
    (hpre : ∀ c ∈ pre, c ∈ separators) (hr : Ends rest)
    (h1 : getall lower headers "forwarded".toList = [])
    (h2 : getall lower headers "x-forwarded-for".toList = [pre ++ (a ++ rest)]) :
    getIp t none none (some peer) headers = some a := by
  have hpeer : peerOf (some peer) = peer := by
    show (if peer = [] then _ else _) = _; rw [if_neg hne]
  have hx : searchXForwarded (pre ++ (a ++ rest)) = some a := by
    unfold searchXForwarded
    rw [dropWhile_stop hpre ha.1 hs, addressAt_append ha.1 hs hr]
  have hfh : fromHeaders headers peer = a := by
    unfold fromHeaders MultiDict.get
    rw [h1, h2]
    simp only [List.head?_nil, List.head?_cons]
    rw [hx]
    rfl
  unfold getIp
  simp only [hpeer, Option.getD_none, id, (has_iff t peer).2 ht, hfh, if_true]
  rw [if_neg ha.2.1, cleanPort_bare _ ha]

example : Ends ";q=1".toList ∧ Ends [] ∧ (∀ c ∈ " \"".toList, c ∈ separators) ∧
    getIp .all none none (some "10.0.0.9".toList)
      [("x-forwarded-for".toList, " \"6.6.6.6 ,7.7.7.7".toList)] = some "6.6.6.6".toList := by
  refine ⟨?_, ?_, ?_, ?_⟩
  · unfold Ends; decide
  · unfold Ends; decide
  · decide
  · decide +kernel

/-- A trusted peer is believed: the first `for=` of a `Forwarded` header, in any letter case, with or without an
opening quote, whatever `X-Forwarded-For` says. -/
theorem C18_forwarded_believed (t : Trusted) (peer : Str) (headers : Items Str) (pre f a rest : Str) (q : Bool)
    (more : List Str) (ht : Believed t peer) (hne : peer ≠ []) (ha : Bare a) (hs : ∀ c ∈ a, c ∉ separators)
    (hf : lower f = "for=".toList) (hr : Ends rest)
    (hpre : ∀ p x, pre = p ++ x → x ≠ [] → lower ((x ++ f).take 4) ≠ "for=".toList)
    (h1 : getall lower headers "forwarded".toList =
      (pre ++ (f ++ ((if q then ['"'] else []) ++ (a ++ rest)))) :: more) :
    getIp t none none (some peer) headers = some a := by
  have hpeer : peerOf (some peer) = peer := by
    show (if peer = [] then _ else _) = _; rw [if_neg hne]
  have hl : f.length = 4 := by
    have := congrArg List.length hf
    unfold lower at this
    rwa [List.length_map] at this
  have hx : searchForwarded (pre ++ (f ++ ((if q then ['"'] else []) ++ (a ++ rest)))) = some a := by
    refine searchForwarded_skip (forwardedAt_for q hf ha.1 hs hr) ?_ ?_
    · intro e
      have := congrArg List.length e
      rw [List.length_append, hl] at this
      simp at this
    · intro p x e hx
      rw [← List.append_assoc, List.take_append_of_le_length (by rw [List.length_append]; omega)]
      exact hpre p x e hx
  have hfh : fromHeaders headers peer = a := by
    unfold fromHeaders MultiDict.get
    rw [h1]
    simp only [List.head?_cons]
    rw [hx]
    rfl
  unfold getIp
  simp only [hpeer, Option.getD_none, id, (has_iff t peer).2 ht, hfh, if_true]
  rw [if_neg ha.2.1, cleanPort_bare _ ha]

/-- An instance: `proto=http;For="6.6.6.6";by=x`. -/
example : lower "For=".toList = "for=".toList ∧
    (∀ n ≤ 10, lower ((("proto=http;".toList.drop n) ++ "For=".toList).take 4) ≠ "for=".toList) ∧
    getIp .all none none (some "10.0.0.9".toList)
      [("forwarded".toList, "proto=http;For=\"6.6.6.6\";by=x".toList),
       ("x-forwarded-for".toList, "7.7.7.7".toList)] = some "6.6.6.6".toList := by
  refine ⟨?_, ?_, ?_⟩ <;> decide +kernel

/-- A trusted peer whose headers name no address is reported itself: a `Forwarded` header without `for=`
(whatever `X-Forwarded-For` says), or an `X-Forwarded-For` of separators only. -/
theorem C18_trusted_empty (t : Trusted) (peer v : Str) (hp : Bare peer) (headers : Items Str) (more : List Str)
    (h : (getall lower headers "forwarded".toList = v :: more ∧
          ∀ p x, v = p ++ x → lower (x.take 4) ≠ "for=".toList) ∨
        (getall lower headers "forwarded".toList = [] ∧ getall lower headers "x-forwarded-for".toList = v :: more ∧
          ∀ c ∈ v, c ∈ separators)) :
    getIp t none none (some peer) headers = some peer := by
  have hpeer : peerOf (some peer) = peer := by
    show (if peer = [] then _ else _) = _; rw [if_neg hp.1]
  have hfh : fromHeaders headers peer = peer := by
    unfold fromHeaders MultiDict.get
    rcases h with ⟨h1, h2⟩ | ⟨h1, h2, h3⟩
    · rw [h1]
      simp only [List.head?_cons]
      rw [searchForwarded_none v h2]
      rfl
    · rw [h1, h2]
      simp only [List.head?_cons, List.head?_nil]
      rw [searchXForwarded_none v h3]
      rfl
  unfold getIp
  simp only [hpeer, Option.getD_none, id, hfh, ite_self]
  rw [if_neg hp.2.1, cleanPort_bare _ hp]

example : getIp .all none none (some "10.0.0.9".toList)
      [("forwarded".toList, "proto=https".toList), ("x-forwarded-for".toList, "7.7.7.7".toList)] =
        some "10.0.0.9".toList ∧
    getIp .all none none (some "10.0.0.9".toList) [("x-forwarded-for".toList, " , ".toList)] =
      some "10.0.0.9".toList := by
  decide +kernel

/-- The port of a dotted address is left out. -/
theorem C18_port4 (t : Trusted) (a d : Str) (headers : Items Str) (hdot : '.' ∈ a) (hcol : ':' ∉ a)
    (hd : d ≠ []) (hdig : ∀ c ∈ d, '0' ≤ c ∧ c ≤ '9') (h : ¬ Believed t (a ++ ':' :: d)) :
    getIp t none none (some (a ++ ':' :: d)) headers = some a := by
  have hpeer : peerOf (some (a ++ ':' :: d)) = a ++ ':' :: d := by
    show (if _ = [] then _ else _) = _; rw [if_neg (by simp)]
  have hf : t.has (a ++ ':' :: d) = false := by
    cases hb : t.has (a ++ ':' :: d) with
    | false => rfl
    | true => exact absurd ((has_iff t _).1 hb) h
  have hu : a ++ ':' :: d ≠ "unix".toList := by
    intro e
    have : ':' ∈ "unix".toList := by rw [← e]; simp
    exact absurd this (by decide)
  have hc : (a ++ ':' :: d).count ':' = 1 := by
    rw [List.count_append, List.count_cons_self, count_zero_digits hdig, List.count_eq_zero.2 hcol]
  unfold getIp
  simp only [hpeer, Option.getD_none, id, hf, Bool.false_eq_true, if_false]
  rw [if_neg hu]
  unfold cleanPort
  rw [if_pos ⟨List.mem_append_left _ hdot, by omega⟩, cutPort_port _ hd hdig, if_pos rfl]

example : getIp (.only []) none none (some "10.0.0.1:8090".toList) [] = some "10.0.0.1".toList := by
  decide +kernel

/-- The port and the brackets of an IPv6 address are left out. -/
theorem C18_port6 (t : Trusted) (a d : Str) (headers : Items Str) (ha : 2 ≤ a.count ':')
    (hb1 : '[' ∉ a) (hb2 : ']' ∉ a)
    (hd : d ≠ []) (hdig : ∀ c ∈ d, '0' ≤ c ∧ c ≤ '9') (h : ¬ Believed t ('[' :: a ++ ']' :: ':' :: d)) :
    getIp t none none (some ('[' :: a ++ ']' :: ':' :: d)) headers = some a := by
  have e : '[' :: a ++ ']' :: ':' :: d = ('[' :: a ++ [']']) ++ ':' :: d := by simp
  generalize hs : '[' :: a ++ ']' :: ':' :: d = s at h e
  have hne : s ≠ [] := by rw [e]; simp
  have hpeer : peerOf (some s) = s := by
    show (if _ = [] then _ else _) = _; rw [if_neg hne]
  have hf : t.has s = false := by
    cases hb : t.has s with
    | false => rfl
    | true => exact absurd ((has_iff t _).1 hb) h
  have hmem : ':' ∈ s := by rw [e]; simp
  have hu : s ≠ "unix".toList := by
    intro e
    rw [e] at hmem
    exact absurd hmem (by decide)
  have hc : 2 ≤ s.count ':' := by
    rw [e, List.count_append, List.count_append, List.count_cons]
    omega
  unfold getIp
  simp only [hpeer, Option.getD_none, id, hf, Bool.false_eq_true, if_false]
  rw [if_neg hu]
  unfold cleanPort
  rw [if_neg (fun hh => by omega), if_pos hmem, e, cutPort_port _ hd hdig,
    if_pos (by rw [List.getLast?_append]; rfl)]
  have hin : ∀ c ∈ a, (decide (c = '[') || decide (c = ']')) = false := by
    intro c hc
    have n1 : c ≠ '[' := fun e => hb1 (e ▸ hc)
    have n2 : c ≠ ']' := fun e => hb2 (e ▸ hc)
    simp [n1, n2]
  have hane : a ≠ [] := by
    intro e
    rw [e] at ha
    exact absurd ha (by decide)
  have hl : ∀ r, (a ++ r).dropWhile (fun c => decide (c = '[') || decide (c = ']')) = a ++ r := by
    intro r
    cases a with
    | nil => exact absurd rfl hane
    | cons c a => rw [List.cons_append, List.dropWhile_cons_of_neg (by rw [hin c (by simp)]; simp)]
  unfold strip lstrip rstrip
  rw [List.cons_append, List.dropWhile_cons_of_pos (by decide), hl, List.reverse_append,
    List.reverse_cons, List.reverse_nil, List.nil_append, List.cons_append,
    List.dropWhile_cons_of_pos (by decide), List.nil_append,
    dropWhile_none _ a.reverse (fun c hc => hin c (List.mem_reverse.1 hc)), List.reverse_reverse]

example : 2 ≤ "2001:db8::7".toList.count ':' ∧
    getIp (.only []) none none (some "[2001:db8::7]:443".toList) [] = some "2001:db8::7".toList := by
  decide +kernel

/-- A peer without an address (a unix socket) that is not trusted gives no address: the code raises. -/
theorem C18_no_peer (t : Trusted) (sc : Option (Str → Str)) (client : Option Str) (headers : Items Str)
    (hcl : client = none ∨ client = some []) (h : ¬ Believed t "unix".toList) :
    getIp t sc none client headers = none := by
  have hpeer : peerOf client = "unix".toList := by
    rcases hcl with e | e <;> rw [e]
    · rfl
    · rfl
  have hf : t.has "unix".toList = false := by
    cases hb : t.has "unix".toList with
    | false => rfl
    | true => exact absurd ((has_iff t _).1 hb) h
  unfold getIp
  simp only [hpeer, Option.getD_none, id, hf, Bool.false_eq_true, if_false, if_true]

example : ¬ Believed (.only ["10.0.0.9".toList]) "unix".toList := by unfold Believed; decide

/-- Who is believed, by what was configured: everyone for `ALL` or a collection with `*`, else the members; the
settings count when nothing was given. -/
theorem C18_configured (settings : List Str) (arg : TrustedArg) (x : Str) :
    Believed (getTrusted settings arg) x ↔
      (arg = .all ∨ (∃ s, arg = .frozen s ∧ x ∈ s) ∨
        (∃ s, (arg = .other s ∨ (arg = .missing ∧ s = settings)) ∧ ("*".toList ∈ s ∨ x ∈ s))) := by
  cases arg with
  | all => simp [getTrusted, Believed]
  | frozen s => simp [getTrusted, Believed]
  | missing =>
    rw [show getTrusted settings .missing = if "*".toList ∈ settings then .all else .only settings from rfl]
    by_cases hm : "*".toList ∈ settings
    · rw [if_pos hm]
      refine ⟨fun _ => ?_, fun _ => trivial⟩
      exact .inr (.inr ⟨settings, .inr ⟨rfl, rfl⟩, .inl hm⟩)
    · rw [if_neg hm]
      constructor
      · intro hb
        exact .inr (.inr ⟨settings, .inr ⟨rfl, rfl⟩, .inr hb⟩)
      · rintro (e | ⟨s, e, _⟩ | ⟨s, e | ⟨_, e⟩, hh⟩)
        · cases e
        · cases e
        · cases e
        · subst e
          exact hh.resolve_left hm
  | other s =>
    rw [show getTrusted settings (.other s) = if "*".toList ∈ s then .all else .only s from rfl]
    by_cases hm : "*".toList ∈ s
    · rw [if_pos hm]
      refine ⟨fun _ => ?_, fun _ => trivial⟩
      exact .inr (.inr ⟨s, .inl rfl, .inl hm⟩)
    · rw [if_neg hm]
      constructor
      · intro hb
        exact .inr (.inr ⟨s, .inl rfl, .inr hb⟩)
      · rintro (e | ⟨s', e, _⟩ | ⟨s', e | ⟨e, _⟩, hh⟩)
        · cases e
        · cases e
        · injection e with e
          subst e
          exact hh.resolve_left hm
        · cases e

example : Believed (getTrusted ["unix".toList] .missing) "unix".toList ∧
    ¬ Believed (getTrusted ["unix".toList] .missing) "10.0.0.1".toList := by
  rw [← has_iff, ← has_iff]; decide

/-- The middleware reports the address to the application in the scope and in a single `X-Real-IP`
header, whatever the client sent under that name. -/
theorem C18_middleware (t : Trusted) (sc sp : Option (Str → Str)) (client : Option Str)
    (headers : Items Str) (ip : Str) (hs : Items Str)
    (h : update t sc sp client headers = some (ip, hs)) :
    getIp t sc sp client headers = some ip ∧ getall lower hs "x-real-ip".toList = [ip] := by
  unfold update at h
  cases hg : getIp t sc sp client headers with
  | none => rw [hg] at h; cases h
  | some a =>
    rw [hg] at h
    simp only [Option.map_some] at h
    injection h with h
    injection h with h1 h2
    subst h1 h2
    refine ⟨rfl, ?_⟩
    rw [getall_setitem, if_pos rfl]

/-- Instances of the hypotheses: addresses as servers report them, an untrusted peer with forged
headers, a trusted one. -/
example : Bare "10.0.0.1".toList ∧ Bare "2001:db8::1".toList ∧ Bare "::ffff:10.0.0.1".toList ∧
    ¬ Believed (.only ["10.0.0.9".toList]) "10.0.0.1".toList ∧
    getIp (.only ["10.0.0.9".toList]) none none (some "10.0.0.1".toList)
      [("X-Forwarded-For".toList, "6.6.6.6".toList)] = some "10.0.0.1".toList ∧
    getIp (.only ["10.0.0.9".toList]) none none (some "10.0.0.9".toList)
      [("Forwarded".toList, "proto=http;For=\"[2001:db8::7]:443\"".toList)] =
      some "2001:db8::7".toList := by
  refine ⟨?_, ?_, ?_, ?_, ?_, ?_⟩
  · unfold Bare; decide
  · unfold Bare; decide
  · unfold Bare; decide
  · unfold Believed; decide
  · decide +kernel
  · decide +kernel

/-- Limits of what is believed: of a list in `X-Forwarded-For` the first address is taken, which a
client behind a proxy that appends to the list chooses freely; a frozen set with `*` trusts nobody;
and without a peer address nothing is reported. -/
theorem C18_limits :
    getIp (.only ["10.0.0.9".toList]) none none (some "10.0.0.9".toList)
      [("x-forwarded-for".toList, "6.6.6.6, 10.0.0.1".toList)] = some "6.6.6.6".toList ∧
    (getTrusted [] (.frozen ["*".toList])).has "10.0.0.9".toList = false ∧
    (getTrusted [] (.other ["*".toList])).has "10.0.0.9".toList = true ∧
    getIp (.only []) none none none [] = none := by
  refine ⟨?_, ?_, ?_, ?_⟩ <;> decide +kernel

end Verif.ClientIp
