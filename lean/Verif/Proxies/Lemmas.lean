import Verif.Proxies.Spec
import Verif.RelayHeaders.Props
import Verif.RelayHeaders.ForwardedProps
import Verif.RelayResponse.Lemmas
import Verif.ClientIp.Props
import Verif.Hosts.Props

/-!
# Helper lemmas for C144
-/

namespace Verif.Proxies

open Verif Verif.RelayHeaders Verif.RelayHeaders.Spec Spec

/-- All names are in lower case. -/
def Low (hs : List (Str × Str)) : Prop := ∀ kv ∈ hs, lower kv.1 = kv.1

theorem low_wire (hs : List (Str × Str)) : Low (wire hs) := by
  intro kv h
  obtain ⟨x, -, rfl⟩ := List.mem_map.1 h
  exact RelayResponse.lower_lower _

theorem getall_fields (hs : List (Str × Str)) (k : Str) (hk : lower k = k) :
    MultiDict.getall lower hs k = fields hs k := by
  unfold MultiDict.getall fields
  rw [hk]
  induction hs with
  | nil => rfl
  | cons x xs ih =>
    by_cases h : lower x.1 = k
    · simp [h, ih]
    · simp [h, ih]

theorem fields_wire (hs : List (Str × Str)) (k : Str) : fields (wire hs) k = fields hs k := by
  unfold fields wire
  induction hs with
  | nil => rfl
  | cons x xs ih =>
    by_cases h : lower x.1 = k
    · have h' : lower k = k := by rw [← h, RelayResponse.lower_lower]
      simp only [List.map_cons, List.filter_cons, h, h', decide_true, if_true, ih]
    · have h' : ¬ lower (lower x.1) = k := fun e => h ((RelayResponse.lower_lower _).symm.trans e)
      simp only [List.map_cons, List.filter_cons, h, h', decide_false, Bool.false_eq_true, if_false, ih]

theorem lastField_low (hs : List (Str × Str)) (h : Low hs) (k : Str) :
    lastField hs k = (fields hs k).getLast? := by
  unfold lastField fields
  rw [List.getLast?_map]
  congr 2
  apply List.filter_congr
  intro x hx
  rw [h x hx]

/-- The fields of a dictionary without other spellings of the name. -/
theorem fields_dict (d : List (Str × Str)) (hd : (d.map (·.1)).Nodup) (k : Str)
    (hk : ∀ kv ∈ d, lower kv.1 = k → kv.1 = k) (hl : lower k = k) : fields d k = (aget d k).toList := by
  rw [← RelayResponse.exact_nodup d hd k]
  unfold fields RelayResponse.exact
  congr 1
  apply List.filter_congr
  intro x hx
  by_cases e : x.1 = k
  · simp [e, hl]
  · have : lower x.1 ≠ k := fun h => e (hk x hx h)
    simp [e, this]

theorem nodup_prepare (cfg : Config) (c : Client) (hs : List (Str × Str)) :
    ((prepareRequest cfg c hs).map (·.1)).Nodup := by
  unfold prepareRequest withForwarding
  apply Environ.nodup_aset
  apply Environ.nodup_aset
  apply Environ.nodup_aset
  have h : ((collected cfg hs).map (·.1)).Nodup := by
    unfold collected
    apply Environ.nodup_aupdate
    apply Environ.nodup_aupdate
    simp
  unfold withHost
  split
  · exact h
  · exact Environ.nodup_aset _ _ _ h

/-- The fields with a name after a relay. -/
theorem fields_pass (r : Hop) (p : Str) (hs : List (Str × Str)) (hlow : Low hs) (k : Str)
    (hl : lower k = k) (hp : Plain r k) :
    fields (pass r p hs) k =
      (aget (prepareRequest r.cfg (clientOf (some p) r.scheme) hs) k).toList := by
  unfold pass
  rw [fields_wire]
  apply fields_dict _ (nodup_prepare _ _ _) _ _ hl
  intro kv hkv e
  rcases C37_request_partial r.cfg _ hs kv.1 kv.2 hkv with h | h | h
  · have : lower kv.1 = kv.1 := by
      have : ∀ x ∈ ownHeaders, lower x = x := by decide
      exact this _ h
    rw [← this, e]
  · exact absurd e (hp kv h)
  · rw [← hlow kv h.1, e]

theorem plain_ne (r : Hop) (k : Str) (hl : lower k = k) (hp : Plain r k) : ∀ kv ∈ r.cfg.extra, kv.1 ≠ k :=
  fun kv h e => hp kv h (by rw [e, hl])

theorem aget_collected_dropped (r : Hop) (hs : List (Str × Str)) (k : Str) (hl : lower k = k)
    (hp : Plain r k) (hd : Listed k r.cfg.dropRequest) : aget (collected r.cfg hs) k = none := by
  rw [Environ.aget_none_iff]
  intro hm
  obtain ⟨kv, h1, h2⟩ := List.mem_map.1 hm
  rcases mem_collected r.cfg hs kv h1 with h | h
  · exact h.2.2 (h2 ▸ hd)
  · exact plain_ne r k hl hp kv h h2

theorem low_for : lower "x-forwarded-for".toList = "x-forwarded-for".toList := by decide
theorem low_fwd : lower "forwarded".toList = "forwarded".toList := by decide
theorem low_host : lower "host".toList = "host".toList := by decide
theorem own_fwd : "forwarded".toList ∉ ownHeaders := by decide
theorem hop_fwd : ¬ OneHop "forwarded".toList := by rw [oneHop_iff]; decide

/-- The value of `Forwarded` is what the relay collected. -/
theorem aget_fwd (cfg : Config) (c : Client) (hs : List (Str × Str)) :
    aget (prepareRequest cfg c hs) "forwarded".toList = aget (collected cfg hs) "forwarded".toList := by
  unfold prepareRequest
  rw [aget_withForwarding _ _ _ own_fwd, aget_withHost _ _ _ (by decide)]

/-- The value of the list is made from what the relay collected. -/
theorem aget_for' (cfg : Config) (c : Client) (hs : List (Str × Str)) :
    aget (prepareRequest cfg c hs) "x-forwarded-for".toList =
      some (forwardedFor (aget (collected cfg hs) "x-forwarded-for".toList) c.ip) := by
  unfold prepareRequest withForwarding
  dsimp only
  rw [aget_aset_ne _ _ _ _ (by decide), aget_aset_ne _ _ _ _ (by decide), aget_aset_self,
    aget_withHost _ _ _ (by decide)]

/-- The request names a list of addresses. -/
structure Says (hs : List (Str × Str)) (l : List Str) : Prop where
  low : Low hs
  fwd : fields hs "forwarded".toList = []
  lst : fields hs "x-forwarded-for".toList = [joinWith ", ".toList l]
  ne : joinWith ", ".toList l ≠ []

/-- What is collected under a name that is dropped or missing. -/
theorem collected_none (r : Hop) (hs : List (Str × Str)) (hlow : Low hs) (k : Str) (hl : lower k = k)
    (hh : ¬ OneHop k) (hp : Plain r k) (h : fields hs k = [] ∨ Listed k r.cfg.dropRequest) :
    aget (collected r.cfg hs) k = none := by
  by_cases hd : Listed k r.cfg.dropRequest
  · exact aget_collected_dropped r hs k hl hp hd
  · rw [aget_collected r.cfg hs k ⟨hd, plain_ne r k hl hp⟩ hh, lastField_low hs hlow]
    rcases h with h | h
    · rw [h]; rfl
    · exact absurd h hd

/-- A relay that starts the list. -/
theorem says_first (r : Hop) (p : Str) (hs : List (Str × Str)) (hlow : Low hs) (hne : p ≠ [])
    (h : Silent hs ∨ Removes r) (hp : ∀ k ∈ naming, Plain r k) : Says (pass r p hs) [p] := by
  have m1 : "forwarded".toList ∈ naming := by decide
  have m2 : "x-forwarded-for".toList ∈ naming := by decide
  refine ⟨low_wire _, ?_, ?_, hne⟩
  · rw [fields_pass r p hs hlow _ low_fwd (hp _ m1), aget_fwd,
      collected_none r hs hlow _ low_fwd hop_fwd (hp _ m1) (h.imp (· _ m1) (· _ m1))]
    rfl
  · rw [fields_pass r p hs hlow _ low_for (hp _ m2), aget_for',
      collected_none r hs hlow _ low_for oneHop_for (hp _ m2) (h.imp (· _ m2) (· _ m2))]
    rfl

/-- A relay that adds to the list. -/
theorem says_next (r : Hop) (p : Str) (hs : List (Str × Str)) (l : List Str) (h : Says hs l) (hne : p ≠ [])
    (hk : Keeps r) (hp : ∀ k ∈ naming, Plain r k) : Says (pass r p hs) (l ++ [p]) := by
  have m1 : "forwarded".toList ∈ naming := by decide
  have m2 : "x-forwarded-for".toList ∈ naming := by decide
  have hl : l ≠ [] := fun e => h.ne (by rw [e]; rfl)
  have hj : joinWith ", ".toList (l ++ [p]) = joinWith ", ".toList l ++ ", ".toList ++ p := by
    rw [SignedUrl.joinWith_snoc _ _ _ hl]
  refine ⟨low_wire _, ?_, ?_, ?_⟩
  · rw [fields_pass r p hs h.low _ low_fwd (hp _ m1), aget_fwd,
      collected_none r hs h.low _ low_fwd hop_fwd (hp _ m1) (.inl h.fwd)]
    rfl
  · rw [fields_pass r p hs h.low _ low_for (hp _ m2), aget_for',
      aget_collected r.cfg hs _ ⟨hk, plain_ne r _ low_for (hp _ m2)⟩ oneHop_for, lastField_low hs h.low,
      h.lst]
    show [forwardedFor (some (joinWith ", ".toList l)) p] = _
    unfold forwardedFor
    simp only
    rw [if_pos ⟨h.ne, hne⟩, hj]
  · rw [hj]
    intro e
    exact hne (List.append_eq_nil_iff.1 e).2

/-- The addresses that relays add to the list, the request coming from `p`. -/
def added : Str → List Hop → List Str
  | _, [] => []
  | p, r :: rs => p :: added r.address rs

theorem says_run (rs : List Hop) : ∀ (p : Str) (hs : List (Str × Str)) (l : List Str), Says hs l → p ≠ [] →
    (∀ r ∈ rs, r.address ≠ [] ∧ Keeps r ∧ ∀ k ∈ naming, Plain r k) →
    Says (through rs (p, hs)).2 (l ++ added p rs) := by
  induction rs with
  | nil => intro p hs l h _ _; rw [show l ++ added p [] = l from List.append_nil l]; exact h
  | cons r rs ih =>
    intro p hs l h hne hr
    obtain ⟨h1, h2, h3⟩ := hr r (by simp)
    have := ih r.address (pass r p hs) (l ++ [p]) (says_next r p hs l h hne h2 h3) h1
      fun x hx => hr x (List.mem_cons_of_mem _ hx)
    rw [List.append_assoc] at this
    exact this

theorem through_append (a b : List Hop) (s : Str × List (Str × Str)) :
    through (a ++ b) s = through b (through a s) := by
  induction a generalizing s with
  | nil => rfl
  | cons r rs ih => exact ih _

theorem through_peer (rs : List Hop) (p : Str) (hs : List (Str × Str)) :
    (through rs (p, hs)).1 = peerAfter p rs := by
  induction rs generalizing p hs with
  | nil => rfl
  | cons r rs ih =>
    show (through rs (r.address, pass r p hs)).1 = _
    rw [ih]
    unfold peerAfter
    cases rs with
    | nil => rfl
    | cons x xs =>
      rw [List.getLast?_cons_cons]
      rw [List.getLast?_eq_some_getLast (l := x :: xs) (by simp)]
      rfl

theorem added_eq (p : Str) (r : Hop) (rs : List Hop) :
    added p (r :: rs) = p :: (r :: rs).dropLast.map (·.address) := by
  induction rs generalizing p r with
  | nil => rfl
  | cons x xs ih =>
    show p :: added r.address (x :: xs) = _
    rw [ih]
    rfl

theorem through_low (rs : List Hop) (p : Str) (hs : List (Str × Str)) (h : Low hs) :
    Low (through rs (p, hs)).2 := by
  induction rs generalizing p hs with
  | nil => exact h
  | cons r rs ih => exact ih _ _ (low_wire _)

/-- A host that every relay preserves. -/
theorem host_run (rs : List Hop) (h : Str) : ∀ (p : Str) (hs : List (Str × Str)), Low hs →
    fields hs "host".toList = [h] →
    (∀ r ∈ rs, r.cfg.preserveHost = true ∧ ¬ Listed "host".toList r.cfg.dropRequest ∧ Plain r "host".toList) →
    fields (through rs (p, hs)).2 "host".toList = [h] := by
  induction rs with
  | nil => exact fun _ _ _ hh _ => hh
  | cons r rs ih =>
    intro p hs hlow hh hr
    obtain ⟨h1, h2, h3⟩ := hr r (by simp)
    refine ih r.address (pass r p hs) (low_wire _) ?_ fun x hx => hr x (List.mem_cons_of_mem _ hx)
    rw [fields_pass r p hs hlow _ low_host h3]
    have : aget (prepareRequest r.cfg (clientOf (some p) r.scheme) hs) "host".toList = some h := by
      unfold prepareRequest withForwarding
      dsimp only
      rw [aget_aset_ne _ _ _ _ (by decide), aget_aset_ne _ _ _ _ (by decide),
        aget_aset_ne _ _ _ _ (by decide)]
      unfold withHost
      rw [if_pos h1, aget_collected r.cfg hs _ ⟨h2, plain_ne r _ low_host h3⟩ oneHop_host,
        lastField_low hs hlow, hh]
      rfl
    rw [this]
    rfl

/-- A `Forwarded` field that every relay lets through. -/
theorem fwd_run (rs : List Hop) (v : Str) : ∀ (p : Str) (hs : List (Str × Str)), Low hs →
    fields hs "forwarded".toList = [v] →
    (∀ r ∈ rs, ¬ Listed "forwarded".toList r.cfg.dropRequest ∧ Plain r "forwarded".toList) →
    fields (through rs (p, hs)).2 "forwarded".toList = [v] := by
  induction rs with
  | nil => exact fun _ _ _ hh _ => hh
  | cons r rs ih =>
    intro p hs hlow hh hr
    obtain ⟨h2, h3⟩ := hr r (by simp)
    refine ih r.address (pass r p hs) (low_wire _) ?_ fun x hx => hr x (List.mem_cons_of_mem _ hx)
    rw [fields_pass r p hs hlow _ low_fwd h3, aget_fwd,
      aget_collected r.cfg hs _ ⟨h2, plain_ne r _ low_fwd h3⟩ hop_fwd, lastField_low hs hlow, hh]
    rfl

/-- The first address of a list is found. -/
theorem found (t : ClientIp.Trusted) (peer a : Str) (rest : List Str) (hs : List (Str × Str))
    (h : Says hs (a :: rest)) (hw : Writable a) (hne : peer ≠ []) (ht : ClientIp.Spec.Believed t peer) :
    ClientIp.getIp t none none (some peer) hs = some a := by
  obtain ⟨tail, h1, h2⟩ : ∃ tail, joinWith ", ".toList (a :: rest) = a ++ tail ∧ ClientIp.Spec.Ends tail := by
    cases rest with
    | nil => exact ⟨[], (List.append_nil _).symm, fun c hc => nomatch hc⟩
    | cons b bs =>
      refine ⟨", ".toList ++ joinWith ", ".toList (b :: bs), List.append_assoc _ _ _, ?_⟩
      intro c hc
      have hc : some ',' = some c := hc
      rw [← Option.some.inj hc]
      decide
  apply ClientIp.C18_trusted_believed t peer hs [] a tail ht hne hw.1 hw.2 (fun _ h => nomatch h) h2
  · rw [getall_fields _ _ low_fwd, h.fwd]
  · rw [getall_fields _ _ low_for, h.lst, h1]
    rfl

theorem joinWith_ne (a : Str) (l : List Str) (h : a ≠ []) : joinWith ", ".toList (a :: l) ≠ [] := by
  cases l with
  | nil => exact h
  | cons b bs =>
    intro e
    have e : (a ++ ", ".toList) ++ joinWith ", ".toList (b :: bs) = [] := e
    exact h (List.append_eq_nil_iff.1 (List.append_eq_nil_iff.1 e).1).1

theorem peerAfter_ne (client : Str) (r : Hop) (rs : List Hop) (h : ∀ x ∈ r :: rs, x.address ≠ []) :
    peerAfter client (r :: rs) ≠ [] := by
  unfold peerAfter
  rw [List.getLast?_eq_some_getLast (l := r :: rs) (by simp)]
  exact h _ (List.getLast_mem _)

theorem list_says (pre post : List Hop) (r : Hop) (client : Str) (headers : List (Str × Str))
    (hstart : (pre = [] ∧ Silent headers) ∨ Removes r) (hplain : ∀ x ∈ r :: post, ∀ k ∈ naming, Plain x k)
    (hkeep : ∀ x ∈ post, Keeps x) (hne : peerAfter client pre ≠ []) (haddr : ∀ x ∈ r :: post, x.address ≠ []) :
    Says (through (pre ++ r :: post) (client, wire headers)).2
      (peerAfter client pre :: (r :: post).dropLast.map (·.address)) := by
  have h0 : Says (pass r (peerAfter client pre) (through pre (client, wire headers)).2)
      [peerAfter client pre] := by
    apply says_first _ _ _ (through_low pre client _ (low_wire _)) hne _ (hplain r (by simp))
    rcases hstart with ⟨h1, h2⟩ | h
    · left
      rw [h1]
      intro k hk
      show fields (wire headers) k = []
      rw [fields_wire]
      exact h2 k hk
    · exact .inr h
  have := says_run post r.address _ _ h0 (haddr r (by simp)) fun x hx =>
    ⟨haddr x (List.mem_cons_of_mem _ hx), hkeep x hx, hplain x (List.mem_cons_of_mem _ hx)⟩
  rw [through_append]
  show Says (through post (r.address, pass r (through pre (client, wire headers)).1
    (through pre (client, wire headers)).2)).2 _
  rw [through_peer, ← added_eq]
  exact this

theorem peerAfter_append (client : Str) (pre post : List Hop) (r : Hop) :
    peerAfter client (pre ++ r :: post) = peerAfter client (r :: post) := by
  unfold peerAfter
  rw [List.getLast?_append, List.getLast?_eq_some_getLast (l := r :: post) (by simp)]
  rfl

theorem fields_one (k v n : Str) : fields [(k, v)] n = if lower k = n then [v] else [] := by
  unfold fields
  by_cases h : lower k = n
  · rw [if_pos h, List.filter_cons_of_pos (by simp [h])]
    rfl
  · rw [if_neg h, List.filter_cons_of_neg (by simp [h])]
    rfl

end Verif.Proxies
