import Verif.Proxies.Lemmas

/-!
# C144: an application behind reverse proxies knows its client
-/

namespace Verif.Proxies.Props

open Verif Verif.Proxies Verif.RelayHeaders Verif.RelayHeaders.Spec Spec

/-! ## Examples used below -/

/-- A relay as configured by default, reached by https. -/
def front : Hop := ⟨{ baseHost := "mid".toList }, "10.0.0.1".toList, "https".toList⟩

/-- A second one behind it, reached by http. -/
def mid : Hop := ⟨{ baseHost := "app".toList }, "10.0.0.2".toList, "http".toList⟩

/-- The first relay when it removes what the client says about addresses. -/
def guard : Hop :=
  ⟨{ baseHost := "mid".toList, dropRequest := ["Forwarded".toList, "X-Forwarded-For".toList] },
    "10.0.0.1".toList, "https".toList⟩

/-- A relay that keeps the host. -/
def keeper : Hop := ⟨{ baseHost := "app".toList, preserveHost := true }, "10.0.0.3".toList, "https".toList⟩

instance (l : List Str) (k : Str) : Decidable (Listed k l) :=
  decidable_of_iff (∃ n ∈ l, lower k = lower n) Iff.rfl

instance (r : Hop) (k : Str) : Decidable (Plain r k) := inferInstanceAs (Decidable (∀ kv ∈ _, _))

instance (r : Hop) : Decidable (Removes r) := inferInstanceAs (Decidable (∀ k ∈ _, _))

instance (r : Hop) : Decidable (Keeps r) := inferInstanceAs (Decidable (¬ _))

instance (hs : List (Str × Str)) : Decidable (Silent hs) := inferInstanceAs (Decidable (∀ k ∈ _, _))

instance (a : Str) : Decidable (Writable a) := by
  unfold Writable ClientIp.Spec.Bare
  exact inferInstance

/-! ## The list of addresses -/

/-- **C144, the list.**  Consider the last relay that removes what was said before it, or the first relay
when the client says nothing.  However many relays follow, the application receives one list: the
address from which the request came to that relay, then the addresses of the relays passed, without
the last one, which is the peer. -/
theorem C144_list (pre post : List Hop) (r : Hop) (client : Str) (headers : List (Str × Str))
    (hstart : (pre = [] ∧ Silent headers) ∨ Removes r) (hplain : ∀ x ∈ r :: post, ∀ k ∈ naming, Plain x k)
    (hkeep : ∀ x ∈ post, Keeps x) (hne : peerAfter client pre ≠ []) (haddr : ∀ x ∈ r :: post, x.address ≠ []) :
    let s := through (pre ++ r :: post) (client, wire headers)
    s.1 = peerAfter client (pre ++ r :: post) ∧ fields s.2 "forwarded".toList = [] ∧
    fields s.2 "x-forwarded-for".toList =
      [joinWith ", ".toList (peerAfter client pre :: (r :: post).dropLast.map (·.address))] := by
  intro s
  have hsay := list_says pre post r client headers hstart hplain hkeep hne haddr
  exact ⟨through_peer _ _ _, hsay.fwd, hsay.lst⟩

example : Silent [("Accept".toList, "*".toList)] ∧ Keeps mid ∧ peerAfter "1.2.3.4".toList [] = "1.2.3.4".toList ∧
    fields (through [front, mid] ("1.2.3.4".toList, wire [("Accept".toList, "*".toList)])).2
      "x-forwarded-for".toList = ["1.2.3.4, 10.0.0.1".toList] := by
  refine ⟨?_, ?_, ?_, ?_⟩ <;> decide +kernel

/-- **C144, the client is found.**  When the client says nothing about addresses, or the first relay removes
it, and the other relays pass the list on, an application that trusts the last relay finds the
address of the client. -/
theorem C144_client_partial (t : ClientIp.Trusted) (r : Hop) (post : List Hop) (client : Str)
    (headers : List (Str × Str)) (hstart : Silent headers ∨ Removes r)
    (hplain : ∀ x ∈ r :: post, ∀ k ∈ naming, Plain x k) (hkeep : ∀ x ∈ post, Keeps x)
    (haddr : ∀ x ∈ r :: post, x.address ≠ []) (hw : Writable client)
    (ht : ClientIp.Spec.Believed t (peerAfter client (r :: post))) :
    seen t (r :: post) client headers = some client := by
  have hsay := list_says [] post r client headers (hstart.imp (⟨rfl, ·⟩) id) hplain hkeep hw.1.1 haddr
  unfold seen
  simp only
  rw [through_peer]
  exact found t _ client _ _ hsay hw (peerAfter_ne client r post haddr) ht

example : Removes guard ∧ Keeps mid ∧ (∀ x ∈ [guard, mid], ∀ k ∈ naming, Plain x k) ∧
    Writable "1.2.3.4".toList ∧
    seen (.only ["10.0.0.2".toList]) [guard, mid] "1.2.3.4".toList
      [("X-Forwarded-For".toList, "6.6.6.6".toList), ("forwarded".toList, "for=7.7.7.7".toList)] =
        some "1.2.3.4".toList := by
  refine ⟨?_, ?_, ?_, ?_, ?_⟩ <;> decide +kernel

/-- **C144, a relay that removes hides what is before it.**  When a later relay removes what it is told, the
address found is the one of the relay before it, not the client's. -/
theorem C144_hidden (t : ClientIp.Trusted) (pre post : List Hop) (q r : Hop) (client : Str)
    (headers : List (Str × Str)) (hr : Removes r) (hplain : ∀ x ∈ r :: post, ∀ k ∈ naming, Plain x k)
    (hkeep : ∀ x ∈ post, Keeps x) (haddr : ∀ x ∈ r :: post, x.address ≠ []) (hw : Writable q.address)
    (ht : ClientIp.Spec.Believed t (peerAfter client (pre ++ q :: r :: post))) :
    seen t (pre ++ q :: r :: post) client headers = some q.address := by
  have hp : peerAfter client (pre ++ [q]) = q.address := by
    unfold peerAfter
    rw [List.getLast?_concat]
    rfl
  have hl : pre ++ q :: r :: post = (pre ++ [q]) ++ r :: post := by simp
  have hsay := list_says (pre ++ [q]) post r client headers (.inr hr) hplain hkeep (hp ▸ hw.1.1) haddr
  rw [hp] at hsay
  rw [hl] at ht ⊢
  unfold seen
  simp only
  rw [through_peer]
  refine found t _ q.address _ _ hsay hw ?_ ht
  rw [peerAfter_append]
  exact peerAfter_ne client r post haddr

/-- **C144 is false when every relay is careful**: two relays with the same safe configuration, and the
application takes the first relay for the client. -/
theorem C144_hidden_false : Removes guard ∧
    seen .all [guard, { guard with address := "10.0.0.9".toList }] "1.2.3.4".toList [] =
      some "10.0.0.1".toList := by
  constructor <;> decide +kernel

/-- **C144, an untrusted relay.**  An application that does not trust the last relay takes it for the
client, whatever the headers say. -/
theorem C144_untrusted (t : ClientIp.Trusted) (rs : List Hop) (client : Str) (headers : List (Str × Str))
    (hb : ClientIp.Spec.Bare (peerAfter client rs)) (ht : ¬ ClientIp.Spec.Believed t (peerAfter client rs)) :
    seen t rs client headers = some (peerAfter client rs) := by
  unfold seen
  simp only
  rw [through_peer]
  exact ClientIp.C18_peer t _ hb _ ht

example : ClientIp.Spec.Bare "10.0.0.1".toList ∧
    seen (.only []) [front] "1.2.3.4".toList [("x-forwarded-for".toList, "6.6.6.6".toList)] =
      some "10.0.0.1".toList := by
  refine ⟨?_, by decide +kernel⟩
  unfold ClientIp.Spec.Bare
  decide +kernel

/-- **C144, a client that lies.**  When no relay removes the list, a client that sends one is taken for the
first address in it, any address it likes. -/
theorem C144_lie (t : ClientIp.Trusted) (r : Hop) (post : List Hop) (client a : Str) (more : List Str)
    (hplain : ∀ x ∈ r :: post, ∀ k ∈ naming, Plain x k) (hkeep : ∀ x ∈ r :: post, Keeps x)
    (haddr : ∀ x ∈ r :: post, x.address ≠ []) (hc : client ≠ []) (hw : Writable a)
    (ht : ClientIp.Spec.Believed t (peerAfter client (r :: post))) :
    seen t (r :: post) client [("x-forwarded-for".toList, joinWith ", ".toList (a :: more))] = some a := by
  have h0 : Says (wire [("x-forwarded-for".toList, joinWith ", ".toList (a :: more))]) (a :: more) := by
    refine ⟨low_wire _, ?_, ?_, ?_⟩
    · rw [fields_wire, fields_one, if_neg (by decide)]
    · rw [fields_wire, fields_one, if_pos (by decide)]
    · exact joinWith_ne a more hw.1.1
  have hsay := says_run (r :: post) client _ _ h0 hc fun x hx => ⟨haddr x hx, hkeep x hx, hplain x hx⟩
  unfold seen
  simp only
  rw [through_peer]
  exact found t _ a _ _ hsay hw (peerAfter_ne client r post haddr) ht

/-- **C144 is false by default**: with relays as configured by default and an application that trusts
exactly the last of them, a client chooses its address. -/
theorem C144_lie_false : ¬ ∀ (t : ClientIp.Trusted) (rs : List Hop) (client : Str) (headers : List (Str × Str)),
    rs ≠ [] → (∀ r ∈ rs, r.cfg.extra = []) → Writable client →
    ClientIp.Spec.Believed t (peerAfter client rs) → seen t rs client headers = some client := by
  intro h
  have := h (.only ["10.0.0.1".toList]) [front] "1.2.3.4".toList
    [("x-forwarded-for".toList, joinWith ", ".toList ["6.6.6.6".toList])] (by simp)
    (by intro r hr; rw [List.mem_singleton.1 hr]; rfl) (by decide +kernel) (by show _ ∈ _; decide +kernel)
  rw [C144_lie (.only ["10.0.0.1".toList]) front [] "1.2.3.4".toList "6.6.6.6".toList [] (by decide)
    (by decide) (by decide) (by decide) (by decide +kernel) (by show _ ∈ _; decide +kernel)] at this
  revert this
  decide +kernel

/-- **C144, the other field.**  The same with `Forwarded`, which no relay writes and which is believed before
the list: removing the list alone does not help. -/
theorem C144_other (t : ClientIp.Trusted) (r : Hop) (post : List Hop) (client a : Str)
    (hplain : ∀ x ∈ r :: post, Plain x "forwarded".toList)
    (hkeep : ∀ x ∈ r :: post, ¬ Listed "forwarded".toList x.cfg.dropRequest)
    (haddr : ∀ x ∈ r :: post, x.address ≠ []) (hw : Writable a)
    (ht : ClientIp.Spec.Believed t (peerAfter client (r :: post))) :
    seen t (r :: post) client [("forwarded".toList, "for=".toList ++ a)] = some a := by
  have h0 : fields (wire [("forwarded".toList, "for=".toList ++ a)]) "forwarded".toList =
      ["for=".toList ++ a] := by
    rw [fields_wire, fields_one, if_pos (by decide)]
  have hf := fwd_run (r :: post) _ client _ (low_wire _) h0 fun x hx => ⟨hkeep x hx, hplain x hx⟩
  unfold seen
  simp only
  rw [through_peer]
  apply ClientIp.C18_forwarded_believed t _ _ [] "for=".toList a [] false [] ht
    (peerAfter_ne client r post haddr) hw.1 hw.2 (by decide) (fun _ h => nomatch h)
  · intro p x e hx
    exact absurd (List.append_eq_nil_iff.1 e.symm).2 hx
  · rw [getall_fields _ _ low_fwd, hf]
    simp

example : ¬ Listed "forwarded".toList ["X-Forwarded-For".toList] ∧
    seen (.only ["10.0.0.1".toList])
      [{ front with cfg := { front.cfg with dropRequest := ["X-Forwarded-For".toList] } }] "1.2.3.4".toList
      [("Forwarded".toList, "for=6.6.6.6".toList)] = some "6.6.6.6".toList := by
  constructor <;> decide +kernel

/-! ## The protocol and the host -/

/-- **C144, the protocol.**  What the application is told is how the request came to the last relay. -/
theorem C144_proto (pre : List Hop) (r : Hop) (client : Str) (headers : List (Str × Str))
    (hp : Plain r "x-forwarded-proto".toList) (hs : r.scheme = "http".toList ∨ r.scheme = "https".toList) :
    fields (through (pre ++ [r]) (client, wire headers)).2 "x-forwarded-proto".toList = [r.scheme] := by
  rw [through_append]
  show fields (pass r _ _) _ = _
  rw [fields_pass r _ _ (through_low pre client _ (low_wire _)) _ (by decide) hp,
    RelayHeaders.C60_proto_partial r.cfg _ r.scheme _ hs]
  rfl

/-- **C144 is false of the protocol behind two relays**: the client came by https, and the application is
told http. -/
theorem C144_proto_false : front.scheme = "https".toList ∧
    fields (through [front, mid] ("1.2.3.4".toList, [])).2 "x-forwarded-proto".toList = ["http".toList] := by
  constructor <;> decide +kernel

/-- **C144, the host.**  Relays that preserve the host bring it to the application. -/
theorem C144_host (rs : List Hop) (client h : Str) (headers : List (Str × Str))
    (hh : fields headers "host".toList = [h])
    (hr : ∀ r ∈ rs, r.cfg.preserveHost = true ∧ ¬ Listed "host".toList r.cfg.dropRequest ∧
      Plain r "host".toList) :
    fields (through rs (client, wire headers)).2 "host".toList = [h] :=
  host_run rs h client _ (low_wire _) (by rw [fields_wire]; exact hh) hr

/-- **C144, redirects to https never end.**  A site is reached by https; its relays preserve the host and the
last one calls the application by http.  Every request is redirected to the very URL it was made for
(up to a written default port), so that following the redirect leads to the same redirect. -/
theorem C144_loop (ip6 : Str → Bool) (rs : List Hop) (client h t path query : Str)
    (headers : List (Str × Str)) (hh : fields headers "host".toList = [h ++ t])
    (hr : ∀ r ∈ rs, r.cfg.preserveHost = true ∧ ¬ Listed "host".toList r.cfg.dropRequest ∧
      Plain r "host".toList)
    (h1 : Hosts.Spec.PlainHost h) (h2 : Hosts.Spec.PortText t) (h3 : Hosts.Spec.PlainPath path)
    (h4 : Hosts.Spec.PlainQuery query) :
    ∃ loc authority, redirected ip6 "http".toList rs client headers path query = .redirect loc ∧
      Hosts.Spec.Addresses loc "https".toList authority path query ∧
      (¬ Hosts.Spec.DefaultPort t → authority = h ++ t) := by
  have hhost : MultiDict.get lower (through rs (client, wire headers)).2 "host".toList = some (h ++ t) := by
    unfold MultiDict.get
    rw [getall_fields _ _ low_host, C144_host rs client _ headers hh hr]
    rfl
  obtain ⟨loc, authority, a1, a2, -, a4⟩ := Hosts.C09_redirect_partial ip6
    ⟨"http".toList, some (h ++ t), none, path, query⟩ h t (.inl rfl) rfl h1 h2 h3 h4
  refine ⟨loc, authority, ?_, a2, a4⟩
  unfold redirected
  simp only
  rw [hhost]
  exact a1

example : redirected (fun _ => true) "http".toList [keeper] "1.2.3.4".toList
      [("Host".toList, "shop.example".toList)] "/cart".toList "a=1".toList =
    .redirect "https://shop.example/cart?a=1".toList := by decide +kernel

/-- **C144 is false of secure requests**: the client came by https and is sent to https. -/
theorem C144_loop_false : ¬ ∀ (rs : List Hop) (client : Str) (headers : List (Str × Str)) (path query : Str),
    (∀ r ∈ rs.head?, r.scheme = "https".toList) → rs ≠ [] →
    ∀ loc, redirected (fun _ => true) "http".toList rs client headers path query ≠ .redirect loc := by
  intro h
  exact h [keeper] "1.2.3.4".toList [("Host".toList, "shop.example".toList)] "/cart".toList "a=1".toList
    (by intro r hr; rw [← Option.some.inj hr]; rfl) (by simp) "https://shop.example/cart?a=1".toList
    (by decide +kernel)

end Verif.Proxies.Props
