import Verif.SessionTheft.Lemmas

/-!
# C152: a stolen session is worth nothing elsewhere

English: with sessions bound to addresses, behind any relays, everything in the session that a client is given was put
there by requests from the client's own address, whatever cookies it presents and whatever it says about its address; a
client that stays at its address keeps its session.
-/

namespace Verif.SessionTheft.Props

open Verif Spec Session

/-- In every history, whatever the clients present: what is in a session, apart from the address, was put there by
handlers of requests with the same address, as the application finds it. -/
theorem C152_origin_partial (a : App) (hr : Reads a.site.signer) (past : List Hit) (h : Hit)
    (hp : Possible a (h :: past)) (hc : ∀ q ∈ past, Careful a q) (ip : Str) (s : Sess) (ha : h.address a = some ip)
    (hs : h.seen a = some s) :
    ∀ kv ∈ s, kv = ("real-clientip".toList, some ip) ∨ ∃ q ∈ past, q.address a = some ip ∧ Put a kv q :=
  origin a hr past.length past h (Nat.le_refl _) hp hc ip s ha hs

/-- If the clients come by truthful relays or directly, these requests came from the client's own address. -/
theorem C152_theft_partial (a : App) (hr : Reads a.site.signer) (past : List Hit) (h : Hit)
    (hp : Possible a (h :: past)) (hc : ∀ q ∈ past, Careful a q)
    (hk : ∀ q ∈ h :: past, Relayed a q ∨ Direct a q) :
    ∃ s, h.seen a = some s ∧
      ∀ kv ∈ s, kv = ("real-clientip".toList, some h.client) ∨ ∃ q ∈ past, q.client = h.client ∧ Put a kv q := by
  have ha := known a h (hk h List.mem_cons_self)
  have hs : h.seen a = some (fix h.client (h.loaded a).1) := by
    unfold Hit.seen
    rw [ha]
    rfl
  refine ⟨_, hs, fun kv hkv => ?_⟩
  rcases C152_origin_partial a hr past h hp hc _ _ ha hs kv hkv with h1 | ⟨q, hq, h1, h2⟩
  · exact .inl h1
  · rw [known a q (hk q (List.mem_cons_of_mem _ hq))] at h1
    exact .inr ⟨q, hq, Option.some.inj h1, h2⟩

/-- A client that presents the session of a request from its own address is given that session as it was left; anybody
else is given an empty one. -/
theorem C152_kept_partial (a : App) (hr : Reads a.site.signer) (q h : Hit) (hc : Careful a q) (s : Sess)
    (hl : q.left a = some s) (hd : aget h.cookies a.site.name = some (a.site.signer.sign q.time s))
    (hu : a.site.signer.unsign h.time (a.site.signer.sign q.time s) ≠ none) (hq : Relayed a q ∨ Direct a q)
    (hh : Relayed a h ∨ Direct a h) :
    h.seen a = some (if q.client = h.client then s else [("real-clientip".toList, some h.client)]) := by
  have hload : (h.loaded a).1 = s := by
    unfold Hit.loaded opened load SessionFlow.Site.conf
    dsimp only
    rw [hd]
    cases hx : a.site.signer.unsign h.time (a.site.signer.sign q.time s) with
    | none => exact absurd hx hu
    | some x =>
      have : x = s := hr _ _ _ _ hx
      simp only [hx, this]
  obtain ⟨old, ho, hrec⟩ := left_recorded a q hc s hl
  rw [known a q hq] at ho
  have ho : q.client = old := Option.some.inj ho
  unfold Hit.seen
  rw [known a h hh, hload]
  show some (fix h.client s) = _
  congr 1
  by_cases he : q.client = h.client
  · rw [if_pos he]
    exact fix_same _ _ (by rw [hrec, ← ho, he])
  · rw [if_neg he]
    unfold fix
    rw [show aget s ipKey = some (some old) from hrec]
    exact if_pos (fun e => he (ho.trans e))

/-! ## Examples -/

/-- An application that trusts one proxy. -/
def shop (proxy : String) : App := ⟨SessionFlow.site 'x' (some 60) "/" false, .only [proxy.toList]⟩

/-- Somebody logs in. -/
def victim (r : Proxies.Hop) : Hit :=
  ⟨0, [r], "1.2.3.4".toList, [], true, fun s => aset s "u".toList (some "a".toList), []⟩

/-- The session after it, for an address. -/
def session (ip : String) : Sess := [("real-clientip".toList, some ip.toList), ("u".toList, some "a".toList)]

/-- Somebody else presents that cookie. -/
def thief (r : Proxies.Hop) (ip : String) (more : List (Str × Str)) : Hit :=
  ⟨1, [r], "6.6.6.6".toList, ("Cookie".toList,
    "session=\"".toList ++ (shop "").site.signer.sign 0 (session ip) ++ "\"".toList) :: more, true, fun s => s, []⟩

theorem shop_reads (p : String) : Reads (shop p).site.signer := by
  intro t t' s x h
  have ht := SessionFlow.site_timed 'x' (some 60) "/" false (by decide)
  by_cases hf : SessionFlow.Spec.Fresh (shop p).site t t'
  · by_cases hle : t ≤ t'
    · rw [show (shop p).site.signer.unsign t' ((shop p).site.signer.sign t s) = some s from
        ht.accepts t t' s hle hf] at h
      exact (Option.some.inj h).symm
    · have : (shop p).site.signer.unsign t' ((shop p).site.signer.sign t s) = none := by
        show (if 'x' = 'x' then match untick 0 (tick t ++ encSess s) with
            | some (t, r) => if t ≤ t' ∧ SessionFlow.recent (some 60) t t' = true then decSess r.length r else none
            | none => none
          else none) = none
        rw [if_pos rfl, untick_tick]
        simp only [Nat.zero_add]
        rw [if_neg (fun hh => hle hh.1)]
      rw [this] at h
      cases h
  · rw [show (shop p).site.signer.unsign t' ((shop p).site.signer.sign t s) = none from ht.rejects t t' s hf] at h
    cases h

theorem victim_careful (p : String) (r : Proxies.Hop) : Careful (shop p) (victim r) :=
  ⟨fun s => aget_aset_ne s _ _ _ (by decide), fun _ h => by cases h⟩

/-- The thief knows the cookie from the answer to the victim. -/
theorem stolen (p : String) (r : Proxies.Hop) (ip : String) (more : List (Str × Str))
    (h1 : (victim r).cookies = []) (h2 : (shop p).site.field 0 (session ip) ∈ (victim r).answer (shop p))
    (h3 : aget (thief r ip more).cookies "session".toList = some ((shop "").site.signer.sign 0 (session ip))) :
    Possible (shop p) [thief r ip more, victim r] := by
  refine ⟨fun d s hd _ => ?_, fun d s hd _ => ?_, trivial⟩
  · refine ⟨victim r, List.mem_singleton_self _, session ip, ?_, h2⟩
    have hd : aget (thief r ip more).cookies "session".toList = some d := hd
    rw [h3] at hd
    exact (Option.some.inj hd).symm
  · rw [h1] at hd
    cases hd

open Proxies.Props in
example : Possible (shop "10.0.0.1") [thief guard "1.2.3.4" [("X-Forwarded-For".toList, "1.2.3.4".toList)],
      victim guard] ∧
    (thief guard "1.2.3.4" [("X-Forwarded-For".toList, "1.2.3.4".toList)]).seen (shop "10.0.0.1") =
      some [("real-clientip".toList, some "6.6.6.6".toList)] := by
  refine ⟨stolen _ _ _ _ ?_ ?_ ?_, ?_⟩ <;> decide +kernel

open Proxies.Props in
example : Relayed (shop "10.0.0.1") (victim guard) :=
  ⟨guard, [], rfl, by decide +kernel, by decide +kernel, by decide +kernel, by decide +kernel, by decide +kernel,
    by show _ ∈ _; decide +kernel⟩

open Proxies.Props in
example : (victim guard).left (shop "10.0.0.1") = some (session "1.2.3.4") ∧
    Hit.seen (shop "10.0.0.1") { thief guard "1.2.3.4" [] with client := "1.2.3.4".toList } =
      some (session "1.2.3.4") := by
  constructor <;> decide +kernel

/-- By default relays pass on what clients say about addresses: the thief who names the address of the victim is given
the session of the victim. -/
theorem C152_lie_false : ∃ (a : App) (h q : Hit), Reads a.site.signer ∧ Possible a [h, q] ∧ Careful a q ∧
    q.client ≠ h.client ∧ h.relays = q.relays ∧ (∀ r ∈ h.relays, a.trusted.has r.address = true) ∧
    q.left a ≠ q.seen a ∧ h.seen a = q.left a := by
  refine ⟨shop "10.0.0.1", thief Proxies.Props.front "1.2.3.4" [("X-Forwarded-For".toList, "1.2.3.4".toList)],
    victim Proxies.Props.front, shop_reads _, stolen _ _ _ _ ?_ ?_ ?_, victim_careful _ _, ?_, rfl, ?_, ?_, ?_⟩ <;>
    decide +kernel

/-- By default applications trust no relay that comes by the network: all clients of a relay have its address, and the
thief needs no lie. -/
theorem C152_relay_false : ∃ (a : App) (h q : Hit), Reads a.site.signer ∧ Possible a [h, q] ∧ Careful a q ∧
    q.client ≠ h.client ∧ a.trusted = ClientIp.getTrusted ["unix".toList] .missing ∧
    (∀ k ∈ Proxies.Spec.naming, Proxies.Spec.fields h.headers k = []) ∧
    q.left a ≠ q.seen a ∧ h.seen a = q.left a := by
  refine ⟨shop "unix", thief Proxies.Props.guard "10.0.0.1" [],
    victim Proxies.Props.guard, shop_reads _, stolen _ _ _ _ ?_ ?_ ?_, victim_careful _ _, ?_, ?_, ?_, ?_, ?_⟩
  case refine_5 =>
    unfold ClientIp.getTrusted
    rw [if_neg (by decide)]
    rfl
  all_goals decide +kernel

/-- A handler that clears the session at the login, to start afresh, clears the address as well: the thief is given the
session, which is then bound to the address of the thief. -/
theorem C152_cleared_false : ∃ (a : App) (h q : Hit), Reads a.site.signer ∧ Possible a [h, q] ∧
    (∀ x ∈ [h, q], Relayed a x) ∧ q.client ≠ h.client ∧ (∀ s, q.handler s = [("u".toList, some "a".toList)]) ∧
    h.seen a = some [("u".toList, some "a".toList), ("real-clientip".toList, some h.client)] := by
  have key : ∀ v : Str, v = "1.2.3.4".toList ∨ v = "6.6.6.6".toList → ∀ t hs g,
      Relayed (shop "10.0.0.1") ⟨t, [Proxies.Props.guard], v, hs, true, g, []⟩ := by
    intro v hv t hs g
    have hw : Proxies.Spec.Writable v := by
      rcases hv with rfl | rfl <;> decide +kernel
    have hb : ClientIp.Spec.Believed (.only ["10.0.0.1".toList]) (Proxies.Spec.peerAfter v [Proxies.Props.guard]) := by
      rcases hv with rfl | rfl <;> (show _ ∈ _; decide +kernel)
    exact ⟨Proxies.Props.guard, [], rfl, by decide +kernel, by decide +kernel, by decide +kernel, by decide +kernel,
      hw, hb⟩
  refine ⟨shop "10.0.0.1", ⟨1, [Proxies.Props.guard], "6.6.6.6".toList, [("Cookie".toList, "session=\"".toList ++
      (shop "").site.signer.sign 0 [("u".toList, some "a".toList)] ++ "\"".toList)], true, fun s => s, []⟩,
    { victim Proxies.Props.guard with handler := fun _ => [("u".toList, some "a".toList)] }, shop_reads _,
    ⟨fun d s hd _ => ?_, fun d s hd _ => ?_, trivial⟩, ?_, ?_, fun _ => rfl, ?_⟩
  · refine ⟨_, List.mem_singleton_self _, [("u".toList, some "a".toList)], ?_, by decide +kernel⟩
    have e : aget (Hit.cookies ⟨1, [Proxies.Props.guard], "6.6.6.6".toList, [("Cookie".toList, "session=\"".toList ++
        (shop "").site.signer.sign 0 [("u".toList, some "a".toList)] ++ "\"".toList)], true, fun s => s, []⟩)
        "session".toList = some ((shop "").site.signer.sign 0 [("u".toList, some "a".toList)]) := by decide +kernel
    exact Option.some.inj (hd.symm.trans e)
  · have e : Hit.cookies { victim Proxies.Props.guard with
        handler := fun _ => [("u".toList, some "a".toList)] } = [] := by decide +kernel
    rw [e] at hd
    cases hd
  · intro x hx
    rcases List.mem_cons.mp hx with rfl | hx
    · exact key _ (.inr rfl) _ _ _
    · rw [List.mem_singleton.mp hx]
      exact key _ (.inl rfl) _ _ _
  · decide +kernel
  · decide +kernel

end Verif.SessionTheft.Props
