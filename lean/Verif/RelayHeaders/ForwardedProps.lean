import Verif.RelayHeaders.ForwardedLemmas

/-!
# C60: the forwarding headers tell the upstream server about the client
-/

namespace Verif.RelayHeaders

open Verif Spec

/-- **C60, addresses.**  The addresses sent upstream are those of the client's last field followed by the
address of the client itself. -/
theorem C60_for_partial (cfg : Config) (scheme ip : Str) (headers : List (Str × Str)) (ha : Address ip)
    (hu : Untouched cfg "x-forwarded-for".toList) :
    ∃ v, aget (prepareRequest cfg (clientOf (some ip) scheme) headers) "x-forwarded-for".toList = some v ∧
      addresses v =
        (match lastField headers "x-forwarded-for".toList with
          | none => []
          | some e => if e = [] then [] else addresses e) ++ [ip] := by
  refine ⟨_, aget_for cfg _ headers hu, ?_⟩
  have hip : addresses ip = [ip] := by
    unfold addresses
    rw [splitOn_of_not_mem _ _ ha.2.1, List.map_singleton, SetCookie.strip_none _ _ ha.2.2.1 ha.2.2.2]
  have hsp : addresses (' ' :: ip) = [ip] := by
    unfold addresses
    rw [splitOn_of_not_mem, List.map_singleton, SetCookie.strip_space _ _ (by decide) ha.2.2.1 ha.2.2.2]
    intro hm
    rcases List.mem_cons.mp hm with e | hm
    · exact absurd e (by decide)
    · exact ha.2.1 hm
  show addresses (forwardedFor _ ip) = _
  cases lastField headers "x-forwarded-for".toList with
  | none => exact hip
  | some e =>
    unfold forwardedFor
    simp only
    by_cases he : e = []
    · rw [if_neg (fun h => h.1 he), if_pos ha.1, if_pos he, hip]
      rfl
    · rw [if_pos ⟨he, ha.1⟩, if_neg he]
      have : e ++ ", ".toList ++ ip = e ++ ',' :: ' ' :: ip := by
        rw [List.append_assoc]; rfl
      rw [this]
      show (splitOn ',' (e ++ ',' :: ' ' :: ip)).map _ = _
      rw [splitOn_append, List.map_append]
      congr 1

example : aget (prepareRequest { baseHost := "up".toList } (clientOf (some "10.0.0.9".toList) "http".toList)
      [("x-forwarded-for".toList, "1.2.3.4".toList)]) "x-forwarded-for".toList = some "1.2.3.4, 10.0.0.9".toList ∧
    addresses "1.2.3.4, 10.0.0.9".toList = ["1.2.3.4".toList, "10.0.0.9".toList] := by decide +kernel

/-- **C60, unknown client.**  When the server does not know the address, the field stays as the client sent
it, or is empty. -/
theorem C60_unknown (cfg : Config) (scheme : Str) (headers : List (Str × Str))
    (hu : Untouched cfg "x-forwarded-for".toList) :
    aget (prepareRequest cfg (clientOf none scheme) headers) "x-forwarded-for".toList =
      some ((lastField headers "x-forwarded-for".toList).getD []) := by
  rw [aget_for cfg _ headers hu]
  show some (forwardedFor _ []) = _
  cases lastField headers "x-forwarded-for".toList with
  | none => rfl
  | some e =>
    unfold forwardedFor
    simp only
    rw [if_neg (fun h => h.2 rfl), if_neg (fun h => h rfl)]
    rfl

example : aget (prepareRequest { baseHost := "up".toList } (clientOf none "http".toList)
    [("x-forwarded-for".toList, "1.2.3.4".toList)]) "x-forwarded-for".toList = some "1.2.3.4".toList := by
  decide +kernel

/-- **C60, protocol.**  For HTTP requests the protocol sent upstream is the one the client used, whatever
the client's own headers say. -/
theorem C60_proto_partial (cfg : Config) (ip : Option Str) (scheme : Str) (headers : List (Str × Str))
    (hs : scheme = "http".toList ∨ scheme = "https".toList) :
    aget (prepareRequest cfg (clientOf ip scheme) headers) "x-forwarded-proto".toList = some scheme := by
  unfold prepareRequest withForwarding
  dsimp only
  rw [aget_aset_ne _ _ _ _ (by decide), aget_aset_self]
  rcases hs with rfl | rfl <;> rfl

example : aget (prepareRequest { baseHost := "up".toList } (clientOf none "https".toList)
    [("x-forwarded-proto".toList, "http".toList)]) "x-forwarded-proto".toList = some "https".toList := by
  decide +kernel

/-- **C60 is false of websockets**: over an encrypted connection (`wss`) the upstream server is told `http`. -/
theorem C60_proto_false : ¬ ∀ (cfg : Config) (scheme : Str) (headers : List (Str × Str)), Encrypted scheme →
    aget (prepareRequest cfg (clientOf none scheme) headers) "x-forwarded-proto".toList = some "https".toList := by
  intro h
  exact absurd (h { baseHost := "up".toList } "wss".toList [] (.inr rfl)) (by decide +kernel)

/-- **C60, host.**  With `preserve_host` the upstream server is told the host the client asked for. -/
theorem C60_host_partial (cfg : Config) (c : Client) (headers : List (Str × Str)) (host : Str)
    (hp : cfg.preserveHost = true) (hu : Untouched cfg "host".toList)
    (hh : lastField headers "host".toList = some host) :
    aget (prepareRequest cfg c headers) "x-forwarded-host".toList = some host ∧
    aget (prepareRequest cfg c headers) "host".toList = some host := by
  have hc : aget (withHost cfg (collected cfg headers)) "host".toList = some host := by
    unfold withHost
    rw [if_pos hp, aget_collected cfg headers _ hu oneHop_host, hh]
  unfold prepareRequest withForwarding
  dsimp only
  constructor
  · rw [aget_aset_self, aget_aset_ne _ _ _ _ (by decide), aget_aset_ne _ _ _ _ (by decide), hc]
    rfl
  · rw [aget_aset_ne _ _ _ _ (by decide), aget_aset_ne _ _ _ _ (by decide), aget_aset_ne _ _ _ _ (by decide), hc]

example : aget (prepareRequest { baseHost := "up".toList, preserveHost := true } ⟨[], false⟩
    [("host".toList, "front".toList)]) "x-forwarded-host".toList = some "front".toList := by decide +kernel

/-- **C60, host without `preserve_host`.**  Both fields name the upstream server. -/
theorem C60_rewritten (cfg : Config) (c : Client) (headers : List (Str × Str)) (hp : cfg.preserveHost = false)
    (hb : cfg.baseHost ≠ []) :
    aget (prepareRequest cfg c headers) "x-forwarded-host".toList = some cfg.baseHost ∧
    aget (prepareRequest cfg c headers) "host".toList = some cfg.baseHost := by
  have hc : aget (withHost cfg (collected cfg headers)) "host".toList = some cfg.baseHost := by
    unfold withHost
    rw [if_neg (by rw [hp]; exact Bool.false_ne_true), aget_aset_self, if_pos hb]
  unfold prepareRequest withForwarding
  dsimp only
  constructor
  · rw [aget_aset_self, aget_aset_ne _ _ _ _ (by decide), aget_aset_ne _ _ _ _ (by decide), hc]
    rfl
  · rw [aget_aset_ne _ _ _ _ (by decide), aget_aset_ne _ _ _ _ (by decide), aget_aset_ne _ _ _ _ (by decide), hc]

example : aget (prepareRequest { baseHost := "up".toList } ⟨[], false⟩
    [("host".toList, "front".toList)]) "host".toList = some "up".toList := by decide +kernel

/-- **C60 is false of the host by default**: the host the client asked for is told nowhere. -/
theorem C60_host_false : ¬ ∀ (cfg : Config) (c : Client) (headers : List (Str × Str)) (host : Str),
    lastField headers "host".toList = some host →
    aget (prepareRequest cfg c headers) "x-forwarded-host".toList = some host := by
  intro h
  have := h { baseHost := "up".toList } ⟨[], false⟩ [("host".toList, "front".toList)] "front".toList (by decide)
  exact absurd this (by decide +kernel)

/-- **C60 is false of several fields**: of two `X-Forwarded-For` fields, which mean one list, the first is
lost, and with it the first address. -/
theorem C60_several_false : ¬ ∀ (cfg : Config) (ip : Str) (a b v : Str), Address ip →
    aget (prepareRequest cfg (clientOf (some ip) "http".toList)
      [("x-forwarded-for".toList, a), ("x-forwarded-for".toList, b)]) "x-forwarded-for".toList = some v →
    addresses v = addresses a ++ addresses b ++ [ip] := by
  intro h
  have := h { baseHost := "up".toList } "3".toList "1".toList "2".toList "2, 3".toList
    ⟨by decide, by decide, by (intro c hc; rw [← Option.some.inj hc]; decide),
      by (intro c hc; rw [← Option.some.inj hc]; decide)⟩ (by decide +kernel)
  exact absurd this (by decide +kernel)

end Verif.RelayHeaders
