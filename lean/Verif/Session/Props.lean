import Verif.Session.Lemmas
import Verif.Session.Instance
import Verif.Dependencies.Lemmas

/-!
# Properties C15 and C16
-/

namespace Verif.Session

open Verif Spec Cookies.Spec

/-! ## C15 -/

/-- C15.  For a client that stores cookies and any sequence of ordinary requests, each session seen is
the session left when the response before started (the first request is free).  Stated for
a middleware without `populate_session`. -/
theorem C15_persist_partial (c : Config) (alive : Nat → Nat → Prop) (hg : Good c.signer alive)
    (hn : NameOk c.name) (hp : c.populate = none) (rs : List Request) (jar : Jar) (hj : JarOk jar)
    (hr : ∀ r ∈ rs, Ordinary c r) (hch : Chain alive rs) :
    Carried (requests c plain jar rs) := by
  induction rs generalizing jar with
  | nil => trivial
  | cons r rs ih =>
    obtain ⟨hj', hnext⟩ := request_step c alive hg hn hp plain jar hj r (hr r (by simp))
    cases rs with
    | nil => trivial
    | cons r' rs =>
      refine ⟨?_, ih _ hj' (fun x hx => hr x (by simp [hx])) hch.2⟩
      exact (request_seen c plain _ r').trans (hnext r'.time r'.others hch.1 (hr r' (by simp)).2.2)

/-- A session the handler empties is removed at the client, if the client had a valid one. -/
theorem C15_emptied (c : Config) (inner : Str → Sess → Sess) (jar : Jar) (r : Request)
    (hr : Ordinary c r) (hn : NameOk c.name) (hj : JarOk jar)
    (hv : ∃ v s, jar = some v ∧
      c.signer.unsign r.time (Url.unquote (Cookies.unquoteCookie v)) = some s)
    (he : (request c inner jar r).2.1 = []) : (request c inner jar r).2.2 = none := by
  obtain ⟨h1, h2, h3⟩ := hr
  obtain ⟨v, s, rfl, hs⟩ := hv
  have ho : opened c r.time (Cookies.cookies (cookieHeader c.name (some v) r.others)) = (s, false) := by
    unfold opened
    rw [load_jar c hn _ hj r.time r.others h3, jarLoad, hs]
  unfold request at he ⊢
  simp only [h1, h2, if_true, ho] at he ⊢
  rw [he]
  rfl

/-- A cookie with an invalid signature counts as an empty session, and stays at the client if the
handler leaves the session empty. -/
theorem C15_invalid (c : Config) (hn : NameOk c.name) (hp : c.populate = none) (jar : Jar)
    (hj : JarOk jar) (r : Request) (hr : Ordinary c r)
    (hv : ∀ v, jar = some v → c.signer.unsign r.time (Url.unquote (Cookies.unquoteCookie v)) = none) :
    (request c plain jar r).1 = [] ∧
    ((request c plain jar r).2.1 = [] → (request c plain jar r).2.2 = jar) := by
  obtain ⟨h1, h2, h3⟩ := hr
  have ho : opened c r.time (Cookies.cookies (cookieHeader c.name jar r.others)) = ([], true) := by
    rw [opened_plain c hp, load_jar c hn _ hj r.time r.others h3]
    cases jar with
    | none => rfl
    | some v => rw [jarLoad, hv v rfl]
  unfold request
  simp only [h1, h2, if_true, ho]
  refine ⟨rfl, ?_⟩
  intro he
  rw [he]
  rfl

/-- When the application sets the session cookie itself, that is what the client stores (or removes),
whatever is in the session. -/
theorem C15_own_cookie (c : Config) (inner : Str → Sess → Sess) (jar : Jar) (r : Request) (hr : r.http = true)
    (v : Str) :
    (r.already = some ⟨v, false⟩ → (request c inner jar r).2.2 = some v) ∧
    (r.already = some ⟨v, true⟩ → (request c inner jar r).2.2 = none) := by
  unfold request
  simp only [hr, if_true]
  constructor <;> intro h <;> rw [h] <;> rfl

/-- A middleware and a client for the instances. -/
def cfg : Config := ⟨ticks, "session".toList, none⟩

/-- A request from `1.1.1.1` unless said otherwise. -/
def req (h : Sess → Sess) : Request := ⟨0, true, "1.1.1.1".toList, [("o".toList, "1".toList)], h, none⟩

theorem req_ordinary (h : Sess → Sess) : Ordinary cfg (req h) := by
  refine ⟨rfl, rfl, ?_⟩
  intro kv hkv
  rw [List.mem_singleton.1 hkv]
  refine ⟨by decide, ⟨?_, ?_⟩, ⟨?_, ?_⟩, by decide, by decide, by decide⟩ <;>
    (intro c hc; injection hc with hc; subst hc; decide)

/-- The header that removes the cookie, and the one that sets it. -/
example : close cfg 0 false false [] = some ⟨"null".toList, true⟩ ∧ close cfg 0 true false [] = none ∧
    (close cfg 0 true false [("a".toList, none)]).map (·.expired) = some false ∧
    (req fun s => s).http = true := by decide +kernel

/-- A sequence that meets the hypotheses: a value is set, seen, removed, gone. -/
example : NameOk cfg.name ∧ JarOk none ∧
    Chain (fun _ _ => True) [req fun s => aset s "a".toList none, req fun s => s, req fun _ => [], req fun s => s] ∧
    requests cfg plain none
      [req fun s => aset s "a".toList none, req fun s => s, req fun _ => [], req fun s => s] =
      [([], [("a".toList, none)]), ([("a".toList, none)], [("a".toList, none)]),
       ([("a".toList, none)], []), ([], [])] := by
  refine ⟨⟨⟨?_, ?_⟩, by decide, by decide⟩, fun v hv => (by cases hv), ⟨trivial, trivial, trivial, trivial⟩, ?_⟩
  · intro c hc; injection hc with hc; subst hc; decide
  · intro c hc; injection hc with hc; subst hc; decide
  · decide +kernel

/-- The full statement fails in three cases: with `populate_session` an emptied session is filled
again; what a websocket leaves in the session is lost; and so is the session when the application
sets a cookie of that name itself. -/
theorem C15_persist_false :
    (requests { cfg with populate := some [("p".toList, none)] } plain none
      [req fun _ => [], req fun s => s]).map (·.1) = [[("p".toList, none)], [("p".toList, none)]] ∧
    (requests cfg plain none
      [{ req (fun s => aset s "a".toList none) with http := false }, req fun s => s]) =
      [([], [("a".toList, none)]), ([], [])] ∧
    (requests cfg plain none
      [{ req (fun s => aset s "a".toList none) with already := some ⟨"v".toList, false⟩ }, req fun s => s]) =
      [([], [("a".toList, none)]), ([], [])] := by
  refine ⟨?_, ?_, ?_⟩ <;> decide +kernel

/-! ## C16 -/

/-- Whenever the application runs, the recorded address is the address of the client. -/
theorem C16_recorded (c : Config) (jar : Jar) (r : Request) :
    recorded (request c fix jar r).1 = some (some r.ip) := by
  have : ∀ s, recorded (fix r.ip s) = some (some r.ip) := by
    intro s
    unfold fix recorded
    split
    · exact aget_aset_self _ _ _
    · exact aget_aset_self _ _ _
    · rename_i old h
      split
      · rfl
      · rename_i he
        have : old = r.ip := Classical.byContradiction he
        rw [← this]; exact h
  rw [request_seen]
  exact this _

/-- C16.  When handlers leave the recorded address alone, then for every sequence of requests from
any addresses: the same address sees the session left before, another address sees nothing of it. -/
theorem C16_bound_partial (c : Config) (alive : Nat → Nat → Prop) (hg : Good c.signer alive)
    (hn : NameOk c.name) (hp : c.populate = none) (rs : List Request) (jar : Jar) (hj : JarOk jar)
    (hr : ∀ r ∈ rs, Ordinary c r) (hch : Chain alive rs)
    (hk : ∀ r ∈ rs, ∀ s, recorded (r.handler s) = recorded s) :
    Bound ((rs.map (·.ip)).zip (requests c fix jar rs)) := by
  induction rs generalizing jar with
  | nil => trivial
  | cons r rs ih =>
    obtain ⟨hj', hnext⟩ := request_step c alive hg hn hp fix jar hj r (hr r (by simp))
    cases rs with
    | nil => trivial
    | cons r' rs =>
      have hleft : recorded (request c fix jar r).2.1 = some (some r.ip) := by
        have h1 := C16_recorded c jar r
        have h2 : (request c fix jar r).2.1 = r.handler (request c fix jar r).1 := by
          unfold request
          simp only
          split <;> rfl
        rw [h2, hk r (by simp), h1]
      have hseen : (request c fix (request c fix jar r).2.2 r').1 = fix r'.ip (request c fix jar r).2.1 := by
        rw [← hnext r'.time r'.others hch.1 (hr r' (by simp)).2.2, request_seen]
      refine ⟨?_, ?_, ih _ hj' (fun x hx => hr x (by simp [hx])) hch.2 (fun x hx => hk x (by simp [hx]))⟩
      · intro he
        simp only
        rw [hseen, fix]
        unfold recorded at hleft
        rw [show aget (request c fix jar r).2.1 ipKey = _ from hleft]
        simp only
        rw [if_neg (fun e => e he.symm)]
      · intro he
        simp only
        rw [hseen, fix]
        unfold recorded at hleft
        rw [show aget (request c fix jar r).2.1 ipKey = _ from hleft]
        simp only
        rw [if_pos (fun e => he e.symm)]
        rfl

/-- The same for one step and any handler: when the session left records an address, a request from
another address sees nothing of it. -/
theorem C16_switch (ip old : Str) (s : Sess) (h : recorded s = some (some old)) (hne : old ≠ ip) :
    fix ip s = [("real-clientip".toList, some ip)] := by
  unfold fix recorded at *
  rw [show aget s ipKey = _ from h]
  simp only
  rw [if_pos hne]
  rfl

/-- A handler that meets the hypothesis of `C16_bound_partial`, and what two addresses see. -/
example : (∀ s : Sess, recorded (aset s "a".toList none) = recorded s) ∧
    requests cfg fix none
      [req fun s => aset s "a".toList none, { req (fun s => s) with ip := "2.2.2.2".toList }] =
      [([(ipKey, some "1.1.1.1".toList)], [(ipKey, some "1.1.1.1".toList), ("a".toList, none)]),
       ([(ipKey, some "2.2.2.2".toList)], [(ipKey, some "2.2.2.2".toList)])] := by
  refine ⟨fun s => aget_aset_ne s _ _ _ (by decide), by decide +kernel⟩

/-- The full statement fails: a handler that clears the session before it stores the login loses the
recorded address, and a client at another address sees the login. -/
theorem C16_cleared_false :
    requests cfg fix none
      [req fun _ => [("user".toList, some "1".toList)],
       { req (fun s => s) with ip := "2.2.2.2".toList }] =
      [([(ipKey, some "1.1.1.1".toList)], [("user".toList, some "1".toList)]),
       ([("user".toList, some "1".toList), (ipKey, some "2.2.2.2".toList)],
        [("user".toList, some "1".toList), (ipKey, some "2.2.2.2".toList)])] := by
  decide +kernel

/-- **C15**, of sessions that are filled at the start: a client without a valid session sees what new sessions are
filled with, and if the handler empties the session, nothing is sent to the client. -/
theorem C15_populated (c : Config) (hn : NameOk c.name) (p : Sess) (hp : c.populate = some p)
    (hd : (p.map (·.1)).Nodup) (jar : Jar) (hj : JarOk jar) (r : Request) (hr : Ordinary c r)
    (hv : ∀ v, jar = some v → c.signer.unsign r.time (Url.unquote (Cookies.unquoteCookie v)) = none) :
    (∀ kv, kv ∈ (request c plain jar r).1 ↔ kv ∈ p) ∧
    ((request c plain jar r).2.1 = [] → (request c plain jar r).2.2 = jar) := by
  obtain ⟨h1, h2, h3⟩ := hr
  have ho : opened c r.time (Cookies.cookies (cookieHeader c.name jar r.others)) = (aupdate [] p, true) := by
    unfold opened
    rw [load_jar c hn _ hj r.time r.others h3, hp]
    cases jar with
    | none => rfl
    | some v => rw [jarLoad, hv v rfl]
  have hu : aupdate [] p = p := Dependencies.aupdate_nil_nodup p hd
  unfold request
  simp only [h1, h2, if_true, ho]
  refine ⟨fun kv => ?_, ?_⟩
  · show kv ∈ aupdate [] p ↔ kv ∈ p
    rw [hu]
  · intro he
    rw [he]
    rfl

/-- A session that starts with a number of visits. -/
example : requests { cfg with populate := some [("visits".toList, none)] } plain none
    [req fun _ => [], req fun s => s] = [([("visits".toList, none)], []),
      ([("visits".toList, none)], [("visits".toList, none)])] := by
  decide +kernel

end Verif.Session
