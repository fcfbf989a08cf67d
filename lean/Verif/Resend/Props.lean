import Verif.Resend.Lemmas

/-!
# C66: what one client is sent does not depend on other clients

Full statement: when the same response object is sent for several requests, through any of lilya's middlewares, each
client is sent what it would be sent if its request were the only one.
-/

namespace Verif.Resend

open Verif MultiDict Spec

/-- **C66 without a middleware that changes headers.** -/
theorem C66_plain_partial (ρ : Type) (o : Object) : Independent (plain ρ) o :=
  independent_of_absorbing (plain ρ) o (fun _ _ _ => rfl)

/-- **C66 for `EventStreamResponse`**, whose start message has a copy of the headers: any middleware. -/
theorem C66_copied {ρ : Type} (layer : Layer ρ) (o : Object) (h : o.shares = false) : Independent layer o := by
  intro before r
  have key : ∀ (rs : List ρ), after layer o rs = o := by
    intro rs
    induction rs with
    | nil => rfl
    | cons x rs ih =>
      rw [after]
      have : (send layer o x).2 = o := by
        unfold send
        simp [h]
      rw [this, ih]
  rw [getLast_sendAll, key before]
  rfl

example : sendAll csrf ⟨[], [], false⟩ [(none, "a".toList), (none, "b".toList)] =
    [([("set-cookie".toList, "a".toList)], []), ([("set-cookie".toList, "b".toList)], [])] := by decide +kernel

/-- **C66 for `XFrameOptionsMiddleware`.** -/
theorem C66_frame_partial (setting : Option Str) (o : Object) : Independent (frame setting) o := by
  refine independent_of_absorbing _ o fun _ _ hs => ?_
  unfold frame
  simp only
  generalize hk : "X-Frame-Options".toList = k
  by_cases h : get lower hs k = none
  · have h2 : get lower (add hs k (SecurityHeaders.frameOption setting)) k ≠ none := by
      unfold MultiDict.get add
      rw [getall_append]
      unfold MultiDict.get at h
      rw [List.head?_eq_none_iff.mp h]
      simp [getall]
    rw [if_pos h, if_neg h2]
  · rw [if_neg h, if_neg h]

example : sendAll (frame none) ⟨[], [], true⟩ [(), ()] =
    [([("X-Frame-Options".toList, "DENY".toList)], []), ([("X-Frame-Options".toList, "DENY".toList)], [])] := by
  decide +kernel

/-- **False under `SessionMiddleware`**: once a client with a session was sent the response, every later client is
sent the session cookie of that client, and none of its own. -/
theorem C66_session_false (c : Session.Config) (attributes deletion : Str) (o : Object) (hs : o.shares = true)
    (h0 : ∀ h ∈ getall lower o.headers "set-cookie".toList, startsWith h (c.name ++ ['=']) = false)
    (first later : SessionReq) (h1 : first.session ≠ []) :
    ∃ out₁ out₂, sendAll (session c attributes deletion) o [first, later] = [out₁, out₂] ∧
      getall lower out₂.1 "set-cookie".toList =
        getall lower o.headers "set-cookie".toList ++ [sessionCookie c attributes first] := by
  refine ⟨_, _, rfl, ?_⟩
  generalize hk : "set-cookie".toList = k at h0
  have hall : (getall lower o.headers k).all (fun h => !startsWith h (c.name ++ ['='])) = true :=
    List.all_eq_true.mpr fun h hh => by rw [h0 h hh]; rfl
  have hadd : getall lower (add o.headers k (sessionCookie c attributes first)) k =
      getall lower o.headers k ++ [sessionCookie c attributes first] := by
    unfold add
    rw [getall_append]
    simp [getall]
  have hstart : startsWith (sessionCookie c attributes first) (c.name ++ ['=']) = true := by
    unfold startsWith sessionCookie
    rw [List.isPrefixOf_iff_prefix]
    refine ⟨'"' :: c.signer.sign first.time first.session ++ '"' :: attributes, ?_⟩
    simp
  have hno : (getall lower (add o.headers k (sessionCookie c attributes first)) k).all
      (fun h => !startsWith h (c.name ++ ['='])) = false := by
    rw [hadd, List.all_append]
    simp [hstart]
  have h2 : (send (session c attributes deletion) o first).2.headers =
      add o.headers k (sessionCookie c attributes first) := by
    unfold send session
    simp only [hs, if_true, hk]
    rw [if_pos hall, if_pos h1]
  show getall lower (session c attributes deletion later
    ((send (session c attributes deletion) o first).2.headers, _)).1 k = _
  rw [h2]
  unfold session
  simp only [hk]
  rw [hno, if_neg Bool.false_ne_true, hadd]

/-- Two clients with sessions of their own: the second one is sent the session of the first. -/
example : sendAll (session ⟨⟨fun _ s => (s.map Prod.fst).flatten, fun _ _ => none⟩, "session".toList, none⟩
      "; path=/".toList []) ⟨[], [], true⟩
      [⟨0, [("alice".toList, none)], true⟩, ⟨1, [("bob".toList, none)], true⟩] =
    [([("set-cookie".toList, "session=\"alice\"; path=/".toList)], []),
     ([("set-cookie".toList, "session=\"alice\"; path=/".toList)], [])] := by decide +kernel

/-- **False when a session ends**: once a client whose session was emptied was sent the response, every later client is
told to forget their session, also one whose session has just been made. -/
theorem C66_deletion_false (c : Session.Config) (attributes deletion : Str) (o : Object) (hs : o.shares = true)
    (h0 : ∀ h ∈ getall lower o.headers "set-cookie".toList, startsWith h (c.name ++ ['=']) = false)
    (first later : SessionReq) (h1 : first.session = []) (h2 : first.wasEmpty = false) :
    ∃ out₁ out₂, sendAll (session c attributes deletion) o [first, later] = [out₁, out₂] ∧
      getall lower out₂.1 "set-cookie".toList =
        getall lower o.headers "set-cookie".toList ++ [c.name ++ '=' :: deletion] := by
  refine ⟨_, _, rfl, ?_⟩
  generalize hk : "set-cookie".toList = k at h0
  have hall : (getall lower o.headers k).all (fun h => !startsWith h (c.name ++ ['='])) = true :=
    List.all_eq_true.mpr fun h hh => by rw [h0 h hh]; rfl
  have hadd : getall lower (add o.headers k (c.name ++ '=' :: deletion)) k =
      getall lower o.headers k ++ [c.name ++ '=' :: deletion] := by
    unfold add
    rw [getall_append]
    simp [getall]
  have hstart : startsWith (c.name ++ '=' :: deletion) (c.name ++ ['=']) = true := by
    unfold startsWith
    rw [List.isPrefixOf_iff_prefix]
    exact ⟨deletion, by simp⟩
  have hno : (getall lower (add o.headers k (c.name ++ '=' :: deletion)) k).all
      (fun h => !startsWith h (c.name ++ ['='])) = false := by
    rw [hadd, List.all_append]
    simp [hstart]
  have h3 : (send (session c attributes deletion) o first).2.headers =
      add o.headers k (c.name ++ '=' :: deletion) := by
    unfold send session
    simp only [hs, if_true, hk]
    rw [if_pos hall, if_neg (fun h => h h1), if_pos h2]
  show getall lower (session c attributes deletion later
    ((send (session c attributes deletion) o first).2.headers, _)).1 k = _
  rw [h3]
  unfold session
  simp only [hk]
  rw [hno, if_neg Bool.false_ne_true, hadd]

/-- A client who logs out, and one who has just logged in. -/
example : sendAll (session ⟨⟨fun _ s => (s.map Prod.fst).flatten, fun _ _ => none⟩, "session".toList, none⟩
      [] "null; expires=0".toList) ⟨[], [], true⟩ [⟨0, [], false⟩, ⟨1, [("bob".toList, none)], true⟩] =
    [([("set-cookie".toList, "session=null; expires=0".toList)], []),
     ([("set-cookie".toList, "session=null; expires=0".toList)], [])] := by decide +kernel

/-- **C66 for clients without a session**: as long as they come, nothing is added. -/
theorem C66_stranger (c : Session.Config) (attributes deletion : Str) (o : Object) (rs : List SessionReq)
    (h : ∀ r ∈ rs, r.session = [] ∧ r.wasEmpty = true) :
    sendAll (session c attributes deletion) o rs = rs.map fun _ => (o.headers, o.body) := by
  induction rs with
  | nil => rfl
  | cons r rs ih =>
    have hr := h r (List.mem_cons_self ..)
    have hsame : session c attributes deletion r (o.headers, o.body) = (o.headers, o.body) := by
      unfold session
      rw [if_neg (c := r.session ≠ []) (fun h => h hr.1),
        if_neg (c := r.wasEmpty = false) (by rw [hr.2]; exact Bool.false_ne_true.symm), ite_self]
    have hsend : send (session c attributes deletion) o r = ((o.headers, o.body), o) := by
      unfold send
      rw [hsame]
      cases o with
      | mk a b s => cases s <;> rfl
    rw [sendAll, hsend, List.map_cons, ih fun x hx => h x (List.mem_cons_of_mem _ hx)]

example : sendAll (session ⟨⟨fun _ s => (s.map Prod.fst).flatten, fun _ _ => none⟩, "session".toList, none⟩
      [] "null".toList) ⟨[("a".toList, "b".toList)], [], true⟩ [⟨0, [], true⟩, ⟨1, [], true⟩] =
    [([("a".toList, "b".toList)], []), ([("a".toList, "b".toList)], [])] := by decide +kernel

/-- **False under `CSRFMiddleware`**: every client gets the token that was made for the first. -/
theorem C66_csrf_false (o : Object) (hs : o.shares = true) (h0 : getall lower o.headers "set-cookie".toList = [])
    (first later : Str) :
    ∃ out₁ out₂, sendAll csrf o [(none, first), (none, later)] = [out₁, out₂] ∧
      getall lower out₂.1 "set-cookie".toList = [first] := by
  refine ⟨_, _, rfl, ?_⟩
  generalize hk : "set-cookie".toList = k at h0
  have hg : (get lower o.headers k).isSome = false := by
    unfold MultiDict.get
    rw [h0]
    rfl
  have hadd : getall lower (add o.headers k first) k = [first] := by
    unfold add
    rw [getall_append, h0]
    simp [getall]
  have hg2 : ¬ ((none : Option Str) = none ∧ (get lower (add o.headers k first) k).isSome = false) := by
    unfold MultiDict.get
    rw [hadd]
    simp
  have h2 : (send csrf o (none, first)).2.headers = add o.headers k first := by
    unfold send csrf
    simp only [hs, if_true, hk]
    rw [if_pos ⟨trivial, hg⟩]
  show getall lower (csrf (none, later) ((send csrf o (none, first)).2.headers, _)).1 k = _
  rw [h2]
  unfold csrf
  simp only [hk]
  rw [if_neg (by simpa using hg2), hadd]

example : sendAll csrf ⟨[], [], true⟩ [(none, "a".toList), (none, "b".toList)] =
    [([("set-cookie".toList, "a".toList)], []), ([("set-cookie".toList, "a".toList)], [])] := by decide +kernel

/-- **False under `GZipMiddleware`**: after one compressed answer every later one says that it is compressed, and is
not. -/
theorem C66_gzip_false (c : Gzip.Codec) (min : Nat) (o : Object) (hs : o.shares = true)
    (h0 : get lower o.headers "content-encoding".toList = none) (hm : min ≤ o.body.length) (first later : Headers)
    (h1 : Gzip.wanted first = true) :
    ∃ out₁ out₂, sendAll (gzip c min) o [first, later] = [out₁, out₂] ∧
      get lower out₂.1 "content-encoding".toList = some "gzip".toList ∧ out₂.2 = o.body := by
  have hfirst : gzip c min first (o.headers, o.body) =
      (Gzip.standardHeaders o.headers (compressed c o.body).length, compressed c o.body) := by
    unfold gzip
    rw [if_neg]
    rintro (h | h | h)
    · rw [h1] at h; cases h
    · rw [h0] at h; cases h
    · exact absurd hm (Nat.not_le.mpr h)
  have henc : get lower (Gzip.standardHeaders o.headers (compressed c o.body).length) "content-encoding".toList =
      some "gzip".toList := by
    unfold Gzip.standardHeaders addVary MultiDict.get
    have e1 : lower "content-encoding".toList ≠ lower "vary".toList := by decide
    have e2 : lower "content-encoding".toList ≠ lower "Content-Length".toList := by decide
    have e3 : lower "content-encoding".toList = lower "Content-Encoding".toList := by decide
    generalize "content-encoding".toList = k0 at *
    generalize "Content-Encoding".toList = k1 at *
    generalize "Content-Length".toList = k2 at *
    generalize "vary".toList = k3 at *
    split <;> rw [getall_setitem, if_neg (by first | exact e1 | exact Ne.symm e1), getall_setitem,
      if_neg (by first | exact e2 | exact Ne.symm e2), getall_setitem, if_pos (by first | exact e3 | exact e3.symm)] <;> rfl
  have h2 : (send (gzip c min) o first).2 =
      { o with headers := Gzip.standardHeaders o.headers (compressed c o.body).length } := by
    unfold send
    simp only [hs, if_true, hfirst]
  have hlater : ∀ hs', get lower hs' "content-encoding".toList = some "gzip".toList →
      gzip c min later (hs', o.body) = (hs', o.body) := by
    intro hs' h
    unfold gzip
    rw [if_pos (.inr (.inl (by rw [h]; rfl)))]
  refine ⟨(send (gzip c min) o first).1, _, rfl, ?_⟩
  show get lower (gzip c min later ((send (gzip c min) o first).2.headers, (send (gzip c min) o first).2.body)).1 _ = _ ∧
    (gzip c min later ((send (gzip c min) o first).2.headers, (send (gzip c min) o first).2.body)).2 = _
  rw [h2]
  simp only
  rw [hlater _ henc]
  exact ⟨henc, rfl⟩

example : sendAll (gzip ⟨Gzip.Bytes, ([], [31, 139]), fun s b => (s ++ b, []), id, fun _ => none⟩ 1)
      ⟨[], [65], true⟩ [[("accept-encoding".toList, "gzip".toList)], []] =
    [([("Content-Encoding".toList, "gzip".toList), ("Content-Length".toList, "3".toList),
       ("vary".toList, "Accept-Encoding".toList)], [31, 139, 65]),
     ([("Content-Encoding".toList, "gzip".toList), ("Content-Length".toList, "3".toList),
       ("vary".toList, "Accept-Encoding".toList)], [65])] := by decide +kernel

/-- **C66 under `GZipMiddleware`**, for responses that it does not compress. -/
theorem C66_gzip_partial (c : Gzip.Codec) (min : Nat) (o : Object)
    (h : o.body.length < min) : Independent (gzip c min) o := by
  have hid : ∀ r hs, gzip c min r (hs, o.body) = (hs, o.body) := by
    intro r hs
    unfold gzip
    rw [if_pos (.inr (.inr h))]
  refine independent_of_absorbing _ o fun r r' hs => ?_
  rw [hid r hs]

example (c : Gzip.Codec) : Independent (gzip c 500) ⟨[], [65], true⟩ := C66_gzip_partial c 500 _ (by decide)

/-- **False under `SecurityMiddleware`**: the fields are added once more for each request. -/
theorem C66_security_false (c : SecurityHeaders.Config) (o : Object) (hs : o.shares = true) :
    ∃ out₁ out₂, sendAll (security c) o [(), ()] = [out₁, out₂] ∧ out₂.1.length = o.headers.length + 14 := by
  refine ⟨_, _, rfl, ?_⟩
  simp [send, security, hs, SecurityHeaders.Config.fields, add]

example (c : SecurityHeaders.Config) : ∃ out₁ out₂, sendAll (security c) ⟨[], [], true⟩ [(), ()] = [out₁, out₂] ∧
    out₂.1.length = 14 := C66_security_false c ⟨[], [], true⟩ rfl

/-- **False under `CORSMiddleware`**: a page of another origin, or a client without an origin, is sent the origin
that was allowed before. -/
theorem C66_cors_false :
    sendAll (cors ⟨["https://a".toList], ["GET".toList], [], false, none, false, [], 600⟩) ⟨[], [], true⟩
      [(some "https://a".toList, false), (some "https://evil".toList, false)] =
      [([("Access-Control-Allow-Origin".toList, "https://a".toList), ("vary".toList, "Origin".toList)], []),
       ([("Access-Control-Allow-Origin".toList, "https://a".toList), ("vary".toList, "Origin".toList)], [])] := by
  decide +kernel

end Verif.Resend
