import Verif.Session.Spec
import Verif.Cookies.Props

namespace Verif.Session

open Verif Spec Cookies.Spec

theorem joinWith_blank (p : Str) (ps : List Str) :
    joinWith "; ".toList (p :: ps) = joinWith [';'] (p :: ps.map (' ' :: ·)) := by
  induction ps generalizing p with
  | nil => rfl
  | cons q ps ih =>
    rw [joinWith, ih q, List.map_cons]
    cases ps with
    | nil => simp [joinWith]
    | cons r ps => simp [joinWith]

theorem blank_nil : Blank [] := fun c hc => by cases hc
theorem blank_space : Blank [' '] := fun c hc => by rw [List.mem_singleton.1 hc]; decide

theorem mem_aset_keys (d : List (Str × Str)) (k v x : Str) :
    x ∈ (aset d k v).map (·.1) ↔ x = k ∨ x ∈ d.map (·.1) := by
  induction d with
  | nil => simp [aset]
  | cons kv d ih =>
    obtain ⟨k', v'⟩ := kv
    simp only [aset]
    split
    · rename_i h; subst h; simp
    · rw [List.map_cons, List.mem_cons, ih, List.map_cons, List.mem_cons]
      constructor
      · rintro (h | h | h) <;> simp [h]
      · rintro (h | h | h) <;> simp [h]

theorem nodup_aset (d : List (Str × Str)) (k v : Str) (h : (d.map (·.1)).Nodup) :
    ((aset d k v).map (·.1)).Nodup := by
  induction d with
  | nil => simp [aset]
  | cons kv d ih =>
    obtain ⟨k', v'⟩ := kv
    rw [List.map_cons, List.nodup_cons] at h
    simp only [aset]
    split
    · rename_i hk; subst hk; rw [List.map_cons, List.nodup_cons]; exact h
    · rename_i hk
      rw [List.map_cons, List.nodup_cons]
      refine ⟨?_, ih h.2⟩
      rw [mem_aset_keys]
      rintro (e | e)
      · exact hk e
      · exact h.1 e

theorem nodup_aupdate (d e : List (Str × Str)) (h : (d.map (·.1)).Nodup) :
    ((aupdate d e).map (·.1)).Nodup := by
  unfold aupdate
  induction e generalizing d with
  | nil => exact h
  | cons kv e ih => rw [List.foldl_cons]; exact ih _ (nodup_aset d _ _ h)

theorem lookup_none (d : List (Str × Str)) (k : Str) (h : k ∉ d.map (·.1)) :
    Cookies.Spec.lookup d k = none := by
  induction d with
  | nil => rfl
  | cons kv d ih =>
    rw [List.map_cons, List.mem_cons, not_or] at h
    rw [Cookies.lookup_cons, ih h.2, if_neg (fun e => h.1 e.symm)]
    rfl

theorem lookup_nodup (d : List (Str × Str)) (h : (d.map (·.1)).Nodup) (k : Str) :
    Cookies.Spec.lookup d k = aget d k := by
  induction d with
  | nil => rfl
  | cons kv d ih =>
    obtain ⟨k', v'⟩ := kv
    rw [List.map_cons, List.nodup_cons] at h
    rw [Cookies.lookup_cons, aget]
    by_cases hk : k' = k
    · subst hk
      rw [if_pos rfl, if_pos rfl, lookup_none _ _ h.1]
      rfl
    · rw [if_neg hk, if_neg hk, ih h.2]
      cases aget d k <;> rfl

theorem cookies_one (h k : Str) : aget (Cookies.cookies [h]) k = aget (Cookies.parse h) k := by
  rw [Cookies.C48_headers]
  simp only [List.flatMap_cons, List.flatMap_nil, List.append_nil]
  exact lookup_nodup _ (nodup_aupdate [] _ List.nodup_nil) k

/-- A pair as it is written. -/
def wr (b : Str) (kv : Str × Str) : Written := ⟨b, kv.1, [], [], kv.2, []⟩

theorem wr_text (b : Str) (kv : Str × Str) : (wr b kv).text = b ++ kv.1 ++ '=' :: kv.2 := by
  simp [wr, Written.text]

/-- A header of pairs joined with `; ` parses to the decoded pairs. -/
theorem lookup_header (ps : List (Str × Str)) (k : Str)
    (h : ∀ kv ∈ ps, Trimmed kv.1 ∧ Trimmed kv.2 ∧ ';' ∉ kv.1 ∧ '=' ∉ kv.1 ∧ ';' ∉ kv.2) :
    aget (Cookies.cookies (headerOf ps)) k =
      Cookies.Spec.lookup (ps.map fun kv => (kv.1, Url.unquote (Cookies.unquoteCookie kv.2))) k := by
  cases ps with
  | nil => rfl
  | cons p ps =>
    unfold headerOf
    rw [if_neg (by simp)]
    have hok : ∀ b, Blank b → ∀ kv ∈ p :: ps, (wr b kv).Ok := by
      intro b hb kv hkv
      obtain ⟨h1, h2, h3, h4, h5⟩ := h kv hkv
      exact ⟨hb, blank_nil, blank_nil, blank_nil, h1, h2, h3, h4, h5⟩
    have ht : (p :: ps).map (fun kv => kv.1 ++ '=' :: kv.2) =
        (wr [] p).text :: ps.map fun kv => kv.1 ++ '=' :: kv.2 := by
      rw [List.map_cons, wr_text]; rfl
    have ht2 : (ps.map fun kv => kv.1 ++ '=' :: kv.2).map (' ' :: ·) =
        (ps.map (wr [' '])).map Written.text := by
      rw [List.map_map, List.map_map]
      apply List.map_congr_left
      intro kv _
      simp [wr_text]
    rw [ht, joinWith_blank, ht2, ← List.map_cons, cookies_one,
      Cookies.C48_parse (wr [] p :: ps.map (wr [' '])) (by simp) (by
      intro w hw
      rcases List.mem_cons.1 hw with rfl | hw
      · exact hok [] blank_nil p (by simp)
      · obtain ⟨kv, hkv, rfl⟩ := List.mem_map.1 hw
        exact hok [' '] blank_space kv (by simp [hkv])) k,
      List.map_cons, List.map_map, List.map_cons]
    rfl

theorem unescape_plain (s : Str) (h : ∀ c ∈ s, c ≠ '\\') : Cookies.unescape 0 s = s := by
  induction s with
  | nil => rfl
  | cons c s ih =>
    have hc := h c (by simp)
    have : Cookies.unescape 0 (c :: s) = c :: Cookies.unescape 0 s := by
      cases s <;> simp [Cookies.unescape, hc]
    rw [this, ih fun x hx => h x (by simp [hx])]

theorem decode_quoted (v : Str) (h : ∀ c ∈ v, c ≠ '"' ∧ c ≠ '\\' ∧ c ≠ ';' ∧ c ≠ '%') :
    Url.unquote (Cookies.unquoteCookie ('"' :: v ++ ['"'])) = v := by
  unfold Cookies.unquoteCookie
  rw [if_neg (by simp), if_pos]
  · rw [List.cons_append, List.tail_cons, List.dropLast_concat, unescape_plain _ fun c hc => (h c hc).2.1,
      Cookies.unquote_no_percent _ fun hm => (h _ hm).2.2.2 rfl]
  · refine ⟨rfl, ?_⟩
    rw [List.getLast?_append]; rfl

theorem quoted_ok (v : Str) (h : ∀ c ∈ v, c ≠ '"' ∧ c ≠ '\\' ∧ c ≠ ';' ∧ c ≠ '%') :
    JarOk (some ('"' :: v ++ ['"'])) := by
  intro x hx
  injection hx with hx
  subst hx
  refine ⟨⟨?_, ?_⟩, ?_⟩
  · intro c hc
    rw [List.cons_append] at hc
    injection hc with hc
    subst hc; decide
  · intro c hc
    rw [List.getLast?_append] at hc
    injection hc with hc
    subst hc; decide
  · intro hm
    rw [List.mem_append, List.mem_cons] at hm
    rcases hm with (hm | hm) | hm
    · cases hm
    · exact (h _ hm).2.2.1 rfl
    · exact absurd hm (by decide)

/-- The session cookie the server reads. -/
theorem session_cookie (name : Str) (hn : NameOk name) (jar : Jar) (hj : JarOk jar)
    (others : List (Str × Str)) (ho : OthersOk name others) :
    aget (Cookies.cookies (cookieHeader name jar others)) name =
      jar.map fun v => Url.unquote (Cookies.unquoteCookie v) := by
  unfold cookieHeader
  rw [lookup_header]
  · rw [List.map_append, Cookies.lookup_append]
    have : Cookies.Spec.lookup (others.map fun kv => (kv.1, Url.unquote (Cookies.unquoteCookie kv.2))) name =
        none := by
      apply lookup_none
      rw [List.map_map]
      intro hm
      obtain ⟨kv, hkv, he⟩ := List.mem_map.1 hm
      exact (ho kv hkv).1 he
    rw [this]
    cases jar with
    | none => rfl
    | some v =>
      simp only [jarCookies, List.map_cons, List.map_nil, Cookies.lookup_cons, Cookies.lookup_nil]
      simp
  · intro kv hkv
    rcases List.mem_append.1 hkv with hkv | hkv
    · exact (ho kv hkv).2
    · cases jar with
      | none => cases hkv
      | some v =>
        rw [List.mem_singleton.1 hkv]
        exact ⟨hn.1, (hj v rfl).1, hn.2.1, hn.2.2, (hj v rfl).2⟩

/-- The session in a store. -/
def jarLoad (c : Config) (now : Nat) : Jar → Sess × Bool
  | none => ([], true)
  | some v =>
    match c.signer.unsign now (Url.unquote (Cookies.unquoteCookie v)) with
    | some s => (s, false)
    | none => ([], true)

/-- What `load` gives for a store. -/
theorem load_jar (c : Config) (hn : NameOk c.name) (jar : Jar) (hj : JarOk jar) (now : Nat)
    (others : List (Str × Str)) (ho : OthersOk c.name others) :
    load c now (Cookies.cookies (cookieHeader c.name jar others)) = jarLoad c now jar := by
  unfold load
  rw [session_cookie _ hn _ hj _ ho]
  cases jar <;> rfl

theorem opened_plain (c : Config) (hp : c.populate = none) (now : Nat) (cs : List (Str × Str)) :
    opened c now cs = load c now cs := by
  unfold opened
  rw [hp]
  generalize load c now cs = l
  obtain ⟨s, b⟩ := l
  cases b <;> rfl

theorem request_seen (c : Config) (inner : Str → Sess → Sess) (jar : Jar) (r : Request) :
    (request c inner jar r).1 =
      inner r.ip (opened c r.time (Cookies.cookies (cookieHeader c.name jar r.others))).1 := by
  unfold request
  cases r.http <;> rfl

/-- One request of an ordinary client: the store stays usable and holds what was left. -/
theorem request_step (c : Config) (alive : Nat → Nat → Prop) (hg : Good c.signer alive)
    (hn : NameOk c.name) (hp : c.populate = none) (inner : Str → Sess → Sess) (jar : Jar)
    (hj : JarOk jar) (r : Request) (hr : Ordinary c r) :
    JarOk (request c inner jar r).2.2 ∧
    ∀ (t' : Nat) (others : List (Str × Str)), alive r.time t' → OthersOk c.name others →
      (opened c t' (Cookies.cookies (cookieHeader c.name (request c inner jar r).2.2 others))).1 =
        (request c inner jar r).2.1 := by
  obtain ⟨h1, h2, h3⟩ := hr
  unfold request
  simp only [h1, h2, if_true]
  rw [opened_plain c hp, load_jar c hn jar hj r.time r.others h3]
  have hnone : JarOk none := fun v hv => by cases hv
  have hclose : ∀ (b : Bool) (left : Sess),
      (left ≠ [] ∨ b = false ∨ jar = none ∨
        ∃ v, jar = some v ∧ c.signer.unsign r.time (Url.unquote (Cookies.unquoteCookie v)) = none) →
      JarOk (store jar (close c r.time b false left)) ∧
      ∀ (t' : Nat) (others : List (Str × Str)), alive r.time t' → OthersOk c.name others →
        (opened c t' (Cookies.cookies (cookieHeader c.name (store jar (close c r.time b false left)) others))).1 =
          left := by
    intro b left hcase
    unfold close
    by_cases hl : left = []
    · subst hl
      cases b with
      | false =>
        refine ⟨by simpa [store] using hnone, ?_⟩
        intro t' others _ ho
        rw [opened_plain c hp]
        simp only [store, ne_eq, not_true, if_false, Bool.not_false, if_true, Bool.false_eq_true]
        rw [load_jar c hn none hnone t' others ho, jarLoad]
      | true =>
        refine ⟨by simpa [store] using hj, ?_⟩
        intro t' others ha ho
        rw [opened_plain c hp]
        simp only [store, ne_eq, not_true, if_false, Bool.not_true, Bool.false_eq_true]
        rw [load_jar c hn jar hj t' others ho]
        rcases hcase with h | h | h | ⟨v, hv, hbad⟩
        · exact absurd rfl h
        · cases h
        · rw [h, jarLoad]
        · rw [hv, jarLoad, hg.stays _ _ _ ha hbad]
    · have hcl := hg.clean r.time left
      have hok := quoted_ok _ hcl
      refine ⟨by simpa [store, hl] using hok, ?_⟩
      intro t' others ha ho
      rw [opened_plain c hp]
      simp only [store, ne_eq, hl, not_false_eq_true, if_true, if_false, Bool.false_eq_true]
      rw [load_jar c hn _ hok t' others ho, jarLoad, decode_quoted _ hcl, hg.accepts _ _ _ ha]
  cases jar with
  | none => exact hclose _ _ (.inr (.inr (.inl rfl)))
  | some v =>
    unfold jarLoad
    cases hu : c.signer.unsign r.time (Url.unquote (Cookies.unquoteCookie v)) with
    | none => exact hclose _ _ (.inr (.inr (.inr ⟨v, rfl, hu⟩)))
    | some s =>
      refine hclose _ _ (.inr (.inl ?_))
      simp only [hu]

end Verif.Session
