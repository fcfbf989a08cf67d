import Verif.RelayUrl.Lemmas

/-!
# C62: a relayed request goes to the upstream URL that the documentation names

Full statement: whatever the client asks for, the request goes to the host of `target_base_url`; the path is the
one of `target_base_url`, then `upstream_prefix`, then what is left of the request's path after the mount, and
never leaves the prefix; the query is the client's.  Host, query and, for a proxy that is not mounted and has no
base path, paths without dot segments are proved; the rest is false of the code.
-/

namespace Verif.RelayUrl

open Verif Spec

/-- Whatever the path (`//evil.example`, dots, question marks), scheme and host are those of the base URL, the
query is the client's, and the path begins with a slash and has no dot segments. -/
theorem C62_origin (base : Target) (pre : Str) (s : Scope) (t : Target) (hp : Prefix pre)
    (h : upstreamUrl base pre s = some t) :
    t.scheme = base.scheme ∧ t.authority = base.authority ∧ t.query = s.query ∧
      (∃ r, t.path = '/' :: r) ∧ NoDots t.path := by
  obtain ⟨path, _, e⟩ := upstream_eq base pre s t hp h
  subst e
  exact ⟨rfl, rfl, rfl, resolve_slash _, resolve_nodots _⟩

example : upstreamUrl ⟨"http".toList, "auth".toList, [], []⟩ ['/']
      ⟨"//evil.example/../x".toList, none, [], "q=1".toList⟩ =
    some ⟨"http".toList, "auth".toList, "/x".toList, "q=1".toList⟩ ∧ Prefix ['/'] :=
  ⟨by decide +kernel, .inl rfl⟩

/-- The path is sent: prefix and path with one slash between, unchanged, when neither has dot segments. -/
theorem C62_path_partial (base : Target) (pre path query : Str) (hp : Prefix pre) (h1 : PathChars pre)
    (h2 : PathChars path) (d1 : NoDots pre) (d2 : NoDots path) (hl : ∀ c ∈ path, c.toNat < 256)
    (hb : base.path = []) :
    ∃ t, upstreamUrl base pre ⟨path, none, [], query⟩ = some t ∧ Wanted base pre path t ∧
      t.path = joinPaths pre path := by
  have hr : requestPath ⟨path, none, [], query⟩ = some path := by
    unfold requestPath
    rw [if_pos (List.all_eq_true.mpr fun c hc => decide_eq_true (hl c hc))]
    rfl
  have hs : ∃ t, upstreamUrl base pre ⟨path, none, [], query⟩ = some t := by
    unfold upstreamUrl
    rw [hr]
    exact ⟨_, rfl⟩
  obtain ⟨t, ht⟩ := hs
  obtain ⟨path', h3, e⟩ := upstream_eq base pre _ t hp ht
  rw [hr] at h3
  cases h3
  obtain ⟨x, hx, _⟩ := join_head pre path hp
  have hn : NoDots (joinPaths pre path) := by
    rw [nodots_iff] at d1 d2 ⊢
    rw [segments_join]
    exact ⟨fun h => (List.mem_append.mp h).elim d1.1 d2.1, fun h => (List.mem_append.mp h).elim d1.2 d2.2⟩
  have hpath : t.path = joinPaths pre path := by
    rw [e]
    show resolvePath (beforeQuery (joinPaths pre path)) = _
    rw [before_id _ (pathChars_join pre path h1 h2), hx, resolve_id x (hx ▸ hn)]
  refine ⟨t, ht, ?_, hpath⟩
  unfold Wanted
  rw [hpath, segments_join, hb]
  rfl

example : upstreamUrl ⟨"http".toList, "auth".toList, [], []⟩ "/api/v1".toList
      ⟨"/users//7/".toList, none, [], []⟩ =
    some ⟨"http".toList, "auth".toList, "/api/v1/users//7/".toList, []⟩ := by decide +kernel

/-- The raw path is sent as it came, escapes included, when there is one. -/
theorem C62_raw_partial (base : Target) (pre path raw root query : Str) (hp : Prefix pre) (h1 : PathChars pre)
    (h2 : PathChars raw) (d1 : NoDots pre) (d2 : NoDots raw) (hl : ∀ c ∈ path, c.toNat < 256) :
    ∃ t, upstreamUrl base pre ⟨path, some raw, root, query⟩ = some t ∧ t.path = joinPaths pre raw := by
  have hr : requestPath ⟨path, some raw, root, query⟩ = some raw := by
    unfold requestPath
    rw [if_pos (List.all_eq_true.mpr fun c hc => decide_eq_true (hl c hc))]
    rfl
  have hs : ∃ t, upstreamUrl base pre ⟨path, some raw, root, query⟩ = some t := by
    unfold upstreamUrl
    rw [hr]
    exact ⟨_, rfl⟩
  obtain ⟨t, ht⟩ := hs
  obtain ⟨path', h3, e⟩ := upstream_eq base pre _ t hp ht
  rw [hr] at h3
  cases h3
  obtain ⟨x, hx, _⟩ := join_head pre raw hp
  have hn : NoDots (joinPaths pre raw) := by
    rw [nodots_iff] at d1 d2 ⊢
    rw [segments_join]
    exact ⟨fun h => (List.mem_append.mp h).elim d1.1 d2.1, fun h => (List.mem_append.mp h).elim d1.2 d2.2⟩
  refine ⟨t, ht, ?_⟩
  rw [e]
  show resolvePath (beforeQuery (joinPaths pre raw)) = _
  rw [before_id _ (pathChars_join pre raw h1 h2), hx, resolve_id x (hx ▸ hn)]

example : upstreamUrl ⟨"http".toList, "auth".toList, [], []⟩ ['/']
      ⟨"/a b/c".toList, some "/a%20b%2Fc".toList, [], []⟩ =
    some ⟨"http".toList, "auth".toList, "/a%20b%2Fc".toList, []⟩ := by decide +kernel

/-- **False of mounted proxies**: with `Include("/auth", app=proxy)`, a request for `/auth/login` goes to
`/auth/login` and not to `/login`, with and without a raw path. -/
theorem C62_mount_false (raw : Bool) : ¬ ∀ (base : Target) (pre root rest : Str) (t : Target), Prefix pre → NoDots rest →
    upstreamUrl base pre ⟨root ++ rest, if raw then some (root ++ rest) else none, root, []⟩ = some t →
    Wanted base pre rest t := by
  intro h
  have := h ⟨"http".toList, "auth".toList, [], []⟩ ['/'] "/auth".toList "/login".toList
    ⟨"http".toList, "auth".toList, "/auth/login".toList, []⟩ (.inl rfl) (by unfold NoDots; decide)
    (by cases raw <;> decide +kernel)
  unfold Wanted at this
  revert this
  decide +kernel

/-- **False of base URLs with a path**: the path of `target_base_url` is lost. -/
theorem C62_base_false : ¬ ∀ (base : Target) (pre path : Str) (t : Target), Prefix pre → NoDots path →
    upstreamUrl base pre ⟨path, none, [], []⟩ = some t → Wanted base pre path t := by
  intro h
  have := h ⟨"http".toList, "auth".toList, "/v2".toList, []⟩ ['/'] "/login".toList
    ⟨"http".toList, "auth".toList, "/login".toList, []⟩ (.inl rfl) (by unfold NoDots; decide) (by decide +kernel)
  unfold Wanted at this
  revert this
  decide +kernel

/-- **False of dot segments**: a client leaves the prefix. -/
theorem C62_escape_false : ¬ ∀ (base : Target) (pre : Str) (s : Scope) (t : Target), Prefix pre → base.path = [] →
    upstreamUrl base pre s = some t → segments pre <+: segments t.path := by
  intro h
  have := h ⟨"http".toList, "auth".toList, [], []⟩ "/public".toList ⟨"/../admin".toList, none, [], []⟩
    ⟨"http".toList, "auth".toList, "/admin".toList, []⟩ (.inr ⟨'p', "ublic".toList, rfl, by decide⟩) rfl (by decide +kernel)
  revert this
  decide +kernel

/-- **False of paths outside Latin-1**: the proxy raises, although the raw path is there. -/
theorem C62_raises_false : ¬ ∀ (base : Target) (pre : Str) (s : Scope), s.rawPath.isSome →
    (upstreamUrl base pre s).isSome := by
  intro h
  exact absurd (h ⟨"http".toList, "auth".toList, [], []⟩ ['/'] ⟨"/日".toList, some "/%E6%97%A5".toList, [], []⟩ rfl)
    (by decide +kernel)

/-- **False of question marks in a path**: without a raw path, an escaped question mark cuts the path. -/
theorem C62_question_false : ¬ ∀ (base : Target) (pre path : Str) (t : Target), Prefix pre → NoDots path →
    base.path = [] → upstreamUrl base pre ⟨path, none, [], []⟩ = some t → Wanted base pre path t := by
  intro h
  have := h ⟨"http".toList, "auth".toList, [], []⟩ ['/'] "/a?b".toList
    ⟨"http".toList, "auth".toList, "/a".toList, []⟩ (.inl rfl) (by unfold NoDots; decide) rfl (by decide +kernel)
  unfold Wanted at this
  revert this
  decide +kernel

/-- **False of prefixes with two slashes**: `upstream_prefix="//h"` sends every request to the server `h` in place of
the configured one. -/
theorem C62_prefix_false (base : Target) (host path query : Str) (h0 : host ≠ []) (hh : '/' ∉ host)
    (h1 : PathChars host) (h2 : PathChars path) (d2 : NoDots path) (hl : ∀ c ∈ path, c.toNat < 256) :
    upstreamUrl base ('/' :: '/' :: host) ⟨path, none, [], query⟩ =
      some { base with authority := host, path := '/' :: lstrip (· = '/') path, query := query } := by
  have hr : requestPath ⟨path, none, [], query⟩ = some path := by
    unfold requestPath
    rw [if_pos (List.all_eq_true.mpr fun c hc => decide_eq_true (hl c hc))]
    rfl
  have he : endsWith ('/' :: '/' :: host) ['/'] = false := by
    cases e : endsWith ('/' :: '/' :: host) ['/'] with
    | false => rfl
    | true =>
      unfold endsWith at e
      rw [List.isSuffixOf_iff_suffix] at e
      obtain ⟨a, ha⟩ := e
      have hlast := congrArg List.getLast? ha
      have h5 : (a ++ ['/']).getLast? = some '/' := by simp
      rw [h5] at hlast
      have h4 : ('/' :: '/' :: host).getLast? = host.getLast? := by
        cases host with
        | nil => exact absurd rfl h0
        | cons c host => rfl
      rw [h4] at hlast
      exact absurd (List.mem_of_getLast? hlast.symm) hh
  have hj : joinPaths ('/' :: '/' :: host) path = '/' :: '/' :: (host ++ '/' :: lstrip (· = '/') path) := by
    unfold joinPaths
    rw [he, if_neg (by decide)]
    simp
  have hp : PathChars (joinPaths ('/' :: '/' :: host) path) := by
    refine pathChars_join _ _ ⟨?_, ?_⟩ h2
    · simp [h1.1]
    · simp [h1.2]
  have hn : NoDots ('/' :: lstrip (· = '/') path) := by
    have : joinPaths ['/'] path = '/' :: lstrip (· = '/') path := rfl
    rw [← this]
    rw [nodots_iff] at d2 ⊢
    rw [segments_join]
    exact ⟨fun h => (List.mem_append.mp h).elim (by decide) d2.1, fun h => (List.mem_append.mp h).elim (by decide) d2.2⟩
  have hall : ∀ c ∈ host, (fun x : Char => decide (x ≠ '/')) c = true :=
    fun c hc => decide_eq_true fun e : c = '/' => hh (e ▸ hc)
  have ht : (host ++ '/' :: lstrip (· = '/') path).takeWhile (· ≠ '/') = host := by
    rw [List.takeWhile_append_of_pos hall]
    rw [List.takeWhile_cons_of_neg (by decide), List.append_nil]
  have hd : (host ++ '/' :: lstrip (· = '/') path).dropWhile (· ≠ '/') = '/' :: lstrip (· = '/') path := by
    rw [List.dropWhile_append_of_pos hall]
    rw [List.dropWhile_cons_of_neg (by decide)]
  have hjoin : join base (joinPaths ('/' :: '/' :: host) path) =
      { base with authority := host, path := '/' :: lstrip (· = '/') path } := by
    unfold join
    simp only [before_id _ hp]
    rw [hj]
    simp only [ht, hd, resolve_id _ hn]
  unfold upstreamUrl
  rw [hr, Option.map_some, hjoin]

example : "evil.example".toList ≠ [] ∧ '/' ∉ "evil.example".toList ∧ PathChars "/a/b".toList ∧ NoDots "/a/b".toList := by
  unfold PathChars NoDots
  decide

end Verif.RelayUrl
