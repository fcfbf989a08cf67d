import Verif.Reverse.Lemmas

/-!
# Property C88: the URL found for a name leads back to the route of that name

In any tree of routes and includes, a URL that `url_path_for` gives for a name and some parameters is one that a
request for it takes down to a route of that name, which sees the same parameters; and with names that tell routes
apart, every route is found.
-/

namespace Verif.Reverse

open Verif Path Path.Spec Reverse.Spec

/-- **C88**, for neat values, paths as people write them, and a URL without an opening brace: the URL that a lookup
gives leads through includes to a route that the name stands for; the includes on the way and that route read exactly
the parameters that were given. -/
theorem C88_back_partial (rs : List Route) (htree : ∀ r ∈ rs, Tree r) (name : Str) (params : List (Str × Val))
    (hp : Supplied params) (u : Url) (h : lookupAny rs name params = .found u) (hb : '{' ∉ u.path) (root : Str) :
    ∃ ts leaf outer inner, Under rs ts (leaf, u.proto) name ∧ (outer ++ inner).Perm params ∧
      arrive ts leaf root (root ++ u.path) = some (outer.map fun kv => (kv.1, display kv.2), .params inner) := by
  obtain ⟨-, -, -, ts, leaf, ps, qs, h1, h2, h3⟩ := back_any rs htree name params u hp h hb
  exact ⟨ts, leaf, ps, qs, h1, h2, h3 root⟩

/-- **C88**, every route is found: when neighbouring routes have different names without a colon, the full name of a
route with exactly its parameters, of the right types, gives a URL, and a request for that URL arrives at this route
with these parameters. -/
theorem C88_found_partial (rs : List Route) (htree : ∀ r ∈ rs, Tree r) (hn : Named rs) (ts : List Tmpl) (leaf : Tmpl)
    (proto : Proto) (name : Str) (hu : Under rs ts (leaf, proto) name) (params : List (Str × Val)) (hp : Supplied params)
    (hk : ((wanted ts leaf).map (·.name)).Perm (params.map (·.1)))
    (hacc : ∀ p ∈ wanted ts leaf, ∀ v, (p.name, v) ∈ params → Accepts p.conv v) :
    ∃ u, lookupAny rs name params = .found u ∧ u.proto = proto ∧ ∀ root, ∃ outer inner, (outer ++ inner).Perm params ∧
      arrive ts leaf root (root ++ u.path) = some (outer.map fun kv => (kv.1, display kv.2), .params inner) := by
  obtain ⟨u, h1, h2, h3⟩ := find_all rs ts (leaf, proto) name hu htree hn params hp hk hacc
  refine ⟨u, h1, h3, fun root => ?_⟩
  obtain ⟨ts', leaf', ps, qs, g1, g2, g3⟩ := C88_back_partial rs htree name params hp u h1 h2 root
  obtain ⟨e1, e2⟩ := under_unique rs ts (leaf, proto) name hu hn ts' _ g1
  cases e2
  subst e1
  exact ⟨ps, qs, g2, g3⟩

/-- `/users/{id:int}` -/
def exUser : Tmpl := ⟨"/users/".toList, [⟨"id".toList, .int, []⟩]⟩
/-- The path of `Include("/{tenant}")`. -/
def exTenant : Tmpl := ⟨"/".toList, [⟨"tenant".toList, .str, "/".toList⟩, ⟨"path".toList, .path, []⟩]⟩
/-- `Include("/{tenant}", name="t", routes=[Path("/users/{id:int}", name="user")])`. -/
def exRoutes : List Route := [.incl (some "t".toList) exTenant [.path "user".toList exUser .http]]
/-- The parameters `id=7, tenant="acme"`. -/
def exParams : List (Str × Val) := [("id".toList, .nat 7), ("tenant".toList, .text "acme".toList)]

theorem exUser_sound : Sound exUser := by
  refine ⟨⟨⟨by decide, by decide⟩, ?_, by decide⟩, trivial, ?_, by decide⟩
  · intro p hp
    rw [List.mem_singleton.1 hp]
    exact ⟨⟨'i', ['d'], rfl, by decide, by decide⟩, by decide, by decide⟩
  · have h : fill exUser (fun n => n) = cleanPath "/users/id".toList := by decide
    rw [h]; exact cleanPath_normal _

theorem exTenant_sound : Sound exTenant := by
  refine ⟨⟨⟨by decide, by decide⟩, ?_, by decide⟩, ⟨by decide, by decide, by decide, trivial⟩, ?_, by decide⟩
  · intro p hp
    rcases List.mem_cons.1 hp with e | e
    · rw [e]; exact ⟨⟨'t', "enant".toList, rfl, by decide, by decide⟩, by decide, by decide⟩
    · rw [List.mem_singleton.1 e]; exact ⟨⟨'p', "ath".toList, rfl, by decide, by decide⟩, by decide, by decide⟩
  · have h : fill exTenant (fun n => n) = cleanPath "/tenant/path".toList := by decide
    rw [h]; exact cleanPath_normal _

theorem exRoutes_tree : ∀ r ∈ exRoutes, Tree r := by
  intro r hr
  rw [List.mem_singleton.1 hr]
  refine .incl exTenant_sound ⟨"/{tenant}".toList, rfl⟩ ?_
  intro r hr
  rw [List.mem_singleton.1 hr]
  exact .path exUser_sound

theorem exParams_supplied : Supplied exParams := by
  refine ⟨by decide, ?_⟩
  intro kv hkv
  rcases List.mem_cons.1 hkv with e | e
  · rw [e]
    refine ⟨⟨'i', ['d'], rfl, by decide, by decide⟩, ⟨.int, show (natToDec 7).length ≤ 4300 by decide⟩, by decide, ?_,
      by decide, by decide⟩
    have h : '/' :: display (.nat 7) = cleanPath "/7".toList := by decide
    rw [h]; exact cleanPath_normal _
  · rw [List.mem_singleton.1 e]
    refine ⟨⟨'t', "enant".toList, rfl, by decide, by decide⟩, ⟨.str, by decide, by decide⟩, by decide, ?_,
      by decide, by decide⟩
    have h : '/' :: display (.text "acme".toList) = cleanPath "/acme".toList := by decide
    rw [h]; exact cleanPath_normal _

/-- `t:user` with `id=7, tenant="acme"` is `/acme/users/7`, and a request for it comes back with both. -/
example : lookupAny exRoutes "t:user".toList exParams = .found ⟨"/acme/users/7".toList, .http, []⟩ ∧
    arrive [exTenant] exUser [] "/acme/users/7".toList =
      some ([("tenant".toList, "acme".toList)], .params [("id".toList, .nat 7)]) := by
  constructor <;> decide +kernel

example : ∃ ts leaf outer inner, Under exRoutes ts (leaf, .http) "t:user".toList ∧ (outer ++ inner).Perm exParams ∧
      arrive ts leaf "/root".toList ("/root".toList ++ "/acme/users/7".toList) =
        some (outer.map fun kv => (kv.1, display kv.2), .params inner) :=
  C88_back_partial exRoutes exRoutes_tree "t:user".toList exParams exParams_supplied
    ⟨"/acme/users/7".toList, .http, []⟩ (by decide +kernel) (by decide) _

example : Named exRoutes ∧ Under exRoutes [exTenant] (exUser, .http) "t:user".toList ∧
    ((wanted [exTenant] exUser).map (·.name)).Perm (exParams.map (·.1)) := by
  refine ⟨.mk (by simp [exRoutes]) ?_ ?_, .down (o := some "t".toList) (n := "user".toList)
    (List.mem_singleton.2 rfl) (.route (List.mem_singleton.2 rfl)), by decide⟩
  · intro r hr
    rw [List.mem_singleton.1 hr]
    exact ⟨"t".toList, rfl, by decide⟩
  · intro o t inner h
    cases List.mem_singleton.1 h
    refine .mk (by simp) ?_ ?_
    · intro r hr
      rw [List.mem_singleton.1 hr]
      exact ⟨"user".toList, rfl, by decide⟩
    · intro o t inner h
      cases List.mem_singleton.1 h

/-- An include that has a name stands for all paths below it. -/
theorem C88_mount_partial (pre n p : Str) (routes : List Route) (hpre : WellFormed ⟨pre, [⟨pathKey, .path, []⟩]⟩)
    (hp : '{' ∉ p) (k : Str) (v : Val) (hk : Ident k) (hkp : k ≠ pathKey) (hv : '{' ∉ display v) :
    lookup (.incl (some n) ⟨pre, [⟨pathKey, .path, []⟩]⟩ routes) n [(pathKey, .text p)] =
      .found ⟨cleanPath (pre ++ lstrip (· = '/') p), .any, []⟩ ∧
    lookup (.incl (some n) ⟨pre, [⟨pathKey, .path, []⟩]⟩ routes) n [(pathKey, .text p), (k, v)] = .noMatch := by
  have hlp : '{' ∉ lstrip (· = '/') p := fun h => hp (List.dropWhile_sublist _ |>.subset h)
  have hident : Ident pathKey := ⟨'p', "ath".toList, rfl, by decide, by decide⟩
  constructor
  · obtain ⟨f1, -⟩ := replaceParams_iff ⟨pre, [⟨pathKey, .path, []⟩]⟩ hpre [(pathKey, .text (lstrip (· = '/') p))]
      (by simpa using hident) (by simp) (by simpa [display] using hlp)
    have := f1 (by
      intro kv hkv q hq e
      rw [List.mem_singleton.1 hkv, List.mem_singleton.1 hq]
      rfl)
    have e : aset [(pathKey, Val.text p)] pathKey (.text (lstrip (· = '/') p)) =
        [(pathKey, .text (lstrip (· = '/') p))] := by simp [aset]
    have hg : aget [(pathKey, Val.text p)] pathKey = some (.text p) := by simp [aget]
    rw [lookup, hg, if_pos ⟨rfl, rfl⟩]
    dsimp only
    rw [e, this]
    simp [names, mixParts, put, aget, display]
  · obtain ⟨f1, -⟩ := replaceParams_iff ⟨pre, [⟨pathKey, .path, []⟩]⟩ hpre
      [(pathKey, .text (lstrip (· = '/') p)), (k, v)]
      (by simpa using ⟨hident, hk⟩) (by simpa using Ne.symm hkp) (by simpa [display] using ⟨hlp, hv⟩)
    have := f1 (by
      intro kv hkv q hq e
      rw [List.mem_singleton.1 hq] at e ⊢
      rcases List.mem_cons.1 hkv with h | h
      · rw [h]; rfl
      · rw [List.mem_singleton.1 h] at e; exact absurd e.symm hkp)
    have e : aset [(pathKey, Val.text p), (k, v)] pathKey (.text (lstrip (· = '/') p)) =
        [(pathKey, .text (lstrip (· = '/') p)), (k, v)] := by simp [aset]
    have hg : aget [(pathKey, Val.text p), (k, v)] pathKey = some (.text p) := by simp [aget]
    rw [lookup, hg, if_pos ⟨rfl, rfl⟩]
    dsimp only
    rw [e, this]
    simp [names, hkp]

example : WellFormed ⟨"/static/".toList, [⟨pathKey, .path, []⟩]⟩ := by
  refine ⟨⟨by decide, by decide⟩, ?_, by decide⟩
  intro p hp
  rw [List.mem_singleton.1 hp]
  exact ⟨⟨'p', "ath".toList, rfl, by decide, by decide⟩, by decide, by decide⟩

/-- The same for a host with a name; with another parameter there is no such URL. -/
theorem C88_host_mount (h n p k : Str) (v : Val) (routes : List Route) (hk : k ≠ pathKey) (hb : '{' ∉ h) :
    lookup (.host (some n) ⟨h, []⟩ routes) n [(pathKey, .text p)] = .found ⟨p, .any, h⟩ ∧
    lookup (.host (some n) ⟨h, []⟩ routes) n [(pathKey, .text p), (k, v)] = .noMatch := by
  have hc : contains h ('{' :: (k ++ ['}'])) = false := by
    have := HostRouting.contains_noopen h hb [] (k ++ ['}'])
    rwa [List.append_nil] at this
  constructor
  · have hg : aget [(pathKey, Val.text p)] pathKey = some (.text p) := by simp [aget]
    rw [lookup, hg, if_pos ⟨rfl, rfl⟩]
    simp [adel, replaceLoop, Tmpl.format, formatParts]
  · have hg : aget [(pathKey, Val.text p), (k, v)] pathKey = some (.text p) := by simp [aget]
    rw [lookup, hg, if_pos ⟨rfl, rfl⟩]
    simp [adel, replaceLoop, Tmpl.format, formatParts, hk, hc]

/-- A value of the wrong type for a parameter of an include or a host is an exception, not "no such URL". -/
theorem C88_mount_raised :
    lookup (.incl (some "m".toList) ⟨"/".toList, [⟨"id".toList, .int, "/".toList⟩, ⟨"path".toList, .path, []⟩]⟩ [])
      "m".toList [(pathKey, .text []), ("id".toList, .text "x".toList)] = .raised ∧
    lookup (.host (some "m".toList) ⟨[], [⟨"id".toList, .int, ".org".toList⟩]⟩ [])
      "m".toList [(pathKey, .text []), ("id".toList, .text "x".toList)] = .raised := by
  constructor <;> decide +kernel

/-- Without the parameters of an include, the lookup does not fail: it gives a URL with the placeholder in it, which
leads to another tenant's page. -/
theorem C88_unfilled_false :
    lookupAny exRoutes "t:user".toList [("id".toList, .nat 7)] = .found ⟨"/{tenant}/users/7".toList, .http, []⟩ ∧
    arrive [exTenant] exUser [] "/{tenant}/users/7".toList =
      some ([("tenant".toList, "{tenant}".toList)], .params [("id".toList, .nat 7)]) := by
  constructor <;> decide +kernel

/-- A route whose include uses a parameter of the same name is never found, though requests reach it. -/
theorem C88_shared_false (v : Nat) :
    lookupAny [.incl none ⟨"/".toList, [⟨"id".toList, .int, "/".toList⟩, ⟨"path".toList, .path, []⟩]⟩
      [.path "user".toList exUser .http]] "user".toList [("id".toList, .nat v)] = .noMatch := by
  have hr : ∀ x, replaceParams ⟨"/".toList, [⟨"id".toList, .int, "/".toList⟩, ⟨"path".toList, .path, []⟩]⟩
      [("id".toList, .nat v), ("path".toList, .text [])] = x → ∃ p, x = some (p, []) := by
    intro x hx
    obtain ⟨f1, -⟩ := replaceParams_iff ⟨"/".toList, [⟨"id".toList, .int, "/".toList⟩, ⟨"path".toList, .path, []⟩]⟩
      ⟨⟨by decide, by decide⟩, by
        intro p hp
        rcases List.mem_cons.1 hp with e | e
        · rw [e]; exact ⟨⟨'i', ['d'], rfl, by decide, by decide⟩, by decide, by decide⟩
        · rw [List.mem_singleton.1 e]; exact ⟨⟨'p', "ath".toList, rfl, by decide, by decide⟩, by decide, by decide⟩,
        by decide⟩
      [("id".toList, .nat v), ("path".toList, .text [])]
      (by
        intro kv hkv
        rcases List.mem_cons.1 hkv with e | e
        · rw [e]; exact ⟨'i', ['d'], rfl, by decide, by decide⟩
        · rw [List.mem_singleton.1 e]; exact ⟨'p', "ath".toList, rfl, by decide, by decide⟩)
      (show (["id".toList, "path".toList] : List Str).Pairwise (· ≠ ·) by decide)
      (by
        intro kv hkv
        rcases List.mem_cons.1 hkv with e | e
        · rw [e]
          intro hm
          have := (natToDec_spec v).1.2 _ hm
          revert this; unfold Digit; decide
        · rw [List.mem_singleton.1 e]; decide)
    have := f1 (by
      intro kv hkv p hp e
      rcases List.mem_cons.1 hkv with h | h <;> rcases List.mem_cons.1 hp with g | g
      · rw [h, g]; rfl
      · rw [h, List.mem_singleton.1 g] at e
        exact absurd e (show ¬ "path".toList = "id".toList by decide)
      · rw [List.mem_singleton.1 h, g] at e; exact absurd e (by decide)
      · rw [List.mem_singleton.1 h, List.mem_singleton.1 g]; rfl)
    rw [this] at hx
    exact ⟨_, hx.symm⟩
  obtain ⟨p, hp⟩ := hr _ rfl
  have e : aset [("id".toList, Val.nat v)] pathKey (.text []) = [("id".toList, .nat v), ("path".toList, .text [])] := rfl
  have hf : fits exUser [] = false := by decide
  have hh : handOn [("id".toList, Val.nat v)] [] = [] := rfl
  simp only [lookupAny, lookup, rest, e, hp, hh, hf]
  rfl

/-- An include without a name is asked for every name: when it has a parameter of the same name but another type, a
lookup meant for a later route raises instead of giving its URL. -/
theorem C88_shadow_false :
    lookupAny [.incl none ⟨"/".toList, [⟨"id".toList, .int, "/".toList⟩, ⟨"path".toList, .path, []⟩]⟩ [],
      .path "page".toList ⟨"/pages/".toList, [⟨"id".toList, .str, []⟩]⟩ .http] "page".toList
      [("id".toList, .text "about".toList)] = .raised ∧
    lookupAny [.path "page".toList ⟨"/pages/".toList, [⟨"id".toList, .str, []⟩]⟩ .http] "page".toList
      [("id".toList, .text "about".toList)] = .found ⟨"/pages/about".toList, .http, []⟩ := by
  constructor <;> decide +kernel

/-- `reverse` without a dictionary, or with an empty one, is the lookup with its keyword arguments; with a dictionary
and other keyword arguments it is the lookup with both. -/
theorem C88_reverse (rs : List Route) (name : Str) (dict kwargs : List (Str × Val))
    (hd : ((dict ++ kwargs).map (·.1)).Nodup) :
    (reverse rs name dict kwargs).1 = lookupAny rs name (dict ++ kwargs) := by
  have h : ∀ (e d : List (Str × Val)), ((d ++ e).map (·.1)).Nodup → aupdate d e = d ++ e := by
    intro e
    induction e with
    | nil => exact fun d _ => (List.append_nil d).symm
    | cons kv e ih =>
      intro d hd
      have hset : aset d kv.1 kv.2 = d ++ [kv] := by
        have hnot : ∀ x ∈ d, x.1 ≠ kv.1 := by
          intro x hx heq
          rw [List.map_append, List.nodup_append] at hd
          exact hd.2.2 x.1 (List.mem_map.mpr ⟨x, hx, rfl⟩) kv.1 (by simp) heq
        clear ih hd
        induction d with
        | nil => rfl
        | cons x d ihd =>
          obtain ⟨k, v⟩ := x
          show (if k = kv.1 then _ else _) = _
          rw [if_neg (hnot (k, v) (by simp)), ihd (fun y hy => hnot y (List.mem_cons_of_mem _ hy))]
          rfl
      show aupdate (aset d kv.1 kv.2) e = _
      rw [hset, ih _ (by simpa using hd)]
      simp
  show lookupAny rs name (aupdate dict kwargs) = _
  rw [h kwargs dict hd]

example : (reverse exRoutes "t:user".toList [("tenant".toList, .text "a".toList)] [("id".toList, .nat 7)]).1 =
    .found ⟨"/a/users/7".toList, .http, []⟩ := by decide +kernel

/-- `reverse` writes its keyword arguments into the dictionary of the caller: a dictionary used for one URL does not do
for the next, and gives the URL of the earlier page where a parameter is left to it. -/
theorem C88_reuse_false :
    (reverse [.path "home".toList ⟨"/".toList, []⟩ .http] "home".toList [] []).1 = .found ⟨"/".toList, .http, []⟩ ∧
    (reverse exRoutes "t:user".toList [("tenant".toList, .text "a".toList)] [("id".toList, .nat 7)]).2 =
      [("tenant".toList, .text "a".toList), ("id".toList, .nat 7)] ∧
    (reverse [.path "home".toList ⟨"/".toList, []⟩ .http] "home".toList
      (reverse exRoutes "t:user".toList [] [("tenant".toList, .text "a".toList), ("id".toList, .nat 7)]).2 []).1 =
      .noMatch ∧
    (reverse exRoutes "t:user".toList
      (reverse exRoutes "t:user".toList [("tenant".toList, .text "a".toList)] [("id".toList, .nat 7)]).2 []).1 =
      .found ⟨"/a/users/7".toList, .http, []⟩ := by
  refine ⟨?_, ?_, ?_, ?_⟩ <;> decide +kernel

/-- The host of a `Host` inside an include is dropped: the URL for a route of `api.example.org` names no host. -/
theorem C88_host_false :
    lookupAny [.host none ⟨"api.example.org".toList, []⟩ [.path "home".toList ⟨"/".toList, []⟩ .http]]
      "home".toList [] = .found ⟨"/".toList, .http, "api.example.org".toList⟩ ∧
    lookupAny [.incl none ⟨"/v1/".toList, [⟨"path".toList, .path, []⟩]⟩
      [.host none ⟨"api.example.org".toList, []⟩ [.path "home".toList ⟨"/".toList, []⟩ .http]]]
      "home".toList [] = .found ⟨"/v1/".toList, .http, []⟩ := by
  constructor <;> decide +kernel

end Verif.Reverse
