import Verif.HostRouting.Lemmas

/-!
# C67: routing by host

Full statement: a `Host` route is taken exactly for requests whose host is one of its pattern, whatever port either of
them has and in whatever case they are written; the parameters are the parts of the host.  Looking up a URL gives a
host of the pattern from which the same parameters are read, and the path that the inner route gives for the other
parameters.
-/

namespace Verif.HostRouting

open Verif Path Path.Spec Spec

/-- **C67 for the pattern**: with or without a port in the text, the route is that of the pattern. -/
theorem C67_compile (t : Tmpl) (port : Str) (ht : HostPattern t) (hp : Port port) :
    compileHost (tmplText t ++ port) = .ok (t, Tmpl.mapEnd (· ++ port) t) := compileHost_text t port ht hp

/-- `{sub}.example.org` -/
def exSub : Tmpl := ⟨[], [⟨"sub".toList, .str, ".example.org".toList⟩]⟩

theorem exSub_pattern : HostPattern exSub :=
  ⟨⟨⟨by decide, by decide⟩, List.forall_mem_cons.2 ⟨⟨⟨'s', "ub".toList, rfl, by decide, by decide⟩, by decide, by decide⟩,
    by simp⟩, by decide⟩, by decide, by decide⟩

example : ∃ u, compileHost "{sub:str}.example.org:8000".toList = .ok (exSub, u) :=
  ⟨_, C67_compile exSub ":8000".toList exSub_pattern (.inr ⟨"8000".toList, rfl, by unfold Digit; decide⟩)⟩

/-- **C67 for the choice of the route**, up to letter case and for hosts that are not IPv6 addresses: the route is taken
exactly when the host, without its port, is read by the pattern, and then the values are those of a reading. -/
theorem C67_match_partial (h : Host) (headers : MultiDict.Items Str) (host port : Str) (hp : Port port)
    (hc : ':' ∉ host) (hnl : ∀ a, host ≠ a ++ ['\n']) (hf : hostField headers (host ++ port)) :
    (search h headers = .none ↔ ¬ ∃ vs, Reads h.regex host vs) ∧
    ∀ xs, search h headers = .params xs → ∃ vs, Reads h.regex host vs ∧ transformAll h.regex.parts vs = some xs := by
  have hh := hostOf_field headers host port hc hp hf
  unfold search
  rw [hh]
  cases hm : matchRegex h.regex host with
  | none =>
    simp only
    refine ⟨⟨fun _ ⟨vs, hv⟩ => ?_, fun _ => trivial⟩, fun xs hx => by cases hx⟩
    obtain ⟨ws, hw⟩ := regex_complete _ _ _ hv
    rw [hm] at hw
    cases hw
  | some vs =>
    have hr := regex_exact h.regex host hnl vs hm
    simp only
    cases ht : transformAll h.regex.parts vs with
    | none => exact ⟨⟨fun hx => (by cases hx), fun hn => absurd ⟨vs, hr⟩ hn⟩, fun xs hx => by cases hx⟩
    | some ys =>
      refine ⟨⟨fun hx => (by cases hx), fun hn => absurd ⟨vs, hr⟩ hn⟩, fun xs hx => ?_⟩
      cases hx
      exact ⟨vs, hr, ht⟩

example : search ⟨none, exSub, exSub, []⟩ [("Host".toList, "api.example.org:8000".toList)] =
    .params [("sub".toList, .text "api".toList)] := by decide +kernel

example : search ⟨none, exSub, exSub, []⟩ [("Host".toList, "api.example.com".toList)] = .none := by decide +kernel

/-- **C67, ports**: the port of the request does not matter. -/
theorem C67_port (h : Host) (host port port' : Str) (hp : Port port) (hp' : Port port') (hc : ':' ∉ host)
    (headers headers' : MultiDict.Items Str) (hf : hostField headers (host ++ port))
    (hf' : hostField headers' (host ++ port')) : search h headers = search h headers' := by
  unfold search
  rw [hostOf_field headers host port hc hp hf, hostOf_field headers' host port' hc hp' hf']

/-- **C67 for looking up and coming back**: the host that is built for accepted values that leave no doubt is read back
as the same values, and the path is the one that was given. -/
theorem C67_roundtrip_partial (t : Tmpl) (ht : HostPattern t) (name : Str) (port : Str) (hp : Port port)
    (routes : List (Str → List (Str × Val) → Option Str)) (val : Str → Val)
    (hacc : ∀ p ∈ t.parts, Accepts p.conv (val p.name)) (hop : ∀ p ∈ t.parts, '{' ∉ display (val p.name))
    (hclear : Clear t fun n => display (val n))
    (hcol : ∀ p ∈ t.parts, ':' ∉ display (val p.name)) (hnl : ∀ a, (fill t fun n => display (val n)) ≠ a ++ ['\n'])
    (path : Str) (hpath : "path".toList ∉ t.parts.map (·.name))
    (keys : List Str) (hkeys : keys.Perm (t.parts.map (·.name)))
    (headers : MultiDict.Items Str) (hf : hostField headers ((fill t fun n => display (val n)) ++ port)) :
    urlPathFor ⟨some name, t, Tmpl.mapEnd (· ++ port) t, routes⟩ name
        (("path".toList, .text path) :: keys.map fun k => (k, val k)) =
      some (path, (fill t fun n => display (val n)) ++ port) ∧
    search ⟨some name, t, Tmpl.mapEnd (· ++ port) t, routes⟩ headers =
      .params (t.parts.map fun p => (p.name, val p.name)) := by
  have hfill : ':' ∉ fill t fun n => display (val n) := by
    unfold fill
    intro hm
    rcases List.mem_append.mp hm with hm | hm
    · exact ht.2.1 hm
    · obtain ⟨p, hp1, hm⟩ := List.mem_flatMap.mp hm
      rcases List.mem_append.mp hm with hm | hm
      · exact hcol p hp1 hm
      · exact ht.2.2 p hp1 hm
  constructor
  · generalize hk : "path".toList = k at hpath
    have hkk : k ∉ keys := fun hm => hpath (hkeys.subset hm)
    have hg : aget ((k, Val.text path) :: keys.map fun k => (k, val k)) k = some (.text path) := by simp [aget]
    have hd : adel ((k, Val.text path) :: keys.map fun k => (k, val k)) k = keys.map fun k => (k, val k) := by
      have : ∀ ks : List Str, k ∉ ks → adel (ks.map fun k => (k, val k)) k = ks.map fun k => (k, val k) := by
        intro ks hks
        induction ks with
        | nil => rfl
        | cons x ks ih =>
          rw [List.mem_cons, not_or] at hks
          rw [List.map_cons, adel, if_neg (Ne.symm hks.1), ih hks.2]
      rw [adel, if_pos rfl]
      exact this keys hkk
    have hnames := mapEnd_names (· ++ port) t
    have hwf := wellFormed_port t port ht.1 hp
    have hnd : keys.Pairwise (· ≠ ·) := (hkeys.pairwise_iff (fun h => Ne.symm h)).2 ht.1.2.2
    have hid : ∀ n ∈ keys, Ident n := by
      intro n hn
      obtain ⟨p, hp1, rfl⟩ := List.mem_map.mp (hkeys.subset hn)
      exact (ht.1.2.1 p hp1).1
    have hrep := replaceHost (Tmpl.mapEnd (· ++ port) t) hwf val
      (mapEnd_conv _ (fun n c => Accepts c (val n)) t hacc)
      (mapEnd_conv _ (fun n _ => '{' ∉ display (val n)) t hop)
      (keys.map fun k => (k, val k))
      (by intro kv hkv; obtain ⟨x, hx, rfl⟩ := List.mem_map.mp hkv; exact hid x hx)
      (by rw [List.map_map]; simpa [Function.comp_def] using hnd)
      (by intro kv hkv _; obtain ⟨x, hx, rfl⟩ := List.mem_map.mp hkv; rfl)
      (by
        intro n hn
        rw [hnames] at hn
        rw [List.map_map]
        simpa [Function.comp_def] using hkeys.symm.subset hn)
    have hnone : (keys.map fun k => (k, val k)).filter
        (fun kv => !((Tmpl.mapEnd (· ++ port) t).parts.map (·.name)).contains kv.1) = [] := by
      rw [List.filter_eq_nil_iff]
      intro kv hkv
      obtain ⟨x, hx, rfl⟩ := List.mem_map.mp hkv
      rw [hnames]
      simpa using hkeys.subset hx
    rw [hnone] at hrep
    unfold urlPathFor lookupNamed
    simp only [hk]
    rw [hg, if_pos ⟨trivial, rfl⟩, hd]
    simp only
    rw [hrep]
    simp only
    rw [fill_mapEnd]
  · have hreads : Reads t (fill t fun n => display (val n)) (t.parts.map fun p => (p.name, display (val p.name))) :=
      ⟨_, rfl, cut_fill t.parts (fun n => display (val n)) (fun p hp => (accepts_spec _ _ (hacc p hp)).2.1)⟩
    obtain ⟨ws, hw⟩ := regex_complete _ _ _ hreads
    have hws := clear_unique t (fun n => display (val n)) hclear (fun p hp => (accepts_spec _ _ (hacc p hp)).2.1) ws
      (regex_exact _ _ hnl _ hw)
    unfold search
    simp only
    rw [hostOf_field headers _ port hfill hp hf, hw]
    simp only
    rw [hws, transformAll_fill t.parts val hacc]

example : urlPathFor ⟨some "sub".toList, exSub, exSub, []⟩ "sub".toList
      [("path".toList, .text "/".toList), ("sub".toList, .text "api".toList)] =
    some ("/".toList, "api.example.org".toList) := by decide +kernel

/-- `{tenant}.{region}.example.org` -/
def exTwo : Tmpl := ⟨[], [⟨"tenant".toList, .str, ".".toList⟩, ⟨"region".toList, .str, ".example.org".toList⟩]⟩

example : Clear exTwo fun n => if n = "tenant".toList then "acme".toList else "eu".toList :=
  .inr ⟨⟨⟨[], rfl⟩, trivial⟩, by decide⟩

/-- **C67 for the routes behind the host**: the parameters of the pattern make the host, and the first inner route that
knows the rest of the name and the other parameters gives the path. -/
theorem C67_nested_partial (t : Tmpl) (ht : HostPattern t) (name : Option Str) (port : Str) (hp : Port port)
    (routes : List (Str → List (Str × Val) → Option Str)) (val : Str → Val)
    (hacc : ∀ p ∈ t.parts, Accepts p.conv (val p.name)) (hop : ∀ p ∈ t.parts, '{' ∉ display (val p.name))
    (kvs : List (Str × Val)) (hid : ∀ kv ∈ kvs, Ident kv.1) (hnd : (kvs.map (·.1)).Pairwise (· ≠ ·))
    (hval : ∀ kv ∈ kvs, kv.1 ∈ t.parts.map (·.name) → kv.2 = val kv.1)
    (hall : ∀ n ∈ t.parts.map (·.name), n ∈ kvs.map (·.1)) (inner : Str) :
    urlPathFor ⟨name, t, Tmpl.mapEnd (· ++ port) t, routes⟩ (((name.map (· ++ [':'])).getD []) ++ inner) kvs =
      (routes.findSome? fun r => r inner (kvs.filter fun kv => kv.1 ∉ t.parts.map (·.name))).map
        fun path => (path, (fill t fun n => display (val n)) ++ port) := by
  have hnames := mapEnd_names (· ++ port) t
  have hrep := replaceHost (Tmpl.mapEnd (· ++ port) t) (wellFormed_port t port ht.1 hp) val
    (mapEnd_conv _ (fun n c => Accepts c (val n)) t hacc)
    (mapEnd_conv _ (fun n _ => '{' ∉ display (val n)) t hop) kvs hid hnd
    (by rw [hnames]; exact hval) (by rw [hnames]; exact hall)
  rw [fill_mapEnd, hnames] at hrep
  have hfilter : (kvs.filter fun kv => !(t.parts.map (·.name)).contains kv.1) =
      kvs.filter fun kv => kv.1 ∉ t.parts.map (·.name) := by
    congr 1
    funext kv
    by_cases hk : kv.1 ∈ t.parts.map (·.name)
    · rw [List.contains_iff_mem.mpr hk]; simpa using hk
    · have : (t.parts.map (·.name)).contains kv.1 = false := by
        rw [Bool.eq_false_iff]; exact fun h => hk (List.contains_iff_mem.mp h)
      rw [this]; simpa using hk
  rw [hfilter] at hrep
  have hnest : ∀ nm, lookupNested ⟨nm, t, Tmpl.mapEnd (· ++ port) t, routes⟩ inner kvs =
      (routes.findSome? fun r => r inner (kvs.filter fun kv => kv.1 ∉ t.parts.map (·.name))).map
        fun path => (path, (fill t fun n => display (val n)) ++ port) := by
    intro nm
    unfold lookupNested
    simp only
    rw [hrep]
  cases name with
  | none => exact hnest none
  | some n =>
    unfold urlPathFor
    simp only [Option.map_some, Option.getD_some]
    rw [if_neg, if_pos, ← hnest (some n)]
    · congr 1
      rw [show n ++ [':'] ++ inner = (n ++ [':']) ++ inner by rfl, List.drop_left' (by simp)]
    · unfold startsWith
      rw [List.isPrefixOf_iff_prefix]
      exact ⟨inner, rfl⟩
    · rintro ⟨e, _⟩
      have := congrArg List.length e
      simp at this

example : urlPathFor ⟨some "sub".toList, exSub, exSub,
      [fun n ps => if n = "user".toList ∧ ps = [("id".toList, .nat 7)] then some "/users/7".toList else none]⟩
      "sub:user".toList [("id".toList, .nat 7), ("sub".toList, .text "api".toList)] =
    some ("/users/7".toList, "api.example.org".toList) := by decide +kernel

/-- **C67 for a parameter too many**: by the name of the host itself only its own parameters may be given. -/
theorem C67_unused (t : Tmpl) (ht : HostPattern t) (name : Str) (port : Str) (hp : Port port)
    (routes : List (Str → List (Str × Val) → Option Str)) (val : Str → Val)
    (hacc : ∀ p ∈ t.parts, Accepts p.conv (val p.name)) (hop : ∀ p ∈ t.parts, '{' ∉ display (val p.name))
    (kvs : List (Str × Val)) (hid : ∀ kv ∈ kvs, Ident kv.1) (hnd : (kvs.map (·.1)).Pairwise (· ≠ ·))
    (hval : ∀ kv ∈ kvs, kv.1 ∈ t.parts.map (·.name) → kv.2 = val kv.1)
    (hall : ∀ n ∈ t.parts.map (·.name), n ∈ kvs.map (·.1)) (path : Str) (hpath : "path".toList ∉ kvs.map (·.1))
    (extra : Str × Val) (he : extra ∈ kvs) (hne : extra.1 ∉ t.parts.map (·.name)) :
    urlPathFor ⟨some name, t, Tmpl.mapEnd (· ++ port) t, routes⟩ name (("path".toList, .text path) :: kvs) = none := by
  generalize hk : "path".toList = k at hpath
  have hg : aget ((k, Val.text path) :: kvs) k = some (.text path) := by simp [aget]
  have hd : adel ((k, Val.text path) :: kvs) k = kvs := by
    have : ∀ l : List (Str × Val), k ∉ l.map (·.1) → adel l k = l := by
      intro l hl
      induction l with
      | nil => rfl
      | cons x l ih =>
        rw [List.map_cons, List.mem_cons, not_or] at hl
        rw [adel, if_neg (Ne.symm hl.1), ih hl.2]
    rw [adel, if_pos rfl]
    exact this kvs hpath
  have hnames := mapEnd_names (· ++ port) t
  have hrep := replaceHost (Tmpl.mapEnd (· ++ port) t) (wellFormed_port t port ht.1 hp) val
    (mapEnd_conv _ (fun n c => Accepts c (val n)) t hacc)
    (mapEnd_conv _ (fun n _ => '{' ∉ display (val n)) t hop) kvs hid hnd
    (by rw [hnames]; exact hval) (by rw [hnames]; exact hall)
  rw [hnames] at hrep
  have hmem : extra ∈ kvs.filter fun kv => !(t.parts.map (·.name)).contains kv.1 := by
    rw [List.mem_filter]
    refine ⟨he, ?_⟩
    have : (t.parts.map (·.name)).contains extra.1 = false := by
      rw [Bool.eq_false_iff]; exact fun h => hne (List.contains_iff_mem.mp h)
    rw [this]; rfl
  unfold urlPathFor lookupNamed
  simp only [hk]
  rw [hg, if_pos ⟨trivial, rfl⟩, hd]
  simp only
  rw [hrep]
  generalize (kvs.filter fun kv => !(t.parts.map (·.name)).contains kv.1) = l at hmem
  cases l with
  | nil => cases hmem
  | cons x l => rfl

example : urlPathFor ⟨some "sub".toList, exSub, exSub, []⟩ "sub".toList
      [("path".toList, .text "/".toList), ("sub".toList, .text "api".toList), ("id".toList, .nat 7)] = none := by
  decide +kernel

/-- **C67 for a path that is no text**: the lookup fails. -/
theorem C67_path (h : Host) (name : Str) (hn : h.name = some name) (v : Val) (hv : ∀ s, v ≠ .text s)
    (kvs : List (Str × Val)) : urlPathFor h name (("path".toList, v) :: kvs) = none := by
  generalize hk : "path".toList = k
  have hg : aget ((k, v) :: kvs) k = some v := by simp [aget]
  unfold urlPathFor lookupNamed
  rw [hn]
  simp only [hk]
  rw [hg, if_pos ⟨trivial, rfl⟩]
  cases v with
  | text s => exact absurd rfl (hv s)
  | nat n => rfl
  | obj k s => rfl

example : ∀ s, Val.nat 3 ≠ .text s := by intro s h; cases h

/-- **C67 for a value that does not fit its parameter**: the lookup behind the host fails, whatever the routes there
are. -/
theorem C67_unfit (t : Tmpl) (ht : HostPattern t) (name : Option Str) (port : Str) (hp : Port port)
    (routes : List (Str → List (Str × Val) → Option Str)) (p : Part) (hm : p ∈ t.parts) (v : Val) (hv : Unfit p.conv v)
    (kvs : List (Str × Val)) (inner : Str) :
    urlPathFor ⟨name, t, Tmpl.mapEnd (· ++ port) t, routes⟩ (((name.map (· ++ [':'])).getD []) ++ inner)
      ((p.name, v) :: kvs) = none := by
  obtain ⟨q, hq, hqn, hqc⟩ : ∃ q ∈ (Tmpl.mapEnd (· ++ port) t).parts, q.name = p.name ∧ q.conv = p.conv := by
    have := mapEnd_names (· ++ port) t
    have hn : p.name ∈ (Tmpl.mapEnd (· ++ port) t).parts.map (·.name) := by
      rw [this]; exact List.mem_map.mpr ⟨p, hm, rfl⟩
    obtain ⟨q, hq, hqn⟩ := List.mem_map.mp hn
    refine ⟨q, hq, hqn, ?_⟩
    have hc := mapEnd_conv (· ++ port) (fun n c => convOf t.parts n = some c) t
      (fun r hr => convOf_mem t.parts ht.1.2.2 r hr) q hq
    rw [hqn, convOf_mem t.parts ht.1.2.2 p hm] at hc
    exact (Option.some.inj hc).symm
  have hrep := replaceLoop_unfit _ (wellFormed_port t port ht.1 hp) q hq v (hqc ▸ hv) kvs
  rw [hqn] at hrep
  have hnest : ∀ nm, lookupNested ⟨nm, t, Tmpl.mapEnd (· ++ port) t, routes⟩ inner ((p.name, v) :: kvs) = none := by
    intro nm
    unfold lookupNested
    simp only
    rw [hrep]
  cases name with
  | none => exact hnest none
  | some n =>
    unfold urlPathFor
    simp only [Option.map_some, Option.getD_some]
    rw [if_neg, if_pos]
    · rw [← hnest (some n)]
      congr 1
      rw [show n ++ [':'] ++ inner = (n ++ [':']) ++ inner by rfl, List.drop_left' (by simp)]
    · unfold startsWith
      rw [List.isPrefixOf_iff_prefix]
      exact ⟨inner, rfl⟩
    · rintro ⟨e, _⟩
      have := congrArg List.length e
      simp at this

example : Unfit .str (.text "a/b".toList) ∧
    urlPathFor ⟨some "sub".toList, exSub, exSub, [fun _ _ => some ['/']]⟩ "sub:home".toList
      [("sub".toList, .text "a/b".toList)] = none :=
  ⟨.inr (by decide), by decide +kernel⟩

/-- **False for letter case**: host names do not depend on it, the comparison does. -/
theorem C67_case_false :
    search ⟨none, ⟨"example.org".toList, []⟩, ⟨"example.org".toList, []⟩, []⟩
      [("host".toList, "Example.ORG".toList)] = .none := by decide +kernel

/-- **False for IPv6**: a pattern with an IPv6 address is cut at its first colon, as is the host, so it takes every
request to any IPv6 address. -/
theorem C67_ipv6_false (rest : Str) (headers : MultiDict.Items Str)
    (hf : hostField headers ('[' :: ':' :: rest)) :
    ∃ r f, compileHost "[::1]".toList = .ok (r, f) ∧ search ⟨none, r, f, []⟩ headers = .params [] := by
  refine ⟨⟨['['], []⟩, ⟨"[::1]".toList, []⟩, by rfl, ?_⟩
  have hh : hostOf headers = ['['] := by
    unfold hostField at hf
    unfold hostOf MultiDict.get beforeColon
    rw [hf]
    rw [List.head?_cons, Option.getD_some, show '[' :: ':' :: rest = ['['] ++ ':' :: rest by rfl,
      splitOn_append_sep _ _ _ (by decide)]
    rfl
  unfold search
  rw [hh]
  rfl

example : hostField [("host".toList, "[::2]:80".toList)] ('[' :: ':' :: ":2]:80".toList) := by
  unfold hostField
  decide

/-- **False for values with dots**: the same host is read in another way. -/
theorem C67_dots_false :
    urlPathFor ⟨some "x".toList, exTwo, exTwo, []⟩ "x".toList [("path".toList, .text "/".toList),
      ("tenant".toList, .text "a".toList), ("region".toList, .text "b.c".toList)] =
        some ("/".toList, "a.b.c.example.org".toList) ∧
    search ⟨some "x".toList, exTwo, exTwo, []⟩ [("host".toList, "a.b.c.example.org".toList)] =
      .params [("tenant".toList, .text "a.b".toList), ("region".toList, .text "c".toList)] := by
  decide +kernel

/-- **False when a parameter of the host is left out**: the lookup behind the host does not fail, the host that is given
has the placeholder in it. -/
theorem C67_unfilled_false (path : Str) :
    urlPathFor ⟨some "sub".toList, exSub, exSub, [fun _ _ => some path]⟩ "sub:home".toList [] =
      some (path, "{sub}.example.org".toList) := by rfl

/-- **False when host and path share a parameter name**: the host takes the value and the inner route is asked without
it. -/
theorem C67_shared_false (routes : List (Str → List (Str × Val) → Option Str)) :
    urlPathFor ⟨none, exSub, exSub, routes⟩ "user".toList [("sub".toList, .text "api".toList)] =
      (routes.findSome? fun r => r "user".toList []).map fun p => (p, "api.example.org".toList) := by rfl

end Verif.HostRouting
