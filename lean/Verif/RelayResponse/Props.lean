import Verif.RelayResponse.Lemmas

/-!
# The reverse proxy, the response: properties

C129: a response that the proxy passes on is the response of the upstream server: it has the same status, the same
header fields except those that concern one connection or are listed to be dropped, and a client reads the
same content from it.  This is false of responses with a content coding (`C129_coded_false`), of repeated fields
such as `Set-Cookie` (`C129_cookies_false`), of header values in UTF-8 (`C129_text_false`), and of dropped cookies
(`C129_drop_false`).
-/

namespace Verif.RelayResponse.Props

open Verif Verif.RelayResponse Spec

/-- Without a content coding, without repeated fields, and with header fields that are ASCII (or, if not, not all of
them UTF-8): status, body and the fields to be kept are passed on unchanged and in order, with the names in lower case.
Missing: the other responses. -/
theorem C129_partial (dec : Decoders) (cfg : RelayHeaders.Config) (u : Upstream)
    (hb : ∀ kv ∈ u.headers, Bytes kv.1 ∧ Bytes kv.2) (ha : AsciiFields u.headers ∨ NotUtf8 u.headers)
    (hn : (u.headers.map fun kv => lower kv.1).Nodup) (hc : values u.headers "Content-Encoding".toList = []) :
    ∃ kept : Fields, forward dec cfg none u = some ⟨u.status, kept.map fun kv => (lower kv.1, kv.2), some u.body⟩ ∧
      kept.Sublist u.headers ∧ ∀ kv, kv ∈ kept ↔ kv ∈ u.headers ∧ Kept cfg kv.1 := by
  have hd := direct_of ha
  refine ⟨u.headers.filter fun kv => keeps cfg kv.1, ?_, List.filter_sublist, ?_⟩
  · rw [forward, encode_passed hd hb, codings_none dec hc, passed_distinct hd hn]
    rfl
  · intro kv
    rw [List.mem_filter, keeps_iff]

/-- A configuration for the examples. -/
def cfg0 : RelayHeaders.Config := { dropResponse := ["Server".toList], baseHost := "up".toList }

/-- A decoder for the examples: it knows the coding `z`, which puts a letter in front. -/
def dec0 : Decoders := fun c =>
  if c = ['z'] then some fun b => match b with | 'z' :: r => some r | _ => none else none

/-- A response for the examples. -/
def plain0 : Upstream :=
  ⟨200, [("Content-Length".toList, "3".toList), ("server".toList, "x".toList), ("ETag".toList, ['"', 'ä', '"'])],
    "abc".toList⟩

example : (∀ kv ∈ plain0.headers, Bytes kv.1 ∧ Bytes kv.2) ∧ NotUtf8 plain0.headers ∧
    (plain0.headers.map fun kv => lower kv.1).Nodup ∧ values plain0.headers "Content-Encoding".toList = [] := by
  refine ⟨by unfold Bytes; decide +kernel, ⟨("ETag".toList, ['"', 'ä', '"']), by decide +kernel, ?_⟩, by decide +kernel,
    by decide +kernel⟩
  intro t ht
  have : isUtf8 ['"', 'ä', '"'] = true := (isUtf8_iff _).mpr ⟨t, ht⟩
  revert this
  decide +kernel

example : forward dec0 cfg0 none plain0 =
    some ⟨200, [("content-length".toList, "3".toList), ("etag".toList, ['"', 'ä', '"'])], some "abc".toList⟩ := by
  decide +kernel

/-- Whatever the coding: the response is sent with the same status, and a client finds, for each name to be kept,
the values of all fields of that name joined in one field. -/
theorem C129_values (dec : Decoders) (cfg : RelayHeaders.Config) (u : Upstream)
    (hb : ∀ kv ∈ u.headers, Bytes kv.1 ∧ Bytes kv.2) (ha : AsciiFields u.headers ∨ NotUtf8 u.headers) :
    ∃ s, forward dec cfg none u = some s ∧ s.status = u.status ∧ ∀ k, Kept cfg k →
      values s.headers k =
        if values u.headers k = [] then [] else [joinWith ", ".toList (values u.headers k)] := by
  have hd := direct_of ha
  refine ⟨⟨u.status, passed cfg none u.headers, decodeBody dec (codings dec u.headers) u.body⟩, ?_, rfl, ?_⟩
  · rw [forward, encode_passed hd hb]
    rfl
  · intro k hk
    show values (passed cfg none u.headers) k = _
    rw [values_passed hd cfg k hk]
    cases values u.headers k with
    | nil => rfl
    | cons v vs => simp [joined]

/-- A response with repeated fields. -/
def twice0 : Upstream :=
  ⟨200, [("Vary".toList, "a".toList), ("Set-Cookie".toList, "s=1".toList), ("vary".toList, "b".toList),
    ("set-cookie".toList, "t=2".toList)], []⟩

example : AsciiFields twice0.headers := by unfold AsciiFields Ascii; decide +kernel

example : forward dec0 cfg0 none twice0 =
    some ⟨200, [("vary".toList, "a, b".toList), ("set-cookie".toList, "s=1, t=2".toList)], some []⟩ := by
  decide +kernel

/-- Two or more cookies reach the client in one field, unless a callback is given. -/
theorem C129_cookies_false (dec : Decoders) (cfg : RelayHeaders.Config) (u : Upstream)
    (hb : ∀ kv ∈ u.headers, Bytes kv.1 ∧ Bytes kv.2) (ha : AsciiFields u.headers ∨ NotUtf8 u.headers)
    (hk : Kept cfg "Set-Cookie".toList) (h2 : 2 ≤ (values u.headers "Set-Cookie".toList).length) :
    ∃ s, forward dec cfg none u = some s ∧ (values s.headers "Set-Cookie".toList).length = 1 := by
  obtain ⟨s, hs, _, hv⟩ := C129_values dec cfg u hb ha
  refine ⟨s, hs, ?_⟩
  rw [hv _ hk, if_neg]
  · rfl
  · intro he
    rw [he] at h2
    exact absurd h2 (by decide)

example : 2 ≤ (values twice0.headers "Set-Cookie".toList).length := by decide +kernel

example : Kept cfg0 "Set-Cookie".toList := (keeps_iff _ _).mp (by decide +kernel)

/-- With a callback every cookie is a field of its own, rewritten as the callback says, in order, and the other fields
are as without. -/
theorem C129_callback (dec : Decoders) (cfg : RelayHeaders.Config) (f : Str → Option Str) (u : Upstream) (s : Sent)
    (ha : AsciiFields u.headers ∨ NotUtf8 u.headers) (hs : forward dec cfg (some f) u = some s) :
    values s.headers "Set-Cookie".toList =
      (values u.headers "Set-Cookie".toList).map (fun c => RelayCookies.rewriteCookie (f c) c) ∧
    ∀ k, lower k ≠ "set-cookie".toList → Kept cfg k →
      values s.headers k =
        if values u.headers k = [] then [] else [joinWith ", ".toList (values u.headers k)] := by
  have hd := direct_of ha
  rw [forward, Option.map_eq_some_iff] at hs
  obtain ⟨hs', he, hq⟩ := hs
  have hh : s.headers = passed cfg (some f) u.headers := by
    rw [← hq]
    exact encode_eq he
  have hn : ∀ l : Fields, values l "Set-Cookie".toList = values l cookieName := by
    intro l
    have : lower "Set-Cookie".toList = lower cookieName := by decide +kernel
    rw [values, values, this]
  have hg : getList u.headers cookieName = values u.headers cookieName := getList_values hd _ cookieName_low
  rw [hh, hn, hn]
  constructor
  · show values (RelayCookies.rewriteResponse f (getList u.headers cookieName) _) cookieName = _
    rw [rewriteResponse_eq]
    rw [rewrite_values f _ _ cookieName cookieName_low, hg]
    rw [hg, sanitize_eq]
    intro h0
    have h1 : values (items u.headers) cookieName = [] := by rw [values_items hd, h0]; rfl
    rw [values, List.map_eq_nil_iff, List.filter_eq_nil_iff] at h1 ⊢
    exact fun kv hkv => h1 kv (List.mem_filter.mp hkv).1
  · intro k hk hkept
    show values (RelayCookies.rewriteResponse f (getList u.headers cookieName) _) k = _
    rw [rewriteResponse_eq]
    rw [rewrite_other f _ _ cookieName k cookieName_low hk]
    have := values_passed hd cfg k hkept
    rw [passed] at this
    rw [this]
    cases values u.headers k with
    | nil => rfl
    | cons v vs => simp [joined]

example : forward dec0 cfg0 (some fun _ => none) twice0 =
    some ⟨200, [("vary".toList, "a, b".toList), ("set-cookie".toList, "s=1".toList),
      ("set-cookie".toList, "t=2".toList)], some []⟩ := by
  decide +kernel

/-- With a callback, cookies are sent although the administrator listed `Set-Cookie` to be dropped. -/
theorem C129_drop_false : ∃ (cfg : RelayHeaders.Config) (f : Str → Option Str) (u : Upstream) (s : Sent),
    RelayHeaders.Spec.Listed "Set-Cookie".toList cfg.dropResponse ∧ forward dec0 cfg (some f) u = some s ∧
    values s.headers "Set-Cookie".toList ≠ [] :=
  ⟨{ dropResponse := ["Set-Cookie".toList], baseHost := [] }, fun _ => none, twice0,
    ⟨200, [("vary".toList, "a, b".toList), ("set-cookie".toList, "s=1".toList), ("set-cookie".toList, "t=2".toList)],
      some []⟩,
    ⟨_, List.mem_singleton.mpr rfl, rfl⟩, by decide +kernel, by decide +kernel⟩

/-- A response with a content coding that the HTTP client of the proxy knows is sent decoded, with the field that
says it is coded: a client that decodes it reads what the decoder makes of the decoded bytes, if anything. -/
theorem C129_coded_false (dec : Decoders) (cfg : RelayHeaders.Config) (u : Upstream) (g x : Str)
    (d : Str → Option Str) (ha : AsciiFields u.headers) (hk : Kept cfg "Content-Encoding".toList)
    (hg : values u.headers "Content-Encoding".toList = [g]) (hl : lower (strip isSpace g) = g) (hs : ',' ∉ g)
    (hd : dec g = some d) (hx : d u.body = some x) :
    Reads dec u.headers u.body x ∧
    ∃ s, forward dec cfg none u = some s ∧ s.body = some x ∧ ∀ y, Reads dec s.headers x y → d x = some y := by
  refine ⟨.coded g x d hg hd hx, ?_⟩
  obtain ⟨s, h1, _, h2⟩ := C129_values dec cfg u (ascii_bytes ha) (.inl ha)
  refine ⟨s, h1, ?_, ?_⟩
  · rw [forward, encode_passed (direct_ascii ha) (ascii_bytes ha), Option.map_some] at h1
    cases h1
    show decodeBody dec (codings dec u.headers) u.body = some x
    have hc : codings dec u.headers = [g] := by
      have hcn : lower "Content-Encoding".toList = "content-encoding".toList := by decide +kernel
      have hcl : lower "content-encoding".toList = "content-encoding".toList := by decide +kernel
      have hv : getList u.headers "content-encoding".toList = [g] := by
        rw [getList_values (direct_ascii ha) _ hcl, ← hg, values, values, hcn, hcl]
      have hsp : splitOn ',' g = [g] := Verif.splitOn_of_not_mem _ _ hs
      rw [codings, hv]
      simp [hsp, hl, hd]
    rw [hc]
    simp [decodeBody, hd, hx]
  · intro y hy
    have hv := h2 _ hk
    rw [hg, if_neg (by simp)] at hv
    have hv : values s.headers "Content-Encoding".toList = [g] := hv
    cases hy with
    | plain h => rw [h] at hv; cases hv
    | coded g' _ d' h hd' hx' =>
      rw [h] at hv
      cases hv
      rw [hd] at hd'
      cases hd'
      exact hx'

/-- A coded response. -/
def coded0 : Upstream :=
  ⟨200, [("Content-Encoding".toList, "z".toList), ("Content-Length".toList, "4".toList)], "zabc".toList⟩

example : AsciiFields coded0.headers ∧ values coded0.headers "Content-Encoding".toList = ["z".toList] ∧
    lower (strip isSpace "z".toList) = "z".toList := by
  refine ⟨by unfold AsciiFields Ascii; decide +kernel, by decide +kernel, by decide +kernel⟩

/-- The coded response arrives with a length that is not the length of its body, and cannot be read. -/
theorem C129_unreadable_false : ∃ (u : Upstream) (s : Sent), Reads dec0 u.headers u.body "abc".toList ∧
    forward dec0 cfg0 none u = some s ∧ s.body = some "abc".toList ∧
    values s.headers "Content-Length".toList = ["4".toList] ∧ ∀ y, ¬ Reads dec0 s.headers "abc".toList y := by
  refine ⟨coded0, ⟨200, [("content-encoding".toList, "z".toList), ("content-length".toList, "4".toList)],
    some "abc".toList⟩, .coded "z".toList _ (fun b => match b with | 'z' :: r => some r | _ => none) (by decide +kernel)
      rfl rfl, by decide +kernel, rfl, by decide +kernel, ?_⟩
  intro y hy
  cases hy with
  | plain h => revert h; decide +kernel
  | coded g _ d h hd hx =>
    have hg : g = "z".toList := by
      have : values [("content-encoding".toList, "z".toList), ("content-length".toList, "4".toList)]
        "Content-Encoding".toList = ["z".toList] := by decide +kernel
      rw [this] at h
      cases h
      rfl
    subst hg
    have hd0 : dec0 "z".toList = some fun b => match b with | 'z' :: r => some r | _ => none := rfl
    rw [hd0] at hd
    cases hd
    cases hx

/-- Header values in UTF-8 are changed or make the proxy raise an exception. -/
theorem C129_text_false :
    (∃ (u : Upstream) (s : Sent) (t : Str), values u.headers "X".toList = [ExtValue.utf8 t] ∧
      forward dec0 cfg0 none u = some s ∧ values s.headers "X".toList ≠ [ExtValue.utf8 t]) ∧
    (∃ (u : Upstream) (t : Str), values u.headers "X".toList = [ExtValue.utf8 t] ∧
      forward dec0 cfg0 none u = none) :=
  ⟨⟨⟨200, [("x".toList, ExtValue.utf8 ['ä'])], []⟩, ⟨200, [("x".toList, ['ä'])], some []⟩, ['ä'], by decide +kernel,
      by decide +kernel, by decide +kernel⟩,
    ⟨⟨200, [("x".toList, ExtValue.utf8 ['€'])], []⟩, ['€'], by decide +kernel, by decide +kernel⟩⟩

end Verif.RelayResponse.Props
