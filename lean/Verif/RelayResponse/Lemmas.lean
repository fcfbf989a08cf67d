import Verif.RelayResponse.Spec
import Verif.ExtValue.Lemmas
import Verif.Environ.Lemmas
import Verif.SignedUrl.Lemmas

/-!
# Lemmas about responses that the proxy passes on
-/

namespace Verif.RelayResponse

open Verif Spec

theorem toLower_small : ∀ n < 128, (Char.ofNat n).toLower.toLower = (Char.ofNat n).toLower := by decide

theorem toLower_idem (c : Char) : c.toLower.toLower = c.toLower := by
  by_cases h : c.toNat < 128
  · have := toLower_small c.toNat h
    rwa [Char.ofNat_toNat] at this
  · have hn : c.toLower = c := by
      rw [Char.toLower]
      split
      · rename_i hu
        have : c.toNat ≤ 90 := hu.2
        omega
      · rfl
    rw [hn, hn]

theorem lower_lower (s : Str) : lower (lower s) = lower s := by
  simp only [lower, List.map_map]
  apply List.map_congr_left
  intro c _
  exact toLower_idem c

/-- Values with a name, exactly. -/
def exact (l : Fields) (k : Str) : List Str := (l.filter fun kv => kv.1 = k).map Prod.snd

theorem exact_nodup (l : Fields) (h : (l.map (·.1)).Nodup) (k : Str) : exact l k = (aget l k).toList := by
  induction l with
  | nil => rfl
  | cons kv l ih =>
    obtain ⟨k', v⟩ := kv
    rw [List.map_cons, List.nodup_cons] at h
    have ih := ih h.2
    by_cases hk : k' = k
    · subst hk
      have : exact l k' = [] := by
        rw [exact, List.map_eq_nil_iff, List.filter_eq_nil_iff]
        intro kv hkv he
        exact h.1 (List.mem_map.mpr ⟨kv, hkv, by simpa using he⟩)
      simp only [exact] at this
      simp [exact, aget, this]
    · simp only [exact] at ih
      simp [exact, aget, hk, ih]

theorem merge_nodup (d : Fields) (kv : Str × Str) (h : (d.map (·.1)).Nodup) : ((merge d kv).map (·.1)).Nodup := by
  rw [merge]
  split <;> exact Environ.nodup_aset _ _ _ h

theorem foldl_nodup (l d : Fields) (h : (d.map (·.1)).Nodup) : ((l.foldl merge d).map (·.1)).Nodup := by
  induction l generalizing d with
  | nil => exact h
  | cons kv l ih => exact ih _ (merge_nodup d kv h)

/-- The values joined, if there are any. -/
def joined : List Str → Option Str
  | [] => none
  | v :: vs => some (joinWith ", ".toList (v :: vs))

theorem joined_snoc (vs : List Str) (v : Str) :
    joined (vs ++ [v]) = some (match joined vs with | some e => e ++ ", ".toList ++ v | none => v) := by
  cases vs with
  | nil => simp [joined, joinWith]
  | cons w ws => simp only [joined, List.cons_append]; rw [← List.cons_append, SignedUrl.joinWith_snoc _ _ _ (by simp)]

theorem aget_merge (d : Fields) (kv : Str × Str) (k : Str) (vs : List Str) (h : aget d k = joined vs) :
    aget (merge d kv) k = joined (vs ++ if kv.1 = k then [kv.2] else []) := by
  by_cases hk : kv.1 = k
  · rw [if_pos hk, joined_snoc, merge, hk, h]
    cases joined vs with
    | none => exact aget_aset_self _ _ _
    | some e => exact aget_aset_self _ _ _
  · rw [if_neg hk, List.append_nil, merge, ← h]
    split <;> exact aget_aset_ne _ _ _ _ (Ne.symm hk)

theorem aget_foldl (l d : Fields) (k : Str) (vs : List Str) (h : aget d k = joined vs) :
    aget (l.foldl merge d) k = joined (vs ++ exact l k) := by
  induction l generalizing d vs with
  | nil => simp [exact, h]
  | cons kv l ih =>
    rw [List.foldl_cons, ih _ _ (aget_merge d kv k vs h), List.append_assoc]
    congr 2
    by_cases hk : kv.1 = k <;> simp [exact, hk]

theorem aget_items (hs : Fields) (k : Str) :
    aget (items hs) k =
      joined (exact (hs.map fun kv => (decode (charset hs) (lower kv.1), decode (charset hs) kv.2)) k) := by
  rw [items, aget_foldl _ [] k [] rfl, List.nil_append]

theorem items_nodup (hs : Fields) : ((items hs).map (·.1)).Nodup := foldl_nodup _ [] (by simp)

/-! ## Character sets -/

theorem isUtf8_iff (b : Str) : isUtf8 b = true ↔ ∃ t, ExtValue.utf8 t = b := by
  rw [isUtf8, decide_eq_true_iff]
  constructor
  · intro h; exact ⟨_, h⟩
  · rintro ⟨t, rfl⟩
    rw [ExtValue.decode_utf8]

/-- The values are taken as they are. -/
def Direct (hs : Fields) : Prop := charset hs ≠ .utf8

theorem decode_direct {hs : Fields} (h : Direct hs) (b : Str) : decode (charset hs) b = b := by
  unfold Direct at h
  cases hc : charset hs with
  | ascii => rfl
  | latin => rfl
  | utf8 => exact absurd hc h

theorem direct_ascii {hs : Fields} (h : AsciiFields hs) : Direct hs := by
  intro hc
  rw [charset] at hc
  rw [if_pos ?_] at hc
  · cases hc
  · rw [List.all_eq_true]
    intro kv hkv
    obtain ⟨h1, h2⟩ := h kv hkv
    simp only [isAscii, Bool.and_eq_true, List.all_eq_true, decide_eq_true_eq]
    exact ⟨h1, h2⟩

theorem direct_not_utf8 {hs : Fields} (h : NotUtf8 hs) : Direct hs := by
  obtain ⟨kv, hkv, hn⟩ := h
  intro hc
  rw [charset] at hc
  split at hc
  · cases hc
  · split at hc
    · rename_i hu
      rw [List.all_eq_true] at hu
      have := hu kv hkv
      rw [Bool.and_eq_true] at this
      obtain ⟨t, ht⟩ := (isUtf8_iff _).mp this.2
      exact hn t ht
    · cases hc

theorem direct_of {hs : Fields} (h : AsciiFields hs ∨ NotUtf8 hs) : Direct hs := h.elim direct_ascii direct_not_utf8

/-! ## Encoding -/

theorem latin_some {s : Str} (h : Bytes s) : latin s = some s := by
  rw [latin, if_pos]
  rw [List.all_eq_true]
  intro c hc
  exact decide_eq_true (h c hc)

theorem encode_some {hs : Fields} (h : ∀ kv ∈ hs, Bytes kv.1 ∧ Bytes kv.2) : encode hs = some hs := by
  induction hs with
  | nil => rfl
  | cons kv hs ih =>
    obtain ⟨k, v⟩ := kv
    have h0 := h (k, v) List.mem_cons_self
    simp [encode, latin_some h0.1, latin_some h0.2, ih fun kv hkv => h kv (List.mem_cons_of_mem _ hkv)]

theorem encode_eq {hs hs' : Fields} (h : encode hs = some hs') : hs' = hs := by
  induction hs generalizing hs' with
  | nil => simpa [encode] using h.symm
  | cons kv hs ih =>
    obtain ⟨k, v⟩ := kv
    have hl : ∀ {s t : Str}, latin s = some t → t = s := by
      intro s t hst
      rw [latin] at hst
      split at hst
      · cases hst; rfl
      · cases hst
    rw [encode] at h
    split at h
    · rename_i k' v' r hk hv hr
      cases h
      rw [hl hk, hl hv, ih hr]
    · cases h

/-! ## Which fields are kept -/

/-- The test of `sanitizeResponse`, on a name. -/
def keeps (cfg : RelayHeaders.Config) (k : Str) : Bool :=
  !(lower k ∈ RelayHeaders.hopByHop || lower k ∈ cfg.dropResponse.map lower) && !(lower k = "transfer-encoding".toList)

theorem sanitize_eq (cfg : RelayHeaders.Config) (hs : Fields) :
    RelayHeaders.sanitizeResponse cfg hs = hs.filter fun kv => keeps cfg kv.1 := rfl

theorem hop_iff (k : Str) : lower k ∈ RelayHeaders.hopByHop ↔ RelayHeaders.Spec.OneHop k := by
  have h : RelayHeaders.hopByHop = RelayHeaders.Spec.connectionHeaders.map lower := by decide +kernel
  rw [h, List.mem_map]
  constructor
  · rintro ⟨n, hn, he⟩; exact ⟨n, hn, he.symm⟩
  · rintro ⟨n, hn, he⟩; exact ⟨n, hn, he.symm⟩

theorem te_mem : "transfer-encoding".toList ∈ RelayHeaders.hopByHop := by decide +kernel

theorem keeps_iff (cfg : RelayHeaders.Config) (k : Str) : keeps cfg k = true ↔ Kept cfg k := by
  rw [keeps, Kept, ← hop_iff]
  have hl : lower k ∈ cfg.dropResponse.map lower ↔ RelayHeaders.Spec.Listed k cfg.dropResponse := by
    rw [List.mem_map]
    constructor
    · rintro ⟨n, hn, he⟩; exact ⟨n, hn, he.symm⟩
    · rintro ⟨n, hn, he⟩; exact ⟨n, hn, he.symm⟩
  rw [← hl]
  simp only [Bool.and_eq_true, Bool.not_eq_true', Bool.or_eq_false_iff, decide_eq_false_iff_not]
  constructor
  · rintro ⟨h, _⟩; exact h
  · intro h
    refine ⟨h, fun he => h.1 (he ▸ te_mem)⟩

theorem keeps_lower (cfg : RelayHeaders.Config) (k : Str) : keeps cfg (lower k) = keeps cfg k := by
  simp only [keeps, lower_lower]

/-! ## Values -/

theorem exact_lower (hs : Fields) (k : Str) :
    exact (hs.map fun kv => (lower kv.1, kv.2)) (lower k) = values hs k := by
  simp only [exact, values, List.filter_map, List.map_map]
  rfl

/-- All names are in lower case. -/
def LowNames (l : Fields) : Prop := ∀ kv ∈ l, lower kv.1 = kv.1

theorem values_low {l : Fields} (h : LowNames l) (k : Str) : values l k = exact l (lower k) := by
  rw [values, exact]
  congr 1
  apply List.filter_congr
  intro kv hkv
  rw [h kv hkv]

theorem aset_low (d : Fields) (k v : Str) (h : LowNames d) (hk : lower k = k) : LowNames (aset d k v) := by
  induction d with
  | nil =>
    intro kv hkv
    rw [aset, List.mem_singleton] at hkv
    rw [hkv]; exact hk
  | cons x d ih =>
    obtain ⟨k', v'⟩ := x
    have h' : LowNames d := fun kv hkv => h kv (List.mem_cons_of_mem _ hkv)
    intro kv hkv
    rw [aset] at hkv
    split at hkv
    · cases List.mem_cons.mp hkv with
      | inl e => rw [e]; exact hk
      | inr e => exact h' kv e
    · cases List.mem_cons.mp hkv with
      | inl e => rw [e]; exact h (k', v') List.mem_cons_self
      | inr e => exact ih h' kv e

theorem foldl_low (l d : Fields) (h : LowNames d) (hl : LowNames l) : LowNames (l.foldl merge d) := by
  induction l generalizing d with
  | nil => exact h
  | cons kv l ih =>
    refine ih _ ?_ fun x hx => hl x (List.mem_cons_of_mem _ hx)
    rw [merge]
    split <;> exact aset_low _ _ _ h (hl kv List.mem_cons_self)

theorem items_low {hs : Fields} (h : Direct hs) : LowNames (items hs) := by
  refine foldl_low _ [] (fun _ h => nomatch h) ?_
  intro kv hkv
  obtain ⟨x, _, rfl⟩ := List.mem_map.mp hkv
  simp only [decode_direct h, lower_lower]

theorem aget_items_direct {hs : Fields} (h : Direct hs) (k : Str) :
    aget (items hs) (lower k) = joined (values hs k) := by
  rw [aget_items]
  simp only [decode_direct h]
  rw [exact_lower]

theorem values_items {hs : Fields} (h : Direct hs) (k : Str) : values (items hs) k = (joined (values hs k)).toList := by
  rw [values_low (items_low h), exact_nodup _ (items_nodup hs), aget_items_direct h]

theorem values_filter (l : Fields) (p : Str → Bool) (k : Str)
    (hp : ∀ k', lower k' = lower k → p k' = true) : values (l.filter fun kv => p kv.1) k = values l k := by
  rw [values, values, List.filter_filter]
  congr 1
  apply List.filter_congr
  intro kv _
  by_cases hk : lower kv.1 = lower k
  · simp [hk, hp kv.1 hk]
  · simp [hk]

theorem keeps_same (cfg : RelayHeaders.Config) {k k' : Str} (h : lower k' = lower k) : keeps cfg k' = keeps cfg k := by
  simp only [keeps, h]

theorem values_passed {hs : Fields} (h : Direct hs) (cfg : RelayHeaders.Config) (k : Str) (hk : Kept cfg k) :
    values (passed cfg none hs) k = (joined (values hs k)).toList := by
  rw [passed, sanitize_eq, values_filter _ (keeps cfg) k, values_items h]
  intro k' hk'
  rw [keeps_same cfg hk']
  exact (keeps_iff cfg k).mpr hk

/-! ## Headers without repeated fields -/

theorem merge_new (d : Fields) (kv : Str × Str) (h : kv.1 ∉ d.map (·.1)) : merge d kv = d ++ [kv] := by
  have hg : ∀ d : Fields, kv.1 ∉ d.map (·.1) → aget d kv.1 = none ∧ aset d kv.1 kv.2 = d ++ [kv] := by
    intro d
    induction d with
    | nil => intro _; exact ⟨rfl, rfl⟩
    | cons x d ih =>
      intro hn
      rw [List.map_cons, List.mem_cons, not_or] at hn
      obtain ⟨h1, h2⟩ := ih hn.2
      simp [aget, aset, Ne.symm hn.1, h1, h2]
  rw [merge, (hg d h).1]
  exact (hg d h).2

theorem foldl_new (l d : Fields) (h : ((d ++ l).map (·.1)).Nodup) : l.foldl merge d = d ++ l := by
  induction l generalizing d with
  | nil => simp
  | cons kv l ih =>
    have hk : kv.1 ∉ d.map (·.1) := by
      rw [List.map_append, List.map_cons, List.nodup_append] at h
      intro hm
      exact h.2.2 _ hm _ List.mem_cons_self rfl
    rw [List.foldl_cons, merge_new d kv hk, ih _ (by simpa using h)]
    simp

theorem items_distinct {hs : Fields} (h : Direct hs) (hn : (hs.map fun kv => lower kv.1).Nodup) :
    items hs = hs.map fun kv => (lower kv.1, kv.2) := by
  rw [items]
  simp only [decode_direct h]
  rw [foldl_new, List.nil_append]
  rw [List.nil_append, List.map_map]
  exact hn

theorem passed_distinct {hs : Fields} (h : Direct hs) (hn : (hs.map fun kv => lower kv.1).Nodup)
    (cfg : RelayHeaders.Config) :
    passed cfg none hs = (hs.filter fun kv => keeps cfg kv.1).map fun kv => (lower kv.1, kv.2) := by
  rw [passed, items_distinct h hn, sanitize_eq, List.filter_map]
  congr 1
  apply List.filter_congr
  intro kv _
  exact keeps_lower cfg kv.1

theorem lower_bytes {s : Str} (h : Bytes s) : Bytes (lower s) := by
  intro c hc
  obtain ⟨d, hd, rfl⟩ := List.mem_map.mp hc
  have := h d hd
  rw [Char.toLower]
  split
  · rename_i hu
    have hv : d.toNat ≤ 90 ∧ 65 ≤ d.toNat := by
      obtain ⟨h1, h2⟩ := hu
      exact ⟨h2, h1⟩
    show (Char.toNat _) < 256
    simp only [Char.toNat]
    show (d.val + 32).toNat < 256
    rw [UInt32.toNat_add]
    have : d.val.toNat = d.toNat := rfl
    have h32 : (32 : UInt32).toNat = 32 := rfl
    omega
  · exact this

theorem codings_none (dec : Decoders) {hs : Fields} (h : values hs "Content-Encoding".toList = []) :
    codings dec hs = [] := by
  have hl : lower "Content-Encoding".toList = "content-encoding".toList := by decide +kernel
  rw [values, List.map_eq_nil_iff, hl] at h
  rw [codings, getList, h]
  rfl

/-! ## Everything is bytes -/

/-- Names and values are bytes. -/
def ByteFields (hs : Fields) : Prop := ∀ kv ∈ hs, Bytes kv.1 ∧ Bytes kv.2

theorem bytes_append {a b : Str} (ha : Bytes a) (hb : Bytes b) : Bytes (a ++ b) := by
  intro c hc
  cases List.mem_append.mp hc with
  | inl h => exact ha c h
  | inr h => exact hb c h

theorem aset_bytes {d : Fields} {k v : Str} (h : ByteFields d) (hk : Bytes k) (hv : Bytes v) :
    ByteFields (aset d k v) := by
  induction d with
  | nil =>
    intro kv hkv
    rw [aset, List.mem_singleton] at hkv
    rw [hkv]; exact ⟨hk, hv⟩
  | cons x d ih =>
    obtain ⟨k', v'⟩ := x
    have h' : ByteFields d := fun kv hkv => h kv (List.mem_cons_of_mem _ hkv)
    intro kv hkv
    rw [aset] at hkv
    split at hkv
    · cases List.mem_cons.mp hkv with
      | inl e => rw [e]; exact ⟨hk, hv⟩
      | inr e => exact h' kv e
    · cases List.mem_cons.mp hkv with
      | inl e => rw [e]; exact h (k', v') List.mem_cons_self
      | inr e => exact ih h' kv e

theorem aget_bytes {d : Fields} {k v : Str} (h : ByteFields d) (hg : aget d k = some v) : Bytes v := by
  induction d with
  | nil => cases hg
  | cons x d ih =>
    obtain ⟨k', v'⟩ := x
    rw [aget] at hg
    split at hg
    · cases hg; exact (h _ List.mem_cons_self).2
    · exact ih (fun kv hkv => h kv (List.mem_cons_of_mem _ hkv)) hg

theorem comma_bytes : Bytes ", ".toList := by unfold Bytes; decide +kernel

theorem merge_bytes {d : Fields} {kv : Str × Str} (h : ByteFields d) (hk : Bytes kv.1 ∧ Bytes kv.2) :
    ByteFields (merge d kv) := by
  rw [merge]
  split
  · rename_i e he
    exact aset_bytes h hk.1 (bytes_append (bytes_append (aget_bytes h he) comma_bytes) hk.2)
  · exact aset_bytes h hk.1 hk.2

theorem foldl_bytes {l d : Fields} (h : ByteFields d) (hl : ByteFields l) : ByteFields (l.foldl merge d) := by
  induction l generalizing d with
  | nil => exact h
  | cons kv l ih =>
    exact ih (merge_bytes h (hl kv List.mem_cons_self)) fun x hx => hl x (List.mem_cons_of_mem _ hx)

theorem items_bytes {hs : Fields} (h : Direct hs) (hb : ByteFields hs) : ByteFields (items hs) := by
  refine foldl_bytes (fun _ h => nomatch h) ?_
  intro kv hkv
  obtain ⟨x, hx, rfl⟩ := List.mem_map.mp hkv
  simp only [decode_direct h]
  exact ⟨lower_bytes (hb x hx).1, (hb x hx).2⟩

theorem encode_passed {hs : Fields} (h : Direct hs) (hb : ByteFields hs) (cfg : RelayHeaders.Config) :
    encode (passed cfg none hs) = some (passed cfg none hs) := by
  apply encode_some
  intro kv hkv
  rw [passed, sanitize_eq] at hkv
  exact items_bytes h hb kv (List.mem_filter.mp hkv).1

theorem ascii_bytes {hs : Fields} (h : AsciiFields hs) : ByteFields hs := by
  intro kv hkv
  exact ⟨fun c hc => Nat.lt_trans ((h kv hkv).1 c hc) (by decide),
    fun c hc => Nat.lt_trans ((h kv hkv).2 c hc) (by decide)⟩

/-! ## Cookies -/

/-- The name of the field. -/
def cookieName : Str := "set-cookie".toList

theorem cookieName_low : lower cookieName = cookieName := by decide +kernel

theorem getList_values {hs : Fields} (h : Direct hs) (k : Str) (hk : lower k = k) : getList hs k = values hs k := by
  rw [getList, values, hk]
  congr 1
  funext kv
  exact decode_direct h kv.2

theorem values_append (a b : Fields) (k : Str) : values (a ++ b) k = values a k ++ values b k := by
  simp [values]

theorem rewriteResponse_eq (f : Str → Option Str) (cookies : List Str) (l : Fields) :
    RelayCookies.rewriteResponse f cookies l = if cookies = [] then l else
      l.filter (fun kv => lower kv.1 ≠ cookieName)
        ++ cookies.map fun c => (cookieName, RelayCookies.rewriteCookie (f c) c) := rfl

theorem rewrite_values (f : Str → Option Str) (cookies : List Str) (l : Fields) (name : Str) (hl : lower name = name)
    (h : cookies = [] → values l name = []) :
    values (if cookies = [] then l else l.filter (fun kv => lower kv.1 ≠ name)
      ++ cookies.map fun c => (name, RelayCookies.rewriteCookie (f c) c)) name
    = cookies.map fun c => RelayCookies.rewriteCookie (f c) c := by
  split
  · rename_i hc
    rw [h hc, hc]
    rfl
  · rw [values_append]
    have h1 : values (l.filter fun kv => lower kv.1 ≠ name) name = [] := by
      rw [values, List.filter_filter, List.map_eq_nil_iff, List.filter_eq_nil_iff]
      intro kv _
      simp [hl]
    rw [h1, List.nil_append, values, List.filter_map, List.map_map]
    rw [List.filter_eq_self.mpr]
    · rfl
    · intro c _
      simp

theorem rewrite_other (f : Str → Option Str) (cookies : List Str) (l : Fields) (name k : Str) (hl : lower name = name)
    (h : lower k ≠ name) :
    values (if cookies = [] then l else l.filter (fun kv => lower kv.1 ≠ name)
      ++ cookies.map fun c => (name, RelayCookies.rewriteCookie (f c) c)) k = values l k := by
  split
  · rfl
  · rw [values_append]
    have h1 : values (cookies.map fun c => (name, RelayCookies.rewriteCookie (f c) c)) k = [] := by
      rw [values, List.map_eq_nil_iff, List.filter_eq_nil_iff]
      intro kv hkv
      obtain ⟨c, _, rfl⟩ := List.mem_map.mp hkv
      simp [hl, Ne.symm h]
    rw [h1, List.append_nil]
    have := values_filter l (fun k' => decide (lower k' ≠ name)) k (by
      intro k' hk'
      rw [hk']
      exact decide_eq_true h)
    exact this

end Verif.RelayResponse
