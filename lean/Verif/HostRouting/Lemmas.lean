import Verif.HostRouting.Spec
import Verif.Path.ReverseLemmas
import Verif.MultiDict.Lemmas

/-!
# Lemmas about routing by host
-/

namespace Verif.HostRouting

open Verif Path Path.Spec Spec

theorem beforeColon_port (h port : Str) (hh : ':' ∉ h) (hp : Port port) : beforeColon (h ++ port) = h := by
  unfold beforeColon
  rcases hp with rfl | ⟨d, rfl, _⟩
  · rw [List.append_nil, splitOn_of_not_mem _ _ hh]; rfl
  · rw [splitOn_append_sep _ _ _ hh]; rfl

theorem hostOf_field (headers : MultiDict.Items Str) (h port : Str) (hh : ':' ∉ h) (hp : Port port)
    (hf : hostField headers (h ++ port)) : hostOf headers = h := by
  unfold hostField at hf
  unfold hostOf MultiDict.get
  rw [hf]
  exact beforeColon_port h port hh hp

theorem mapLast_comp (f g : Str → Str) (ps : List Part) : mapLast f (mapLast g ps) = mapLast (f ∘ g) ps := by
  induction ps with
  | nil => rfl
  | cons p ps ih =>
    cases ps with
    | nil => rfl
    | cons q qs =>
      rw [mapLast, mapLast]
      cases hqs : mapLast g (q :: qs) with
      | nil => cases qs <;> simp [mapLast] at hqs
      | cons a as => rw [mapLast, ← hqs, ih]

theorem mapLast_id (f : Str → Str) (ps : List Part) (h : ∀ p ∈ ps, f p.lit = p.lit) : mapLast f ps = ps := by
  induction ps with
  | nil => rfl
  | cons p ps ih =>
    cases ps with
    | nil => rw [mapLast, h p (by simp)]
    | cons q qs => rw [mapLast, ih fun x hx => h x (List.mem_cons_of_mem _ hx)]

theorem mapLast_ne (f : Str → Str) (p : Part) (ps : List Part) : mapLast f (p :: ps) ≠ [] := by
  cases ps <;> simp [mapLast]

theorem mapEnd_port (t : Tmpl) (port : Str) (ht : HostPattern t) (hp : Port port) :
    Tmpl.mapEnd beforeColon (Tmpl.mapEnd (· ++ port) t) = t := by
  obtain ⟨head, parts⟩ := t
  obtain ⟨_, h1, h2⟩ := ht
  cases parts with
  | nil => simp [Tmpl.mapEnd, beforeColon_port head port h1 hp]
  | cons p ps =>
    unfold Tmpl.mapEnd
    simp only [List.cons_ne_nil, if_false, mapLast_ne]
    rw [mapLast_comp, mapLast_id]
    intro q hq
    exact beforeColon_port _ _ (h2 q hq) hp

theorem partsText_mapLast (port : Str) (ps : List Part) (h : ps ≠ []) :
    partsText (mapLast (· ++ port) ps) = partsText ps ++ port := by
  induction ps with
  | nil => exact absurd rfl h
  | cons p ps ih =>
    cases ps with
    | nil => simp [mapLast, partsText]
    | cons q qs =>
      rw [mapLast, partsText, ih (by simp)]
      simp [partsText]

theorem tmplText_port (t : Tmpl) (port : Str) : tmplText (Tmpl.mapEnd (· ++ port) t) = tmplText t ++ port := by
  obtain ⟨head, parts⟩ := t
  cases parts with
  | nil => simp [Tmpl.mapEnd, tmplText, partsText]
  | cons p ps =>
    simp only [Tmpl.mapEnd, List.cons_ne_nil, if_false, tmplText]
    rw [partsText_mapLast _ _ (by simp)]
    simp

theorem mapLast_names (f : Str → Str) (ps : List Part) : (mapLast f ps).map (·.name) = ps.map (·.name) := by
  induction ps with
  | nil => rfl
  | cons p ps ih =>
    cases ps with
    | nil => rfl
    | cons q qs => rw [mapLast, List.map_cons, ih]; rfl

theorem mapLast_plain (port : Str) (hp : Plain port) (ps : List Part) (h : ∀ p ∈ ps, Ident p.name ∧ Plain p.lit) :
    ∀ p ∈ mapLast (· ++ port) ps, Ident p.name ∧ Plain p.lit := by
  induction ps with
  | nil => intro p hq; cases hq
  | cons p ps ih =>
    cases ps with
    | nil =>
      intro q hq
      rw [mapLast, List.mem_singleton] at hq
      subst hq
      obtain ⟨h1, h2, h3⟩ := h p (by simp)
      refine ⟨h1, ?_, ?_⟩
      · simp [h2, hp.1]
      · simp [h3, hp.2]
    | cons q qs =>
      intro x hx
      rw [mapLast] at hx
      rcases List.mem_cons.mp hx with rfl | hx
      · exact h _ (by simp)
      · exact ih (fun y hy => h y (List.mem_cons_of_mem _ hy)) x hx

theorem port_plain (port : Str) (hp : Port port) : Plain port ∧ '}' ∉ port := by
  have hd : ¬ Digit '{' ∧ ¬ Digit '<' ∧ ¬ Digit '}' := by unfold Digit; decide
  rcases hp with rfl | ⟨d, rfl, h⟩
  · exact ⟨⟨by simp, by simp⟩, by simp⟩
  · refine ⟨⟨?_, ?_⟩, ?_⟩ <;>
    · intro hm
      rcases List.mem_cons.mp hm with e | e
      · cases e
      · first
        | exact hd.1 (h _ e)
        | exact hd.2.1 (h _ e)
        | exact hd.2.2 (h _ e)

theorem wellFormed_port (t : Tmpl) (port : Str) (ht : WellFormed t) (hp : Port port) :
    WellFormed (Tmpl.mapEnd (· ++ port) t) := by
  obtain ⟨head, parts⟩ := t
  obtain ⟨h1, h2, h3⟩ := ht
  have hpl := (port_plain port hp).1
  cases parts with
  | nil =>
    refine ⟨⟨?_, ?_⟩, by simp [Tmpl.mapEnd], by simp [Tmpl.mapEnd]⟩
    · have := h1.1; simp only at this; simp [Tmpl.mapEnd, this, hpl.1]
    · have := h1.2; simp only at this; simp [Tmpl.mapEnd, this, hpl.2]
  | cons p ps =>
    unfold Tmpl.mapEnd
    simp only [List.cons_ne_nil, if_false]
    refine ⟨h1, mapLast_plain port hpl _ h2, ?_⟩
    simp only
    rw [mapLast_names]
    exact h3

theorem compileHost_text (t : Tmpl) (port : Str) (ht : HostPattern t) (hp : Port port) :
    compileHost (tmplText t ++ port) = .ok (t, Tmpl.mapEnd (· ++ port) t) := by
  unfold compileHost
  rw [← tmplText_port, compile_text _ (wellFormed_port t port ht.1 hp)]
  simp only
  rw [mapEnd_port t port ht hp]

/-! ## Matching -/

theorem regex_exact (t : Tmpl) (s : Str) (hnl : ∀ a, s ≠ a ++ ['\n']) (vs : List (Str × Str))
    (h : matchRegex t s = some vs) : Reads t s vs := by
  unfold matchRegex at h
  split at h
  · cases h
  · rename_i r hr
    rw [stripPrefix?_eq_some] at hr
    obtain ⟨s', e, h1, h2, h3⟩ := matchParts_sound _ _ _ h
    rcases h2 with rfl | rfl
    · refine ⟨r, hr, ?_⟩; rw [h1]; simpa using h3
    · exact absurd (by rw [hr, h1]; simp) (hnl (t.head ++ s'))

theorem regex_complete (t : Tmpl) (s : Str) (vs : List (Str × Str)) (h : Reads t s vs) :
    ∃ ws, matchRegex t s = some ws := by
  obtain ⟨r, rfl, hc⟩ := h
  unfold matchRegex
  rw [(stripPrefix?_eq_some _ _ _).2 rfl]
  exact Option.isSome_iff_exists.1 (by simpa using matchParts_complete _ _ [] _ (.inl rfl) hc)

/-- Dots of a cut text. -/
theorem cut_dots (ps : List Part) (s : Str) (vs : List (Str × Str)) (h : Cut ps s vs) :
    s.count '.' = (vs.map fun v => v.2.count '.').sum + (ps.map fun p => p.lit.count '.').sum := by
  induction h with
  | nil => rfl
  | @cons p ps v s vs hl hc ih =>
    simp only [List.count_append, List.map_cons, List.sum_cons, ih]
    omega

theorem sum_zero (vs : List (Str × Str)) : (vs.map fun v => v.2.count '.').sum = 0 ↔ ∀ v ∈ vs, '.' ∉ v.2 := by
  induction vs with
  | nil => simp
  | cons v vs ih =>
    simp only [List.map_cons, List.sum_cons, Nat.add_eq_zero_iff, ih, List.forall_mem_cons, List.count_eq_zero]

theorem append_dot_inj (v w a b : Str) (hv : '.' ∉ v) (hw : '.' ∉ w) (h : v ++ '.' :: a = w ++ '.' :: b) :
    v = w ∧ a = b := by
  induction v generalizing w with
  | nil =>
    cases w with
    | nil => exact ⟨rfl, by simpa using h⟩
    | cons c w => simp at h hw; exact absurd h.1 hw.1
  | cons c v ih =>
    cases w with
    | nil => simp at h hv; exact absurd h.1.symm hv.1
    | cons d w =>
      simp only [List.cons_append, List.cons.injEq] at h
      obtain ⟨h1, h2⟩ := h
      simp only [List.mem_cons, not_or] at hv hw
      obtain ⟨h3, h4⟩ := ih w hv.2 hw.2 h2
      exact ⟨by rw [h1, h3], h4⟩

theorem cut_unique_dots (ps : List Part) (hs : Dotted ps) (s : Str) (vs ws : List (Str × Str))
    (h1 : Cut ps s vs) (h2 : Cut ps s ws) (hv : ∀ v ∈ vs, '.' ∉ v.2) (hw : ∀ v ∈ ws, '.' ∉ v.2) : vs = ws := by
  induction h1 generalizing ws with
  | nil => cases h2; rfl
  | @cons p ps v s vs hl hc ih =>
    generalize hx : v ++ p.lit ++ s = x at h2
    cases h2 with
    | @cons _ _ w s' ws' hl' hc' =>
      cases ps with
      | nil =>
        cases hc; cases hc'
        simp at hx
        simp [hx]
      | cons q ps =>
        obtain ⟨⟨l, hlit⟩, hs'⟩ := hs
        rw [hlit, List.append_assoc, List.append_assoc, List.cons_append, List.cons_append] at hx
        obtain ⟨e1, e2⟩ := append_dot_inj v w _ _ (hv (p.name, v) (by simp)) (hw (p.name, w) (by simp)) hx
        have e3 := List.append_cancel_left e2
        subst e1
        subst e3
        rw [ih hs' ws' hc' (fun x hx => hv x (by simp [hx])) (fun x hx => hw x (by simp [hx]))]

theorem cut_short (ps : List Part) (hl : ps.length ≤ 1) (s : Str) (vs ws : List (Str × Str))
    (h1 : Cut ps s vs) (h2 : Cut ps s ws) : vs = ws := by
  refine cut_unique ps ?_ s vs ws h1 h2
  match ps, hl with
  | [], _ => trivial
  | [_], _ => trivial

/-- The reading of a host filled with clear values is the only one. -/
theorem clear_unique (t : Tmpl) (txt : Str → Str) (hc : Clear t txt) (hl : ∀ p ∈ t.parts, InLang p.conv (txt p.name))
    (ws : List (Str × Str)) (hw : Reads t (fill t txt) ws) : ws = t.parts.map fun p => (p.name, txt p.name) := by
  obtain ⟨r, hr, hcut⟩ := hw
  have hr' := List.append_cancel_left hr
  have h0 := cut_fill t.parts txt hl
  rw [← hr'] at hcut
  rcases hc with hc | ⟨hc, hdots⟩
  · exact cut_short _ hc _ _ _ hcut h0
  · have hv : ∀ v ∈ t.parts.map fun p => (p.name, txt p.name), '.' ∉ v.2 := by
      intro v hv
      obtain ⟨p, hp, rfl⟩ := List.mem_map.mp hv
      exact hdots p hp
    have e1 := cut_dots _ _ _ hcut
    have e2 := cut_dots _ _ _ h0
    have e3 := (sum_zero _).2 hv
    rw [e3] at e2
    have e4 : (ws.map fun v => v.2.count '.').sum = 0 := by omega
    exact cut_unique_dots _ hc _ _ _ hcut h0 ((sum_zero _).1 e4) hv

/-! ## Looking up -/

theorem contains_noopen (a : Str) (ha : '{' ∉ a) (rest k : Str) :
    contains (a ++ rest) ('{' :: k) = contains rest ('{' :: k) := by
  induction a with
  | nil => rfl
  | cons c a ih =>
    rw [List.mem_cons, not_or] at ha
    rw [List.cons_append, contains, ih ha.2]
    simp [List.isPrefixOf, ha.1]

theorem not_prefix_close (k n rest : Str) (hk : '}' ∉ k) (hn : '}' ∉ n) (h : n ≠ k) :
    (k ++ ['}']).isPrefixOf (n ++ '}' :: rest) = false := by
  cases hp : (k ++ ['}']).isPrefixOf (n ++ '}' :: rest) with
  | false => rfl
  | true =>
    obtain ⟨x, hx⟩ := List.isPrefixOf_iff_prefix.mp hp
    rw [List.append_assoc] at hx
    exact absurd (append_close_inj k n _ _ hk hn hx).1.symm h

/-- A placeholder that is not in the text. -/
theorem contains_mix_false (ps : List Part) (hp : ∀ p ∈ ps, Ident p.name ∧ '{' ∉ p.lit)
    (σ : Str → Option Str) (hσ : ∀ n v, σ n = some v → '{' ∉ v) (k : Str) (hk : Ident k)
    (hkn : ∀ p ∈ ps, σ p.name = none → p.name ≠ k) : contains (mixParts σ ps) ('{' :: k ++ ['}']) = false := by
  induction ps with
  | nil => rfl
  | cons p ps ih =>
    have ih' := ih (fun q hq => hp q (by simp [hq])) (fun q hq => hkn q (by simp [hq]))
    obtain ⟨hi, hlit⟩ := hp p (by simp)
    rw [mixParts]
    cases hs : σ p.name with
    | some v =>
      simp only
      rw [List.append_assoc, List.cons_append, contains_noopen v (hσ _ _ hs), contains_noopen _ hlit]
      exact ih'
    | none =>
      simp only
      have hn := ident_chars p.name hi
      rw [show '{' :: p.name ++ ['}'] ++ p.lit ++ mixParts σ ps =
        '{' :: (p.name ++ '}' :: (p.lit ++ mixParts σ ps)) by simp]
      rw [contains, List.cons_append, List.isPrefixOf, not_prefix_close k p.name _ (ident_chars k hk).2 hn.2
        (hkn p (by simp) hs)]
      rw [contains_noopen p.name hn.1]
      rw [show '}' :: (p.lit ++ mixParts σ ps) = ('}' :: p.lit) ++ mixParts σ ps by rfl]
      rw [contains_noopen _ (by simp [hlit])]
      simpa using ih'

theorem replaceAll_step (t : Tmpl) (hw : WellFormed t) (σ : Str → Option Str) (hσ : ∀ n v, σ n = some v → '{' ∉ v)
    (p : Part) (hp : p ∈ t.parts) (hfree : σ p.name = none) (nv : Str) :
    replaceAll (t.head ++ mixParts σ t.parts).length ('{' :: p.name ++ ['}']) nv (t.head ++ mixParts σ t.parts) =
      t.head ++ mixParts (fun x => if x = p.name then some nv else σ x) t.parts := by
  obtain ⟨h1, h2, h3⟩ := hw
  rw [List.length_append, replaceAll_noopen _ h1.1 _ _ _ rfl]
  rw [replaceAll_mix _ (fun q hq => ⟨(h2 q hq).1, (h2 q hq).2.1⟩) σ hσ _ (h2 p hp).1 hfree _ _ (Nat.le_refl _)]

/-- The substitution loop, with parameters of the host among others. -/
theorem replaceLoop_some (t : Tmpl) (hw : WellFormed t) (val : Str → Val)
    (hacc : ∀ p ∈ t.parts, Accepts p.conv (val p.name)) (hop : ∀ p ∈ t.parts, '{' ∉ display (val p.name))
    (kvs : List (Str × Val)) (hid : ∀ kv ∈ kvs, Ident kv.1) (hnd : (kvs.map (·.1)).Pairwise (· ≠ ·))
    (hval : ∀ kv ∈ kvs, kv.1 ∈ t.parts.map (·.name) → kv.2 = val kv.1)
    (σ : Str → Option Str) (hσ : ∀ n v, σ n = some v → '{' ∉ v) (hfree : ∀ kv ∈ kvs, σ kv.1 = none) :
    replaceLoop t.parts kvs (t.head ++ mixParts σ t.parts) =
      some (t.head ++ mixParts (fun x => if x ∈ kvs.map (·.1) then some (display (val x)) else σ x) t.parts,
        kvs.filter fun kv => !(t.parts.map (·.name)).contains kv.1) := by
  induction kvs generalizing σ with
  | nil => simp [replaceLoop]
  | cons kv kvs ih =>
    obtain ⟨k, v⟩ := kv
    rw [List.map_cons, List.pairwise_cons] at hnd
    have ih' := fun σ hσ hfree => ih (fun x hx => hid x (by simp [hx])) hnd.2 (fun x hx => hval x (by simp [hx])) σ hσ hfree
    simp only [replaceLoop]
    have hkv : ∀ kv ∈ kvs, kv.1 ≠ k := fun kv hkv e => hnd.1 kv.1 (List.mem_map.mpr ⟨kv, hkv, rfl⟩) e.symm
    by_cases hk : k ∈ t.parts.map (·.name)
    · obtain ⟨p, hp, hpk⟩ := List.mem_map.1 hk
      have hv : v = val p.name := by rw [hpk]; exact hval (k, v) (by simp) hk
      subst hpk
      rw [contains_mix _ _ _ hk (hfree (p.name, v) (by simp))]
      simp only [if_pos]
      rw [convOf_mem _ hw.2.2 p hp]
      simp only
      rw [hv, (accepts_spec _ _ (hacc p hp)).1]
      simp only
      rw [replaceAll_step t hw σ hσ p hp (hfree (p.name, v) (by simp))]
      rw [ih']
      · have hfun : (fun x => if x ∈ kvs.map (·.1) then some (display (val x))
            else if x = p.name then some (display (val p.name)) else σ x) =
            (fun x => if x ∈ p.name :: kvs.map (·.1) then some (display (val x)) else σ x) := by
          funext x
          by_cases hx : x ∈ kvs.map (·.1)
          · rw [if_pos hx, if_pos (List.mem_cons_of_mem _ hx)]
          · by_cases hx2 : x = p.name
            · rw [if_neg hx, if_pos hx2, if_pos (by rw [hx2]; simp), hx2]
            · rw [if_neg hx, if_neg hx2, if_neg]
              intro hm
              rcases List.mem_cons.mp hm with e | e
              · exact hx2 e
              · exact hx e
        rw [hfun, List.map_cons, List.filter_cons_of_neg]
        simpa using hk
      · intro n w hn
        split at hn
        · cases hn; exact hop p hp
        · exact hσ n w hn
      · intro kv hm
        rw [if_neg (hkv kv hm)]
        exact hfree kv (by simp [hm])
    · have hcf : contains (t.head ++ mixParts σ t.parts) ('{' :: k ++ ['}']) = false := by
        rw [List.cons_append, contains_noopen _ hw.1.1]
        have := contains_mix_false t.parts (fun q hq => ⟨(hw.2.1 q hq).1, (hw.2.1 q hq).2.1⟩) σ hσ k
          (hid (k, v) (by simp)) (fun q hq _ e => hk (List.mem_map.mpr ⟨q, hq, e⟩))
        simpa using this
      rw [hcf, if_neg Bool.false_ne_true]
      rw [ih' σ hσ (fun kv hm => hfree kv (by simp [hm]))]
      simp only
      have hmix : ∀ (f g : Str → Option Str) (ps : List Part), (∀ p ∈ ps, f p.name = g p.name) →
          mixParts f ps = mixParts g ps := by
        intro f g ps
        induction ps with
        | nil => intro _; rfl
        | cons q qs ih2 =>
          intro h
          rw [mixParts, mixParts, h q (by simp), ih2 fun x hx => h x (by simp [hx])]
      rw [List.filter_cons_of_pos (by simpa using hk)]
      rw [hmix _ (fun x => if x ∈ (k, v).1 :: kvs.map (·.1) then some (display (val x)) else σ x)]
      · rfl
      · intro q hq
        have hqk : q.name ≠ k := fun e => hk (List.mem_map.mpr ⟨q, hq, e⟩)
        simp only [List.mem_cons, hqk, false_or]

theorem fill_mapEnd (t : Tmpl) (port : Str) (txt : Str → Str) :
    fill (Tmpl.mapEnd (· ++ port) t) txt = fill t txt ++ port := by
  obtain ⟨head, parts⟩ := t
  cases parts with
  | nil => simp [Tmpl.mapEnd, fill]
  | cons p ps =>
    have key : ∀ (ps : List Part), ps ≠ [] → (mapLast (· ++ port) ps).flatMap (fun p => txt p.name ++ p.lit) =
        ps.flatMap (fun p => txt p.name ++ p.lit) ++ port := by
      intro ps
      induction ps with
      | nil => intro h; exact absurd rfl h
      | cons q qs ih =>
        intro _
        cases qs with
        | nil => simp [mapLast]
        | cons r rs => rw [mapLast, List.flatMap_cons, ih (by simp), List.flatMap_cons]; simp
    simp only [Tmpl.mapEnd, List.cons_ne_nil, if_false, fill]
    rw [key _ (by simp)]
    simp

theorem mapEnd_names (f : Str → Str) (t : Tmpl) : (Tmpl.mapEnd f t).parts.map (·.name) = t.parts.map (·.name) := by
  unfold Tmpl.mapEnd
  split
  · rename_i h; rw [h]
  · exact mapLast_names f t.parts

theorem mapLast_conv (f : Str → Str) (P : Str → Conv → Prop) (ps : List Part) (h : ∀ p ∈ ps, P p.name p.conv) :
    ∀ p ∈ mapLast f ps, P p.name p.conv := by
  induction ps with
  | nil => intro p hp; cases hp
  | cons q qs ih =>
    cases qs with
    | nil =>
      intro p hp
      rw [mapLast, List.mem_singleton] at hp
      subst hp
      exact h q (by simp)
    | cons r rs =>
      intro p hp
      rw [mapLast] at hp
      rcases List.mem_cons.mp hp with rfl | hp
      · exact h _ (by simp)
      · exact ih (fun x hx => h x (List.mem_cons_of_mem _ hx)) p hp

theorem mapEnd_conv (f : Str → Str) (P : Str → Conv → Prop) (t : Tmpl) (h : ∀ p ∈ t.parts, P p.name p.conv) :
    ∀ p ∈ (Tmpl.mapEnd f t).parts, P p.name p.conv := by
  unfold Tmpl.mapEnd
  split
  · intro p hp; cases hp
  · exact mapLast_conv f P t.parts h

/-- `replace_params` for the host of a route. -/
theorem replaceHost (t : Tmpl) (hw : WellFormed t) (val : Str → Val)
    (hacc : ∀ p ∈ t.parts, Accepts p.conv (val p.name)) (hop : ∀ p ∈ t.parts, '{' ∉ display (val p.name))
    (kvs : List (Str × Val)) (hid : ∀ kv ∈ kvs, Ident kv.1) (hnd : (kvs.map (·.1)).Pairwise (· ≠ ·))
    (hval : ∀ kv ∈ kvs, kv.1 ∈ t.parts.map (·.name) → kv.2 = val kv.1)
    (hall : ∀ n ∈ t.parts.map (·.name), n ∈ kvs.map (·.1)) :
    replaceLoop t.parts kvs t.format =
      some (fill t fun n => display (val n), kvs.filter fun kv => !(t.parts.map (·.name)).contains kv.1) := by
  have hfmt : t.format = t.head ++ mixParts (fun _ => none) t.parts := by
    unfold Tmpl.format; rw [formatParts_eq]
  rw [hfmt, replaceLoop_some t hw val hacc hop kvs hid hnd hval (fun _ => none) (by simp) (by simp)]
  rw [mixParts_full t.parts (fun n => display (val n))]
  · rfl
  · intro p hp
    rw [if_pos (hall _ (List.mem_map.mpr ⟨p, hp, rfl⟩))]

/-- A value that does not fit is refused. -/
theorem normalise_unfit (c : Conv) (v : Val) (h : Unfit c v) : c.normalise v = none := by
  cases v with
  | text s =>
    cases c <;> first
      | rfl
      | exact False.elim h
      | (have h' : s = [] ∨ '/' ∈ s := h
         show (if '/' ∉ s ∧ s ≠ [] then some s else none) = none
         rw [if_neg]; rintro ⟨h1, h2⟩; exact h'.elim h2 h1)
  | nat n => cases c <;> first | rfl | exact False.elim h
  | obj k s => cases c <;> cases k <;> first | rfl | exact False.elim h

/-- The first parameter decides if its value does not fit. -/
theorem replaceLoop_unfit (t : Tmpl) (hw : WellFormed t) (p : Part) (hp : p ∈ t.parts) (v : Val) (hv : Unfit p.conv v)
    (rest : List (Str × Val)) : replaceLoop t.parts ((p.name, v) :: rest) t.format = none := by
  have hfmt : t.format = t.head ++ mixParts (fun _ => none) t.parts := by
    unfold Tmpl.format; rw [formatParts_eq]
  rw [replaceLoop, hfmt]
  rw [if_pos (contains_mix t.parts (fun _ => none) p.name (List.mem_map.mpr ⟨p, hp, rfl⟩) rfl t.head),
    convOf_mem t.parts hw.2.2 p hp]
  simp only
  rw [normalise_unfit p.conv v hv]

end Verif.HostRouting
