import Verif.StateObj.Spec

/-! # Lemmas: dictionaries stand for boards -/

namespace Verif.StateObj

open Verif.StateObj.Spec

/-- The state of the board `b` has begun. -/
def Spec.Ideal.touched (i : Ideal) (b : Nat) : Ideal :=
  { i with begun := fun c => if c = b then true else i.begun c }

/-- The dictionary `m b` stands for the board `b`. -/
structure Rel (w : World) (i : Ideal) (m : Nat → Nat) : Prop where
  scopes : ∀ s : Nat, w.scopes[s]? = (i.scopes[s]?).map (fun b => if i.begun b then some (m b) else none)
  clen : w.conns.length = i.conns.length
  conns : ∀ (c s : Nat) x, w.conns[c]? = some (s, x) →
    ∃ b, i.conns[c]? = some b ∧ i.scopes[s]? = some b ∧ (x = none ∨ (x = some (m b) ∧ i.begun b = true))
  bound : ∀ (s : Nat) b, i.scopes[s]? = some b → b < i.made
  fresh : ∀ b, i.made ≤ b → i.begun b = false
  empty : ∀ b, i.begun b = false → ∀ k, i.board b k = none
  lone : ∀ (s s' : Nat) b, i.scopes[s]? = some b → i.scopes[s']? = some b → i.begun b = false → s = s'
  low : ∀ b, i.begun b = true → m b < w.heap.next
  inj : ∀ b b', i.begun b = true → i.begun b' = true → m b = m b' → b = b'
  same : ∀ b, i.begun b = true → ∀ k, aget (w.heap.dicts (m b)) k = i.board b k
  noOwn : ∀ b, i.board b ownName = none

theorem start_rel : Rel World.start Ideal.start id where
  scopes s := by simp [World.start, Ideal.start]
  clen := rfl
  conns c s x h := by simp [World.start] at h
  bound s b h := by simp [Ideal.start] at h
  fresh _ _ := rfl
  empty _ _ _ := rfl
  lone s s' b h := by simp [Ideal.start] at h
  low b h := by simp [Ideal.start] at h
  inj b b' h := by simp [Ideal.start] at h
  same b h := by simp [Ideal.start] at h
  noOwn _ := rfl

theorem set_get? {α : Type} (l : List α) (n j : Nat) (a b : α) (h : l[n]? = some b) :
    (l.set n a)[j]? = if j = n then some a else l[j]? := by
  have hn : n < l.length := by
    rcases Nat.lt_or_ge n l.length with h' | h'
    · exact h'
    · rw [List.getElem?_eq_none h'] at h; cases h
  rw [List.getElem?_set]
  by_cases hj : j = n
  · subst hj; simp [hn]
  · rw [if_neg hj, if_neg (fun h => hj h.symm)]

theorem opened_none {w : World} {i : Ideal} {m : Nat → Nat} (r : Rel w i m) {c : Nat} (h : i.conns[c]? = none) :
    w.opened c = none := by
  have hw : w.conns[c]? = none := by
    rw [List.getElem?_eq_none_iff] at h ⊢
    rw [r.clen]; exact h
  unfold World.opened
  rw [hw]

theorem opened_some {w : World} {i : Ideal} {m : Nat → Nat} (r : Rel w i m) {c b : Nat} (h : i.conns[c]? = some b) :
    ∃ w' m', w.opened c = some (w', m' b) ∧ Rel w' (i.touched b) m' := by
  cases hc : w.conns[c]? with
  | none =>
    exfalso
    rw [List.getElem?_eq_none_iff, r.clen] at hc
    rw [List.getElem?_eq_none hc] at h
    cases h
  | some sx =>
    obtain ⟨s, x⟩ := sx
    obtain ⟨b', h1, h2, h3⟩ := r.conns c s x hc
    rw [h] at h1
    cases h1
    have same : i.begun b = true → i.touched b = i := by
      intro hb
      unfold Ideal.touched
      have : (fun c => if c = b then true else i.begun c) = i.begun := by
        funext c
        by_cases hcb : c = b
        · rw [if_pos hcb, hcb, hb]
        · rw [if_neg hcb]
      rw [this]
    have hs := r.scopes s
    rw [h2] at hs
    simp only [Option.map_some] at hs
    rcases h3 with h3 | ⟨h3, hb⟩
    · subst h3
      cases hb : i.begun b with
      | true =>
        rw [hb, if_pos rfl] at hs
        refine ⟨{ w with conns := w.conns.set c (s, some (m b)) }, m, ?_, ?_⟩
        · unfold World.opened
          rw [hc]
          simp only
          rw [hs]
        · rw [same hb]
          refine { r with clen := by rw [← r.clen]; exact List.length_set, conns := ?_ }
          intro c' s' x' h'
          rw [set_get? _ _ _ _ _ hc] at h'
          by_cases hcc : c' = c
          · rw [if_pos hcc] at h'
            cases h'
            exact ⟨b, by rw [hcc]; exact h, h2, .inr ⟨rfl, hb⟩⟩
          · rw [if_neg hcc] at h'
            exact r.conns c' s' x' h'
      | false =>
        rw [hb] at hs
        simp only [Bool.false_eq_true, if_false] at hs
        refine ⟨⟨(w.heap.fresh []).1, w.scopes.set s (some w.heap.next), w.conns.set c (s, some w.heap.next)⟩,
          fun d => if d = b then w.heap.next else m d, ?_, ?_⟩
        · unfold World.opened
          rw [hc]
          simp only
          rw [hs, if_pos trivial]
        · have begun : ∀ d, (i.touched b).begun d = true ↔ d = b ∨ i.begun d = true := by
            intro d
            show (if d = b then true else i.begun d) = true ↔ _
            by_cases hd : d = b
            · simp [hd]
            · simp [hd]
          have nbegun : ∀ d, (i.touched b).begun d = false → d ≠ b ∧ i.begun d = false := by
            intro d hd
            have hd : (if d = b then true else i.begun d) = false := hd
            by_cases hdb : d = b
            · rw [if_pos hdb] at hd; cases hd
            · rw [if_neg hdb] at hd; exact ⟨hdb, hd⟩
          refine ⟨?_, ?_, ?_, r.bound, ?_, ?_, ?_, ?_, ?_, ?_, r.noOwn⟩
          · intro s'
            show (w.scopes.set s (some w.heap.next))[s']? = (i.scopes[s']?).map _
            rw [set_get? _ _ _ _ _ hs]
            by_cases hss : s' = s
            · rw [if_pos hss, hss, h2]
              simp [Ideal.touched]
            · rw [if_neg hss, r.scopes s']
              cases hb' : i.scopes[s']? with
              | none => rfl
              | some d =>
                have hd : d ≠ b := fun e => hss (r.lone s' s b (e ▸ hb') h2 hb)
                simp [Ideal.touched, hd]
          · show (w.conns.set c _).length = i.conns.length
            rw [List.length_set]; exact r.clen
          · intro c' s' x' h'
            have h' : (w.conns.set c (s, some w.heap.next))[c']? = some (s', x') := h'
            rw [set_get? _ _ _ _ _ hc] at h'
            by_cases hcc : c' = c
            · rw [if_pos hcc] at h'
              cases h'
              exact ⟨b, by rw [hcc]; exact h, h2, .inr ⟨by rw [if_pos rfl], (begun b).2 (.inl rfl)⟩⟩
            · rw [if_neg hcc] at h'
              obtain ⟨d, d1, d2, d3⟩ := r.conns c' s' x' h'
              refine ⟨d, d1, d2, ?_⟩
              rcases d3 with d3 | ⟨d3, d4⟩
              · exact .inl d3
              · refine .inr ⟨?_, (begun d).2 (.inr d4)⟩
                rw [if_neg (fun e => by rw [e, hb] at d4; cases d4), d3]
          · intro d hd
            show (if d = b then true else i.begun d) = false
            rw [if_neg (fun e => ?_)]
            · exact r.fresh d hd
            · have := r.bound s b h2
              have hd : i.made ≤ d := hd
              omega
          · intro d hd k
            exact r.empty d (nbegun d hd).2 k
          · intro a a' d ha ha' hd
            exact r.lone a a' d ha ha' (nbegun d hd).2
          · intro d hd
            show (if d = b then w.heap.next else m d) < w.heap.next + 1
            by_cases hdb : d = b
            · rw [if_pos hdb]; omega
            · rw [if_neg hdb]
              have := r.low d (((begun d).1 hd).resolve_left hdb)
              omega
          · intro d d' hd hd' e
            have e : (if d = b then w.heap.next else m d) = (if d' = b then w.heap.next else m d') := e
            by_cases h1 : d = b <;> by_cases h2 : d' = b
            · rw [h1, h2]
            · rw [if_pos h1, if_neg h2] at e
              have := r.low d' (((begun d').1 hd').resolve_left h2)
              omega
            · rw [if_neg h1, if_pos h2] at e
              have := r.low d (((begun d).1 hd).resolve_left h1)
              omega
            · rw [if_neg h1, if_neg h2] at e
              exact r.inj d d' (((begun d).1 hd).resolve_left h1) (((begun d').1 hd').resolve_left h2) e
          · intro d hd k
            show aget (if (if d = b then w.heap.next else m d) = w.heap.next then [] else
              w.heap.dicts (if d = b then w.heap.next else m d)) k = i.board d k
            by_cases hdb : d = b
            · rw [if_pos hdb, if_pos rfl, hdb, r.empty b hb k]; rfl
            · have hd := ((begun d).1 hd).resolve_left hdb
              have := r.low d hd
              rw [if_neg hdb, if_neg (by omega)]
              exact r.same d hd k
    · subst h3
      refine ⟨w, m, ?_, by rw [same hb]; exact r⟩
      unfold World.opened
      rw [hc]

theorem touched_begun (i : Ideal) (b : Nat) : (i.touched b).begun b = true := by
  show (if b = b then true else _) = true
  rw [if_pos rfl]

/-- Changing one entry of a dictionary is changing one entry of its board. -/
theorem put_rel {w : World} {i : Ideal} {m : Nat → Nat} (r : Rel w i m) {b : Nat} (hb : i.begun b = true) (k : Str)
    (x : Option Val) (es : Dict) (hk : k = ownName → x = none)
    (he : ∀ n, aget es n = if n = k then x else aget (w.heap.dicts (m b)) n) :
    Rel { w with heap := w.heap.put (m b) es } (i.post b k x) m := by
  have hbg : (i.post b k x).begun = i.begun := by
    funext c
    show (if c = b then true else i.begun c) = i.begun c
    by_cases hcb : c = b
    · rw [if_pos hcb, hcb, hb]
    · rw [if_neg hcb]
  refine ⟨?_, r.clen, ?_, r.bound, ?_, ?_, ?_, ?_, ?_, ?_, ?_⟩
  · rw [hbg]; exact r.scopes
  · rw [hbg]; exact r.conns
  · rw [hbg]; exact r.fresh
  · rw [hbg]
    intro d hd n
    show (if d = b ∧ n = k then x else i.board d n) = none
    rw [if_neg (fun e => by rw [e.1, hb] at hd; cases hd)]
    exact r.empty d hd n
  · rw [hbg]; exact r.lone
  · rw [hbg]; exact r.low
  · rw [hbg]; exact r.inj
  · rw [hbg]
    intro d hd n
    show aget (if m d = m b then es else w.heap.dicts (m d)) n = (if d = b ∧ n = k then x else i.board d n)
    by_cases hdb : d = b
    · subst hdb
      rw [if_pos rfl, he, r.same d hd n]
      by_cases hn : n = k <;> simp [hn]
    · rw [if_neg (fun e => hdb (r.inj d b hd hb e)), if_neg (fun e => hdb e.1)]
      exact r.same d hd n
  · intro d
    show (if d = b ∧ ownName = k then x else i.board d ownName) = none
    by_cases h : d = b ∧ ownName = k
    · rw [if_pos h]; exact hk h.2.symm
    · rw [if_neg h]; exact r.noOwn d

theorem post_same {i : Ideal} {b : Nat} (hb : i.begun b = true) (k : Str) (hk : i.board b k = none) :
    i.post b k none = i := by
  unfold Ideal.post
  have h1 : (fun c => if c = b then true else i.begun c) = i.begun := by
    funext c
    by_cases hcb : c = b
    · rw [if_pos hcb, hcb, hb]
    · rw [if_neg hcb]
  have h2 : (fun c n => if c = b ∧ n = k then none else i.board c n) = i.board := by
    funext c n
    by_cases h : c = b ∧ n = k
    · rw [if_pos h, h.1, h.2, hk]
    · rw [if_neg h]
  rw [h1, h2]

theorem touched_post (i : Ideal) (b : Nat) (k : Str) (x : Option Val) : (i.touched b).post b k x = i.post b k x := by
  unfold Ideal.post Ideal.touched
  simp only
  have : (fun c => if c = b then true else if c = b then true else i.begun c) =
      fun c => if c = b then true else i.begun c := by
    funext c
    by_cases h : c = b <;> simp [h]
  rw [this]

theorem aget_find (es : Dict) (k : Str) : aget es k = (es.find? (fun e => e.1 = k)).map (·.2) := by
  induction es with
  | nil => rfl
  | cons e es ih =>
    obtain ⟨n, v⟩ := e
    by_cases h : n = k
    · simp [aget, h]
    · simp [aget, h, ih]

theorem inner_self {h : Heap} {d : Nat} (ho : aget (h.dicts d) ownName = none) : inner h (.dict d) = .ok (.dict d) := by
  unfold inner
  simp only
  rw [ho]

theorem absent_names (es : Dict) (k : Str) (h : aget es k = none) : k ∉ es.map (·.1) := by
  induction es with
  | nil => exact List.not_mem_nil
  | cons e es ih =>
    obtain ⟨n, v⟩ := e
    by_cases hn : n = k
    · simp [aget, hn] at h
    · simp only [aget, if_neg hn] at h
      intro hm
      rcases List.mem_cons.1 hm with e | e
      · exact hn e.symm
      · exact ih h e

theorem present_names (es : Dict) (k : Str) (v : Val) (h : aget es k = some v) : k ∈ es.map (·.1) := by
  induction es with
  | nil => cases h
  | cons e es ih =>
    obtain ⟨n, w⟩ := e
    by_cases hn : n = k
    · exact List.mem_cons.2 (.inl hn.symm)
    · simp only [aget, if_neg hn] at h
      exact List.mem_cons.2 (.inr (ih h))

theorem absent (h : Heap) (d : Nat) (k : Str) (ho : ∀ v, (k, v) ∉ h.dicts d) : aget (h.dicts d) k = none := by
  cases ha : aget (h.dicts d) k with
  | none => rfl
  | some v =>
    rw [aget_find] at ha
    obtain ⟨e, h1, h2⟩ := Option.map_eq_some_iff.1 ha
    have hk : e.1 = k := by simpa using List.find?_some h1
    exact absurd (by rw [← hk]; exact List.mem_of_find?_eq_some h1) (ho e.2)

theorem append_get? {α : Type} (l : List α) (a : α) (j : Nat) :
    (l ++ [a])[j]? = if j = l.length then some a else l[j]? := by
  rcases Nat.lt_trichotomy j l.length with h | h | h
  · rw [List.getElem?_append_left h, if_neg (by omega)]
  · subst h; simp
  · rw [List.getElem?_append_right (by omega), if_neg (by omega), List.getElem?_eq_none (by simp; omega),
      List.getElem?_eq_none (by omega)]

theorem slen {w : World} {i : Ideal} {m : Nat → Nat} (r : Rel w i m) : w.scopes.length = i.scopes.length := by
  have h1 := r.scopes i.scopes.length
  rw [List.getElem?_eq_none (Nat.le_refl i.scopes.length)] at h1
  have h1 := List.getElem?_eq_none_iff.1 h1
  have h2 := r.scopes w.scopes.length
  rw [List.getElem?_eq_none (Nat.le_refl w.scopes.length)] at h2
  have h2 := List.getElem?_eq_none_iff.1 (Option.map_eq_none_iff.1 h2.symm)
  omega

theorem get?_lt {α : Type} {l : List α} {n : Nat} {a : α} (h : l[n]? = some a) : n < l.length := by
  rcases Nat.lt_or_ge n l.length with h' | h'
  · exact h'
  · rw [List.getElem?_eq_none h'] at h; cases h

/-- Every step keeps the dictionaries in accord with the boards. -/
theorem step_rel {w : World} {i : Ideal} {m : Nat → Nat} (r : Rel w i m) (a : Act) (ha : Proper i a) :
    ∃ m', Rel (w.step a) (i.step a) m' := by
  cases a with
  | request st =>
    cases st with
    | none =>
      refine ⟨m, ?_⟩
      have hf := r.fresh i.made (Nat.le_refl _)
      refine { r with scopes := ?_, conns := ?_, bound := ?_, fresh := ?_, lone := ?_ }
      · intro s
        show (w.scopes ++ [none])[s]? =
          ((i.scopes ++ [i.made])[s]?).map (fun b => if i.begun b then some (m b) else none)
        rw [append_get?, append_get?, slen r]
        by_cases hs : s = i.scopes.length
        · rw [if_pos hs, if_pos hs]; simp [hf]
        · rw [if_neg hs, if_neg hs]; exact r.scopes s
      · intro c s x h
        obtain ⟨b, h1, h2, h3⟩ := r.conns c s x h
        refine ⟨b, h1, ?_, h3⟩
        show (i.scopes ++ [i.made])[s]? = _
        rw [append_get?, if_neg (Nat.ne_of_lt (get?_lt h2))]
        exact h2
      · intro s b h
        have h : (i.scopes ++ [i.made])[s]? = some b := h
        rw [append_get?] at h
        show b < i.made + 1
        by_cases hs : s = i.scopes.length
        · rw [if_pos hs] at h; cases h; omega
        · rw [if_neg hs] at h
          have := r.bound s b h
          omega
      · intro b hb
        have hb : i.made + 1 ≤ b := hb
        exact r.fresh b (by omega)
      · intro s s' b h h' hb
        have h : (i.scopes ++ [i.made])[s]? = some b := h
        have h' : (i.scopes ++ [i.made])[s']? = some b := h'
        rw [append_get?] at h h'
        by_cases hs : s = i.scopes.length <;> by_cases hs' : s' = i.scopes.length
        · rw [hs, hs']
        · rw [if_pos hs] at h; rw [if_neg hs'] at h'; cases h
          have := r.bound s' _ h'; omega
        · rw [if_neg hs] at h; rw [if_pos hs'] at h'; cases h'
          have := r.bound s _ h; omega
        · rw [if_neg hs] at h; rw [if_neg hs'] at h'
          exact r.lone s s' b h h' hb
    | some es =>
      refine ⟨fun d => if d = i.made then w.heap.next else m d, ?_⟩
      have old : ∀ (s : Nat) b, i.scopes[s]? = some b → b ≠ i.made := fun s b h e => by
        have := r.bound s b h; omega
      have begun : ∀ d, (i.step (.request (some es))).begun d = true ↔ d = i.made ∨ i.begun d = true := by
        intro d
        show (if d = i.made then true else i.begun d) = true ↔ _
        by_cases hd : d = i.made
        · simp [hd]
        · simp [hd]
      have nbegun : ∀ d, (i.step (.request (some es))).begun d = false → d ≠ i.made ∧ i.begun d = false := by
        intro d hd
        have hd : (if d = i.made then true else i.begun d) = false := hd
        by_cases hdb : d = i.made
        · rw [if_pos hdb] at hd; cases hd
        · rw [if_neg hdb] at hd; exact ⟨hdb, hd⟩
      have board : ∀ d k, (i.step (.request (some es))).board d k =
          if d = i.made then (es.find? (fun e => e.1 = k)).map (·.2) else i.board d k := fun _ _ => rfl
      refine ⟨?_, r.clen, ?_, ?_, ?_, ?_, ?_, ?_, ?_, ?_, ?_⟩
      · intro s
        show (w.scopes ++ [some w.heap.next])[s]? = ((i.scopes ++ [i.made])[s]?).map
          (fun b => if (if b = i.made then true else i.begun b) then some (if b = i.made then w.heap.next else m b)
            else none)
        rw [append_get?, append_get?, slen r]
        by_cases hs : s = i.scopes.length
        · rw [if_pos hs, if_pos hs]; simp
        · rw [if_neg hs, if_neg hs, r.scopes s]
          cases hb : i.scopes[s]? with
          | none => rfl
          | some b => simp [old s b hb]
      · intro c s x h
        obtain ⟨b, h1, h2, h3⟩ := r.conns c s x h
        refine ⟨b, h1, ?_, ?_⟩
        · show (i.scopes ++ [i.made])[s]? = _
          rw [append_get?, if_neg (Nat.ne_of_lt (get?_lt h2))]
          exact h2
        · rcases h3 with h3 | ⟨h3, h4⟩
          · exact .inl h3
          · exact .inr ⟨by rw [if_neg (old s b h2)]; exact h3, (begun b).2 (.inr h4)⟩
      · intro s b h
        have h : (i.scopes ++ [i.made])[s]? = some b := h
        rw [append_get?] at h
        show b < i.made + 1
        by_cases hs : s = i.scopes.length
        · rw [if_pos hs] at h; cases h; omega
        · rw [if_neg hs] at h
          have := r.bound s b h
          omega
      · intro b hb
        have hb : i.made + 1 ≤ b := hb
        show (if b = i.made then true else i.begun b) = false
        rw [if_neg (by omega)]
        exact r.fresh b (by omega)
      · intro d hd k
        rw [board, if_neg (nbegun d hd).1]
        exact r.empty d (nbegun d hd).2 k
      · intro s s' b h h' hb
        obtain ⟨hn, hb⟩ := nbegun b hb
        have h : (i.scopes ++ [i.made])[s]? = some b := h
        have h' : (i.scopes ++ [i.made])[s']? = some b := h'
        rw [append_get?] at h h'
        by_cases hs : s = i.scopes.length
        · rw [if_pos hs] at h; cases h; exact absurd rfl hn
        · by_cases hs' : s' = i.scopes.length
          · rw [if_pos hs'] at h'; cases h'; exact absurd rfl hn
          · rw [if_neg hs] at h; rw [if_neg hs'] at h'
            exact r.lone s s' b h h' hb
      · intro d hd
        show (if d = i.made then w.heap.next else m d) < w.heap.next + 1
        by_cases hdb : d = i.made
        · rw [if_pos hdb]; omega
        · rw [if_neg hdb]
          have := r.low d (((begun d).1 hd).resolve_left hdb)
          omega
      · intro d d' hd hd' e
        have e : (if d = i.made then w.heap.next else m d) = (if d' = i.made then w.heap.next else m d') := e
        by_cases h1 : d = i.made <;> by_cases h2 : d' = i.made
        · rw [h1, h2]
        · rw [if_pos h1, if_neg h2] at e
          have := r.low d' (((begun d').1 hd').resolve_left h2)
          omega
        · rw [if_neg h1, if_pos h2] at e
          have := r.low d (((begun d).1 hd).resolve_left h1)
          omega
        · rw [if_neg h1, if_neg h2] at e
          exact r.inj d d' (((begun d).1 hd).resolve_left h1) (((begun d').1 hd').resolve_left h2) e
      · intro d hd k
        rw [board]
        show aget (if (if d = i.made then w.heap.next else m d) = w.heap.next then es else
          w.heap.dicts (if d = i.made then w.heap.next else m d)) k = _
        by_cases hdb : d = i.made
        · rw [if_pos hdb, if_pos rfl, if_pos hdb]; exact aget_find es k
        · have hd := ((begun d).1 hd).resolve_left hdb
          have := r.low d hd
          rw [if_neg hdb, if_neg (by omega), if_neg hdb]
          exact r.same d hd k
      · intro d
        rw [board]
        by_cases hdb : d = i.made
        · rw [if_pos hdb]
          have : es.find? (fun e => e.1 = ownName) = none := by
            rw [List.find?_eq_none]
            intro e he
            have : e.1 ≠ ownName := ha e he
            simpa using this
          rw [this]; rfl
        · rw [if_neg hdb]; exact r.noOwn d
  | fork s =>
    cases hs : i.scopes[s]? with
    | none =>
      have hw : w.scopes[s]? = none := by rw [r.scopes s, hs]; rfl
      refine ⟨m, ?_⟩
      unfold World.step Ideal.step
      simp only
      rw [hs, hw]
      exact r
    | some b =>
      have hb : i.begun b = true := ha b hs
      have hw : w.scopes[s]? = some (some (m b)) := by rw [r.scopes s, hs]; simp [hb]
      refine ⟨m, ?_⟩
      unfold World.step Ideal.step
      simp only
      rw [hs, hw]
      refine { r with scopes := ?_, conns := ?_, bound := ?_, lone := ?_ }
      · intro s'
        show (w.scopes ++ [some (m b)])[s']? = ((i.scopes ++ [b])[s']?).map _
        rw [append_get?, append_get?, slen r]
        by_cases hs : s' = i.scopes.length
        · rw [if_pos hs, if_pos hs]; simp [hb]
        · rw [if_neg hs, if_neg hs]; exact r.scopes s'
      · intro c s' x h
        obtain ⟨d, h1, h2, h3⟩ := r.conns c s' x h
        refine ⟨d, h1, ?_, h3⟩
        show (i.scopes ++ [b])[s']? = _
        rw [append_get?, if_neg (Nat.ne_of_lt (get?_lt h2))]
        exact h2
      · intro s' d h
        have h : (i.scopes ++ [b])[s']? = some d := h
        rw [append_get?] at h
        by_cases hs' : s' = i.scopes.length
        · rw [if_pos hs'] at h; cases h; exact r.bound s b hs
        · rw [if_neg hs'] at h; exact r.bound s' d h
      · intro s1 s2 d h h' hd
        have h : (i.scopes ++ [b])[s1]? = some d := h
        have h' : (i.scopes ++ [b])[s2]? = some d := h'
        rw [append_get?] at h h'
        by_cases e1 : s1 = i.scopes.length
        · rw [if_pos e1] at h; cases h; exact absurd (hb.symm.trans hd) (by decide)
        · by_cases e2 : s2 = i.scopes.length
          · rw [if_pos e2] at h'; cases h'; exact absurd (hb.symm.trans hd) (by decide)
          · rw [if_neg e1] at h; rw [if_neg e2] at h'
            exact r.lone s1 s2 d h h' hd
  | connect s =>
    refine ⟨m, ?_⟩
    unfold World.step Ideal.step
    simp only
    cases hs : i.scopes[s]? with
    | none =>
      have hw : w.scopes[s]? = none := by rw [r.scopes s, hs]; rfl
      rw [hw]
      exact r
    | some b =>
      have hw := r.scopes s
      rw [hs] at hw
      simp only [Option.map_some] at hw
      rw [hw]
      refine { r with clen := by simp [r.clen], conns := ?_ }
      intro c s' x h
      have h : (w.conns ++ [(s, none)])[c]? = some (s', x) := h
      rw [append_get?] at h
      show ∃ d, (i.conns ++ [b])[c]? = some d ∧ _
      rw [append_get?]
      by_cases hc : c = w.conns.length
      · rw [if_pos hc] at h
        cases h
        rw [if_pos (hc.trans r.clen)]
        exact ⟨b, rfl, hs, .inl rfl⟩
      · rw [if_neg hc] at h
        rw [if_neg (fun e => hc (e.trans r.clen.symm))]
        exact r.conns c s' x h
  | touch c =>
    unfold World.step Ideal.step
    simp only
    cases hc : i.conns[c]? with
    | none =>
      rw [opened_none r hc]
      exact ⟨m, r⟩
    | some b =>
      obtain ⟨w', m', h1, h2⟩ := opened_some r hc
      rw [h1]
      exact ⟨m', h2⟩
  | write c k v =>
    unfold World.step Ideal.step
    simp only
    cases hc : i.conns[c]? with
    | none =>
      rw [opened_none r hc]
      exact ⟨m, r⟩
    | some b =>
      obtain ⟨w', m', h1, h2⟩ := opened_some r hc
      rw [h1]
      refine ⟨m', ?_⟩
      simp only [set]
      rw [← touched_post]
      exact put_rel h2 (touched_begun i b) k (some v) _ (fun e => absurd e ha)
        (fun n => by rw [aget_aset])
  | erase c k =>
    unfold World.step Ideal.step
    simp only
    cases hc : i.conns[c]? with
    | none =>
      rw [opened_none r hc]
      exact ⟨m, r⟩
    | some b =>
      obtain ⟨w', m', h1, h2⟩ := opened_some r hc
      rw [h1]
      refine ⟨m', ?_⟩
      have hs := h2.same b (touched_begun i b)
      simp only [del]
      rw [inner_self ((hs ownName).trans (h2.noOwn b))]
      simp only
      rw [← touched_post]
      cases hk : aget (w'.heap.dicts (m' b)) k with
      | none =>
        rw [post_same (touched_begun i b) k ((hs k).symm.trans hk)]
        exact h2
      | some v =>
        exact put_rel h2 (touched_begun i b) k none _ (fun _ => rfl) (fun n => by rw [aget_adel])

theorem run_rel (as : List Act) : ∀ {w : World} {i : Ideal} {m : Nat → Nat}, Rel w i m → Fine i as →
    ∃ m', Rel (w.run as) (i.run as) m' := by
  induction as with
  | nil => intro w i m r _; exact ⟨m, r⟩
  | cons a as ih =>
    intro w i m r hf
    obtain ⟨m', r'⟩ := step_rel r a hf.1
    exact ih r' hf.2

/-- What a connection reads is what is on its board. -/
theorem read_eq {w : World} {i : Ideal} {m : Nat → Nat} (r : Rel w i m) (found : Str → Bool) {c b : Nat}
    (hc : i.conns[c]? = some b) (k : Str) (hk : k ≠ ownName) :
    read found w c k = match i.board b k with
      | some v => .ok (.value v)
      | none => if k = "copy".toList ∨ found k then .ok .bound else .error .attribute := by
  obtain ⟨w', m', h1, h2⟩ := opened_some r hc
  unfold read
  rw [h1]
  simp only [get]
  rw [h2.same b (touched_begun i b) k]
  show (match i.board b k with
      | some v => _
      | none => _) = _
  cases i.board b k with
  | some v => rfl
  | none => simp only; rw [if_neg hk]

end Verif.StateObj
