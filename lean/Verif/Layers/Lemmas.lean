import Verif.Layers.Spec

/-!
# Lemmas on the layers of dependencies
-/

namespace Verif.Layers

open Verif Verif.Layers.Spec

theorem innermost_cons (m : Map) (ms : List Map) (n : Str) : innermost (m :: ms) n = (innermost ms n).or (m n) := by
  unfold innermost
  rw [List.reverse_cons, List.findSome?_append]
  congr 1
  simp only [List.findSome?_cons, List.findSome?_nil]
  cases m n <;> rfl

theorem innermost_some (ms : List Map) (m : Map) (hm : m ∈ ms) (n : Str) (p : Provider) (h : m n = some p) :
    (innermost ms n).isSome = true := by
  induction ms with
  | nil => cases hm
  | cons a ms ih =>
    rw [innermost_cons]
    rcases List.mem_cons.1 hm with rfl | hm
    · cases hi : innermost ms n with
      | none => rw [h]; rfl
      | some x => rfl
    · cases hi : innermost ms n with
      | none => rw [hi] at ih; exact absurd (ih hm) (by simp)
      | some x => rfl

theorem update_empty (d : Map) : d.update .empty = d := by
  funext n
  rfl

theorem update_apply (d e : Map) (n : Str) : d.update e n = (e n).or (d n) := rfl

theorem or_assoc' {α : Type} (a b c : Option α) : (a.or b).or c = a.or (b.or c) := by
  cases a <;> rfl

/-- What the walk does inside of an application. -/
structure Walked (http : Bool) (s : Scope) (p : Place) : Prop where
  deps : ∃ D r, (walk http s p).1.dependencies = s.dependencies ++ (D ++ [r]) ∧
    ∀ b n, (((D ++ [r]).foldl Map.update b).update (walk http s p).2) n = (innermost (layers p) n).or (b n)
  app : (walk http s p).1.app = s.app ∨
    (¬ NoApp p ∧ ∀ n x, (walk http s p).1.app n = some x → (innermost (layers p) n).isSome = true)
  overrides : (∀ o ∈ Spec.overrides p, o = none) → (walk http s p).1.overrides = s.overrides

theorem walked_cons (http : Bool) (s s' : Scope) (d : Map) (p q : Place)
    (hw : Walked http s' p) (he : walk http s q = walk http s' p)
    (hd : s'.dependencies = s.dependencies ++ [d])
    (hl : ∀ n, innermost (layers q) n = (innermost (layers p) n).or (d n))
    (ha : s'.app = s.app ∨ (¬ NoApp q ∧ ∀ n x, s'.app n = some x → (innermost (layers q) n).isSome = true))
    (hn : ¬ NoApp p → ¬ NoApp q)
    (ho : (∀ o ∈ Spec.overrides q, o = none) → s'.overrides = s.overrides ∧ ∀ o ∈ Spec.overrides p, o = none) :
    Walked http s q := by
  refine ⟨?_, ?_, ?_⟩
  · obtain ⟨D, r, h1, h2⟩ := hw.deps
    refine ⟨d :: D, r, by rw [he, h1, hd]; simp, fun b n => ?_⟩
    rw [he, hl, List.cons_append, List.foldl_cons, h2, or_assoc']
    rfl
  · rw [he]
    rcases hw.app with h | ⟨h1, h2⟩
    · rw [h]
      exact ha
    · refine .inr ⟨hn h1, fun n x hx => ?_⟩
      rw [hl]
      have := h2 n x hx
      cases hi : innermost (layers p) n with
      | none => rw [hi] at this; cases this
      | some y => rfl
  · intro hq
    rw [he, hw.overrides (ho hq).2, (ho hq).1]

theorem walked_skip (http : Bool) (s s' : Scope) (p q : Place)
    (hw : Walked http s' p) (he : walk http s q = walk http s' p)
    (hd : s'.dependencies = s.dependencies)
    (hl : ∀ n, innermost (layers q) n = innermost (layers p) n)
    (ha : s'.app = s.app ∨ (¬ NoApp q ∧ ∀ n x, s'.app n = some x → (innermost (layers q) n).isSome = true))
    (hn : ¬ NoApp p → ¬ NoApp q)
    (ho : (∀ o ∈ Spec.overrides q, o = none) → s'.overrides = s.overrides ∧ ∀ o ∈ Spec.overrides p, o = none) :
    Walked http s q := by
  refine ⟨?_, ?_, ?_⟩
  · obtain ⟨D, r, h1, h2⟩ := hw.deps
    exact ⟨D, r, by rw [he, h1, hd], fun b n => by rw [he, hl, h2]⟩
  · rw [he]
    rcases hw.app with h | ⟨h1, h2⟩
    · rw [h]
      exact ha
    · exact .inr ⟨hn h1, fun n x hx => by rw [hl]; exact h2 n x hx⟩
  · intro hq
    rw [he, hw.overrides (ho hq).2, (ho hq).1]

/-- The overrides of an application that has none. -/
theorem getD_none (b : Bool) (o : Option Map) (m : Map) (h : o = none) : (if b then m else o.getD m) = m := by
  subst h
  cases b <;> rfl

theorem walked : (http : Bool) → (s : Scope) → (p : Place) → Inside p → Walked http s p
  | http, s, .route deps func, _ => by
    refine ⟨⟨[], deps, rfl, fun b n => ?_⟩, .inl rfl, fun _ => rfl⟩
    show (func n).or ((deps n).or (b n)) = _
    rw [layers, innermost_cons, innermost_cons]
    show _ = (((none : Option Provider).or (func n)).or (deps n)).or (b n)
    cases func n <;> rfl
  | http, s, .incl (some d) (.router d' p), h =>
    walked_cons http s { s with dependencies := s.dependencies ++ [d] } d p _ (walked http _ p h.2) rfl rfl
      (fun n => by rw [layers, layers, innermost_cons, innermost_cons, h.1]; cases innermost (layers p) n <;> rfl)
      (.inl rfl) (fun hn => hn) (fun ho => ⟨rfl, ho⟩)
  | http, s, .incl none (.router d' p), h =>
    walked_cons http s { s with dependencies := s.dependencies ++ [d'] } d' p _ (walked http _ p h) rfl rfl
      (fun n => by
        rw [layers, layers, innermost_cons, innermost_cons]
        show (_ : Option Provider).or none = _
        cases (innermost (layers p) n).or (d' n) <;> rfl)
      (.inl rfl) (fun hn => hn) (fun ho => ⟨rfl, ho⟩)
  | http, s, .host d (.router d' p), h =>
    walked_skip http s s p _ (walked http _ p h.2.2) rfl rfl
      (fun n => by
        rw [layers, layers, innermost_cons, innermost_cons, h.1, h.2.1]
        cases innermost (layers p) n <;> rfl)
      (.inl rfl) (fun hn => hn) (fun ho => ⟨rfl, ho⟩)
  | http, s, .incl (some d) (.app d' o b p), h =>
    walked_cons http s ⟨d', s.dependencies ++ [d], if direct http b p then s.overrides else o.getD s.overrides⟩ d p _
      (walked http _ p h.2) rfl rfl
      (fun n => by rw [layers, layers, innermost_cons, innermost_cons, h.1]; cases innermost (layers p) n <;> rfl)
      (.inr ⟨fun x => x, fun n x hx => by rw [h.1] at hx; cases hx⟩) (fun _ x => x)
      (fun ho => ⟨getD_none _ _ _ (ho o (by simp [Spec.overrides])), fun o' ho' => ho o' (by
        simp only [Spec.overrides]; exact List.mem_cons_of_mem _ ho')⟩)
  | http, s, .incl none (.app d' o b p), h =>
    walked_cons http s ⟨d', s.dependencies ++ [d'], if direct http b p then s.overrides else o.getD s.overrides⟩ d' p _
      (walked http _ p h) rfl rfl
      (fun n => by
        rw [layers, layers, innermost_cons, innermost_cons]
        show (_ : Option Provider).or none = _
        cases (innermost (layers p) n).or (d' n) <;> rfl)
      (.inr ⟨fun x => x, fun n x hx => innermost_some _ d' (by simp [layers]) n x hx⟩) (fun _ x => x)
      (fun ho => ⟨getD_none _ _ _ (ho o (by simp [Spec.overrides])), fun o' ho' => ho o' (by
        simp only [Spec.overrides]; exact List.mem_cons_of_mem _ ho')⟩)
  | http, s, .host d (.app d' o b p), h =>
    walked_skip http s ⟨d', s.dependencies, if direct http b p then s.overrides else o.getD s.overrides⟩ p _
      (walked http _ p h.2.2) rfl rfl
      (fun n => by
        rw [layers, layers, innermost_cons, innermost_cons, h.1, h.2.1]
        cases innermost (layers p) n <;> rfl)
      (.inr ⟨fun x => x, fun n x hx => by rw [h.2.1] at hx; cases hx⟩) (fun _ x => x)
      (fun ho => ⟨getD_none _ _ _ (ho o (by simp [Spec.overrides])), fun o' ho' => ho o' (by
        simp only [Spec.overrides]; exact List.mem_cons_of_mem _ ho')⟩)

theorem foldl_twice (D : List Map) (r : Map) (b : Map) :
    ((D ++ [r]) ++ [r]).foldl Map.update b = (D ++ [r]).foldl Map.update b := by
  rw [List.foldl_append, List.foldl_append]
  funext n
  simp only [List.foldl_cons, List.foldl_nil, Map.update]
  cases r n <;> rfl

theorem merged_eq (http : Bool) (p : Place) (D : List Map) (r : Map)
    (h : (walk http .fresh p).1.dependencies = D ++ [r]) (n : Str) :
    merged http p n = ((walk http .fresh p).1.overrides n).or
      ((((D ++ [r]).foldl Map.update (walk http .fresh p).1.app).update (walk http .fresh p).2) n) := by
  unfold merged
  generalize walk http .fresh p = w at h ⊢
  obtain ⟨s, func⟩ := w
  simp only at h ⊢
  rw [update_apply, h]
  congr 2
  cases http with
  | true => rfl
  | false =>
    have : (D ++ [r]).getLast? = some r := by simp
    rw [this]
    exact foldl_twice D r s.app

theorem walk_last (http : Bool) (s : Scope) (p : Place) : ∃ D r, (walk http s p).1.dependencies = D ++ [r] := by
  induction p generalizing s with
  | route deps func => exact ⟨_, _, rfl⟩
  | incl deps inner ih => exact ih _
  | host deps inner ih => exact ih _
  | router deps inner ih => exact ih _
  | app deps o plain inner ih => exact ih _

theorem walk_overrides (http : Bool) (s : Scope) (p : Place) (h : ∀ o ∈ Spec.overrides p, o = none) :
    (walk http s p).1.overrides = s.overrides := by
  induction p generalizing s with
  | route deps func => rfl
  | incl deps inner ih => exact ih _ h
  | host deps inner ih => exact ih _ h
  | router deps inner ih => exact ih _ h
  | app deps o plain inner ih =>
    rw [walk, ih _ (fun o' ho' => h o' (by simp [Spec.overrides, ho']))]
    exact getD_none _ _ _ (h o (by simp [Spec.overrides]))

theorem not_direct (http plain : Bool) (deps : Map) (o : Option Map) (p : Place)
    (h : NoShortcut http (.app deps o plain p)) : direct http plain p = false ∧ NoShortcut http p := by
  cases p with
  | route d f =>
    refine ⟨?_, trivial⟩
    unfold NoShortcut at h
    unfold direct
    cases http <;> cases plain <;> simp_all
  | incl d q => exact ⟨rfl, h⟩
  | host d q => exact ⟨rfl, h⟩
  | router d q => exact ⟨rfl, h⟩
  | app d o' pl q => exact ⟨rfl, h⟩

/-- The innermost application with overrides decides. -/
theorem walk_overrides_last (http : Bool) (s : Scope) (p : Place) (hs : NoShortcut http p) (m : Map)
    (pre post : List (Option Map)) (h : Spec.overrides p = pre ++ some m :: post) (hp : ∀ o ∈ post, o = none) :
    (walk http s p).1.overrides = m := by
  induction p generalizing s pre with
  | route deps func => simp [Spec.overrides] at h
  | incl deps inner ih => exact ih _ hs pre h
  | host deps inner ih => exact ih _ hs pre h
  | router deps inner ih => exact ih _ hs pre h
  | app deps o plain inner ih =>
    obtain ⟨h1, h2⟩ := not_direct _ _ _ _ _ hs
    rw [Spec.overrides] at h
    cases pre with
    | nil =>
      injection h with e1 e2
      rw [walk, walk_overrides _ _ _ (by rw [e2]; exact hp)]
      simp only [h1]
      rw [e1]
      rfl
    | cons a pre =>
      injection h with e1 e2
      exact ih _ h2 pre e2

end Verif.Layers
