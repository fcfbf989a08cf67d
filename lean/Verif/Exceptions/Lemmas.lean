import Verif.Exceptions.Spec

namespace Verif.Exceptions

open Verif Spec

theorem aget_foldl_status (regs : List (Key × Handler)) (t : Tables) (n : Nat) (h : Handler) :
    aget (regs.foldl addHandler t).byStatus n = some h ↔
      Registered regs (.status n) h ∨ ((¬ Known regs (.status n)) ∧ aget t.byStatus n = some h) := by
  induction regs generalizing t with
  | nil => simp [Registered, Known]
  | cons kv regs ih =>
    simp only [List.foldl_cons]
    rw [ih]
    constructor
    · rintro (⟨b, a, rfl, ha⟩ | ⟨hn, hg⟩)
      · exact .inl ⟨kv :: b, a, rfl, ha⟩
      · obtain ⟨k, h'⟩ := kv
        cases k with
        | status m =>
          simp only [addHandler, aget_aset] at hg
          split at hg
          · rename_i e
            injection hg with hg
            subst hg; subst e
            exact .inl ⟨[], regs, rfl, fun kv hkv e => hn ⟨kv.2, by rw [← e]; exact hkv⟩⟩
          · rename_i e
            refine .inr ⟨?_, hg⟩
            rintro ⟨h'', hm⟩
            rcases List.mem_cons.1 hm with hm | hm
            · injection hm with hm _
              injection hm with hm
              exact e hm
            · exact hn ⟨h'', hm⟩
        | cls c =>
          simp only [addHandler] at hg
          refine .inr ⟨?_, hg⟩
          rintro ⟨h'', hm⟩
          rcases List.mem_cons.1 hm with hm | hm
          · injection hm with hm _; cases hm
          · exact hn ⟨h'', hm⟩
    · rintro (⟨b, a, heq, ha⟩ | ⟨hn, hg⟩)
      · cases b with
        | nil =>
          simp only [List.nil_append, List.cons.injEq] at heq
          obtain ⟨rfl, rfl⟩ := heq
          refine .inr ⟨?_, ?_⟩
          · rintro ⟨h', hm⟩; exact ha _ hm rfl
          · simp [addHandler, aget_aset]
        | cons x b =>
          simp only [List.cons_append, List.cons.injEq] at heq
          obtain ⟨rfl, rfl⟩ := heq
          exact .inl ⟨b, a, rfl, ha⟩
      · refine .inr ⟨?_, ?_⟩
        · rintro ⟨h', hm⟩; exact hn ⟨h', List.mem_cons_of_mem _ hm⟩
        · obtain ⟨k, h'⟩ := kv
          cases k with
          | status m =>
            simp only [addHandler, aget_aset]
            split
            · rename_i e; subst e; exact absurd ⟨h', by simp⟩ hn
            · exact hg
          | cls c => exact hg

theorem aget_foldl_class (regs : List (Key × Handler)) (t : Tables) (n : Nat) (h : Handler) :
    aget (regs.foldl addHandler t).byClass n = some h ↔
      Registered regs (.cls n) h ∨ ((¬ Known regs (.cls n)) ∧ aget t.byClass n = some h) := by
  induction regs generalizing t with
  | nil => simp [Registered, Known]
  | cons kv regs ih =>
    simp only [List.foldl_cons]
    rw [ih]
    constructor
    · rintro (⟨b, a, rfl, ha⟩ | ⟨hn, hg⟩)
      · exact .inl ⟨kv :: b, a, rfl, ha⟩
      · obtain ⟨k, h'⟩ := kv
        cases k with
        | cls m =>
          simp only [addHandler, aget_aset] at hg
          split at hg
          · rename_i e
            injection hg with hg
            subst hg; subst e
            exact .inl ⟨[], regs, rfl, fun kv hkv e => hn ⟨kv.2, by rw [← e]; exact hkv⟩⟩
          · rename_i e
            refine .inr ⟨?_, hg⟩
            rintro ⟨h'', hm⟩
            rcases List.mem_cons.1 hm with hm | hm
            · injection hm with hm _
              injection hm with hm
              exact e hm
            · exact hn ⟨h'', hm⟩
        | status c =>
          simp only [addHandler] at hg
          refine .inr ⟨?_, hg⟩
          rintro ⟨h'', hm⟩
          rcases List.mem_cons.1 hm with hm | hm
          · injection hm with hm _; cases hm
          · exact hn ⟨h'', hm⟩
    · rintro (⟨b, a, heq, ha⟩ | ⟨hn, hg⟩)
      · cases b with
        | nil =>
          simp only [List.nil_append, List.cons.injEq] at heq
          obtain ⟨rfl, rfl⟩ := heq
          refine .inr ⟨?_, ?_⟩
          · rintro ⟨h', hm⟩; exact ha _ hm rfl
          · simp [addHandler, aget_aset]
        | cons x b =>
          simp only [List.cons_append, List.cons.injEq] at heq
          obtain ⟨rfl, rfl⟩ := heq
          exact .inl ⟨b, a, rfl, ha⟩
      · refine .inr ⟨?_, ?_⟩
        · rintro ⟨h', hm⟩; exact hn ⟨h', List.mem_cons_of_mem _ hm⟩
        · obtain ⟨k, h'⟩ := kv
          cases k with
          | cls m =>
            simp only [addHandler, aget_aset]
            split
            · rename_i e; subst e; exact absurd ⟨h', by simp⟩ hn
            · exact hg
          | status c => exact hg

theorem registered_known {regs : List (Key × Handler)} {k : Key} {h : Handler}
    (hr : Registered regs k h) : Known regs k := by
  obtain ⟨b, a, rfl, _⟩ := hr; exact ⟨h, by simp⟩

theorem known_registered {regs : List (Key × Handler)} {k : Key} (hk : Known regs k) :
    ∃ h, Registered regs k h := by
  induction regs with
  | nil => obtain ⟨h, hm⟩ := hk; cases hm
  | cons kv regs ih =>
    by_cases hr : Known regs k
    · obtain ⟨h, b, a, rfl, ha⟩ := ih hr
      exact ⟨h, kv :: b, a, rfl, ha⟩
    · obtain ⟨h, hm⟩ := hk
      rcases List.mem_cons.1 hm with hm | hm
      · subst hm
        exact ⟨h, [], regs, rfl, fun kv hkv e => hr ⟨kv.2, by rw [← e]; exact hkv⟩⟩
      · exact absurd ⟨h, hm⟩ hr

theorem build_eq (regs : List (Key × Handler)) :
    build regs = (builtin ++ regs).foldl addHandler ⟨[], []⟩ := by
  simp [build, builtin, addHandler, initial, aset, clsHTTP, clsWS]

theorem aget_build_status (regs : List (Key × Handler)) (n : Nat) (h : Handler) :
    aget (build regs).byStatus n = some h ↔ Registered (builtin ++ regs) (.status n) h := by
  rw [build_eq, aget_foldl_status]; simp [aget]

theorem aget_build_class (regs : List (Key × Handler)) (n : Nat) (h : Handler) :
    aget (build regs).byClass n = some h ↔ Registered (builtin ++ regs) (.cls n) h := by
  rw [build_eq, aget_foldl_class]; simp [aget]

theorem byMro_spec (regs : List (Key × Handler)) (h : Handler) (mro : List Nat) :
    byMro (build regs).byClass mro = some h ↔
      ∃ nearer c farther, mro = nearer ++ c :: farther ∧
        (∀ c' ∈ nearer, ¬ Known (builtin ++ regs) (.cls c')) ∧
        Registered (builtin ++ regs) (.cls c) h := by
  induction mro with
  | nil => simp [byMro]
  | cons c cs ih =>
    simp only [byMro]
    cases hg : aget (build regs).byClass c with
    | some h' =>
      have hr := (aget_build_class regs c h').1 hg
      simp only [Option.some.injEq]
      constructor
      · rintro rfl; exact ⟨[], c, cs, rfl, by simp, hr⟩
      · rintro ⟨nearer, c', farther, heq, hn, hr'⟩
        cases nearer with
        | nil =>
          simp only [List.nil_append, List.cons.injEq] at heq
          obtain ⟨rfl, _⟩ := heq
          have := (aget_build_class regs c h).2 hr'
          rw [hg] at this; injection this
        | cons x nearer =>
          simp only [List.cons_append, List.cons.injEq] at heq
          exact absurd (registered_known hr) (by rw [heq.1]; exact hn x (by simp))
    | none =>
      simp only
      rw [ih]
      constructor
      · rintro ⟨nearer, c', farther, rfl, hn, hr'⟩
        refine ⟨c :: nearer, c', farther, rfl, ?_, hr'⟩
        intro x hx
        rcases List.mem_cons.1 hx with rfl | hx
        · intro hk
          obtain ⟨h', hr⟩ := known_registered hk
          rw [(aget_build_class regs x h').2 hr] at hg; cases hg
        · exact hn x hx
      · rintro ⟨nearer, c', farther, heq, hn, hr'⟩
        cases nearer with
        | nil =>
          simp only [List.nil_append, List.cons.injEq] at heq
          obtain ⟨rfl, _⟩ := heq
          rw [(aget_build_class regs c h).2 hr'] at hg; cases hg
        | cons x nearer =>
          simp only [List.cons_append, List.cons.injEq] at heq
          exact ⟨nearer, c', farther, heq.2, fun y hy => hn y (by simp [hy]), hr'⟩

theorem statusOf_iff (e : Exc) (s : Nat) :
    StatusOf e s ↔ ∃ c, e.http = some c ∧ s = orDefault c := by
  unfold StatusOf orDefault
  constructor
  · rintro ⟨c, h, ⟨h1, h2⟩ | ⟨h1, h2⟩⟩ <;> exact ⟨c, h, by simp [h1, h2]⟩
  · rintro ⟨c, h, h2⟩
    refine ⟨c, h, ?_⟩
    split at h2
    · exact .inr ⟨‹_›, h2⟩
    · exact .inl ⟨‹_›, h2⟩

theorem aget_none_iff (d : List (Key × Handler)) (k : Key) : aget d k = none ↔ ¬ Known d k := by
  induction d with
  | nil => exact ⟨fun _ ⟨_, h⟩ => (by cases h), fun _ => rfl⟩
  | cons kv d ih =>
    obtain ⟨k', h'⟩ := kv
    rw [aget]
    split
    · rename_i e
      exact ⟨fun h => by (cases h), fun h => absurd ⟨h', e ▸ List.mem_cons_self⟩ h⟩
    · rename_i e
      rw [ih]
      refine ⟨fun hn ⟨h, hm⟩ => ?_, fun hn ⟨h, hm⟩ => hn ⟨h, List.mem_cons_of_mem _ hm⟩⟩
      rcases List.mem_cons.1 hm with hm | hm
      · injection hm with h1 _; exact e h1.symm
      · exact hn ⟨h, hm⟩

theorem aget_dict (d : List (Key × Handler)) (hd : IsDict d) (k : Key) (h : Handler) :
    aget d k = some h ↔ (k, h) ∈ d := by
  induction d with
  | nil => exact ⟨fun h => by (cases h), fun h => by (cases h)⟩
  | cons kv d ih =>
    obtain ⟨k', h'⟩ := kv
    have hd' : k' ∉ d.map Prod.fst ∧ IsDict d := List.nodup_cons.1 hd
    rw [aget]
    split
    · rename_i e
      subst e
      constructor
      · intro e; injection e with e; rw [e]; exact List.mem_cons_self
      · intro hm
        rcases List.mem_cons.1 hm with hm | hm
        · injection hm with _ h2; rw [h2]
        · exact absurd (List.mem_map.2 ⟨_, hm, rfl⟩) hd'.1
    · rename_i e
      rw [ih hd'.2]
      constructor
      · exact fun hm => List.mem_cons_of_mem _ hm
      · intro hm
        rcases List.mem_cons.1 hm with hm | hm
        · injection hm with h1 _; exact absurd h1.symm e
        · exact hm

theorem routeLookup_iff (d : List (Key × Handler)) (hd : IsDict d) (e : Exc) (h : Handler) :
    routeLookup d e = some h ↔ RouteChosen d e h := by
  obtain ⟨s, h1, h2⟩ : ∃ s, (routeLookup d e = match aget d (.status s) with
        | some h => some h
        | none => match e.mro with
          | c :: _ => aget d (.cls c)
          | [] => none) ∧
      (RouteChosen d e h ↔
        (.status s, h) ∈ d ∨ (¬ Known d (.status s) ∧ ∃ c bases, e.mro = c :: bases ∧ (.cls c, h) ∈ d)) :=
    ⟨_, rfl, Iff.rfl⟩
  rw [h1, h2]
  cases hg : aget d (.status s) with
  | some h' =>
    have hm := (aget_dict d hd _ _).1 hg
    dsimp only
    constructor
    · intro e; injection e with e; exact .inl (e ▸ hm)
    · rintro (h1 | ⟨h1, _⟩)
      · rw [← hg]; exact (aget_dict d hd _ _).2 h1
      · exact absurd ⟨h', hm⟩ h1
  | none =>
    have hn := (aget_none_iff _ _).1 hg
    dsimp only
    cases hm : e.mro with
    | nil =>
      constructor
      · intro h; cases h
      · rintro (h1 | ⟨_, c, bs, h1, _⟩)
        · exact absurd ⟨h, h1⟩ hn
        · cases h1
    | cons c cs =>
      dsimp only
      rw [aget_dict d hd]
      constructor
      · exact fun h1 => .inr ⟨hn, c, cs, rfl, h1⟩
      · rintro (h1 | ⟨_, c', bs, h1, h2⟩)
        · exact absurd ⟨h, h1⟩ hn
        · injection h1 with h1 _; rw [h1]; exact h2

theorem errorHandler_iff (regs : List (Key × Handler)) (hd : IsDict regs) (h : Handler) :
    errorHandler regs = some h ↔ LastResort regs h := by
  unfold errorHandler LastResort
  cases hg : aget regs (.status 500) with
  | some h' =>
    have hm := (aget_dict regs hd _ _).1 hg
    dsimp only
    constructor
    · intro e; injection e with e; exact .inl (e ▸ hm)
    · rintro (h1 | ⟨h1, _⟩)
      · rw [← hg]; exact (aget_dict regs hd _ _).2 h1
      · exact absurd ⟨h', hm⟩ h1
  | none =>
    have hn := (aget_none_iff _ _).1 hg
    dsimp only
    rw [aget_dict regs hd]
    constructor
    · exact fun h1 => .inr ⟨hn, h1⟩
    · rintro (h1 | ⟨_, h1⟩)
      · exact absurd ⟨h, h1⟩ hn
      · exact h1

end Verif.Exceptions
