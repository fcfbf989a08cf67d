import Verif.Directives.Spec

/-!
# Lemmas for C110
-/

namespace Verif.Directives

open Verif Verif.Directives.Spec

theorem char_eq {a b : Char} (h1 : ¬ a.toNat < b.toNat) (h2 : ¬ b.toNat < a.toNat) : a = b :=
  Char.toNat_inj.1 (by omega)

theorem before_cons (c : Char) {s t : Str} (h : Before s t) : Before (c :: s) (c :: t) := by
  cases h with
  | «prefix» _ u => exact Before.prefix (c :: s) u
  | differ a x y u v hlt => exact Before.differ (c :: a) x y u v hlt

theorem leStr_before (a b : Str) (h : leStr a b = true) : Before a b := by
  induction a generalizing b with
  | nil => exact Before.prefix [] b
  | cons c s ih =>
    cases b with
    | nil => simp [leStr] at h
    | cons d t =>
      unfold leStr at h
      by_cases h1 : c.toNat < d.toNat
      · exact Before.differ [] c d s t h1
      · rw [if_neg h1] at h
        by_cases h2 : d.toNat < c.toNat
        · rw [if_pos h2] at h; cases h
        · rw [if_neg h2] at h
          rw [← char_eq h1 h2]
          exact before_cons c (ih t h)

theorem leStr_refl (a : Str) : leStr a a = true := by
  induction a with
  | nil => rfl
  | cons c s ih => unfold leStr; rw [if_neg (by omega), if_neg (by omega)]; exact ih

theorem leStr_total (a b : Str) (h : ¬ leStr a b = true) : leStr b a = true := by
  induction a generalizing b with
  | nil => exact absurd rfl h
  | cons c s ih =>
    cases b with
    | nil => rfl
    | cons d t =>
      unfold leStr at h ⊢
      by_cases h1 : c.toNat < d.toNat
      · rw [if_pos h1] at h; exact absurd rfl h
      · rw [if_neg h1] at h
        by_cases h2 : d.toNat < c.toNat
        · rw [if_pos h2]
        · rw [if_neg h2] at h ⊢
          rw [if_neg h1]
          exact ih t h

theorem leStr_trans (a b c : Str) (h1 : leStr a b = true) (h2 : leStr b c = true) : leStr a c = true := by
  induction a generalizing b c with
  | nil => rfl
  | cons x s ih =>
    cases b with
    | nil => simp [leStr] at h1
    | cons y t =>
      cases c with
      | nil => simp [leStr] at h2
      | cons z u =>
        unfold leStr at h1 h2 ⊢
        by_cases hxy : x.toNat < y.toNat
        · by_cases hyz : y.toNat < z.toNat
          · rw [if_pos (by omega)]
          · rw [if_neg hyz] at h2
            by_cases hzy : z.toNat < y.toNat
            · rw [if_pos hzy] at h2; cases h2
            · rw [if_pos (by omega)]
        · rw [if_neg hxy] at h1
          by_cases hyx : y.toNat < x.toNat
          · rw [if_pos hyx] at h1; cases h1
          · rw [if_neg hyx] at h1
            by_cases hyz : y.toNat < z.toNat
            · rw [if_pos (by omega)]
            · rw [if_neg hyz] at h2
              by_cases hzy : z.toNat < y.toNat
              · rw [if_pos hzy] at h2; cases h2
              · rw [if_neg hzy] at h2
                rw [if_neg (by omega), if_neg (by omega)]
                exact ih t u h1 h2

theorem mem_insert (e x : Entry) (l : List Entry) : x ∈ insertEntry e l ↔ x = e ∨ x ∈ l := by
  induction l with
  | nil => simp [insertEntry]
  | cons y rest ih =>
    unfold insertEntry
    by_cases h : leStr e.location y.location = true
    · rw [if_pos h]; simp
    · rw [if_neg h, List.mem_cons, ih, List.mem_cons]
      constructor
      · rintro (h | h | h) <;> simp [h]
      · rintro (h | h | h) <;> simp [h]

theorem mem_sort (x : Entry) (l : List Entry) : x ∈ sortEntries l ↔ x ∈ l := by
  induction l with
  | nil => simp [sortEntries]
  | cons e rest ih => rw [sortEntries, mem_insert, ih, List.mem_cons]

/-- Sorted by location. -/
def Sorted : List Entry → Prop
  | [] => True
  | e :: rest => (∀ x ∈ rest, leStr e.location x.location = true) ∧ Sorted rest

theorem sorted_insert (e : Entry) (l : List Entry) (h : Sorted l) : Sorted (insertEntry e l) := by
  induction l with
  | nil => exact ⟨nofun, trivial⟩
  | cons y rest ih =>
    unfold insertEntry
    by_cases hle : leStr e.location y.location = true
    · rw [if_pos hle]
      refine ⟨?_, h⟩
      intro x hx
      rcases List.mem_cons.1 hx with rfl | hx
      · exact hle
      · exact leStr_trans _ _ _ hle (h.1 x hx)
    · rw [if_neg hle]
      refine ⟨?_, ih h.2⟩
      intro x hx
      rcases (mem_insert e x rest).1 hx with rfl | hx
      · exact leStr_total _ _ hle
      · exact h.1 x hx

theorem sorted_sort (l : List Entry) : Sorted (sortEntries l) := by
  induction l with
  | nil => trivial
  | cons e rest ih => exact sorted_insert e _ ih

theorem lastMatch_none (name : Str) (l : List Entry) (f : Option Entry)
    (h : ∀ e ∈ l, name ∉ e.keys) : lastMatch name f l = f := by
  induction l generalizing f with
  | nil => rfl
  | cons e rest ih =>
    unfold lastMatch
    rw [if_neg (by simpa using h e (by simp))]
    exact ih f fun x hx => h x (by simp [hx])

/-- The last match of a sorted list is one of the greatest. -/
theorem lastMatch_some (name : Str) (l : List Entry) (f : Option Entry) (hs : Sorted l) (r : Entry)
    (h : lastMatch name f l = some r) :
    (f = some r ∧ ∀ e ∈ l, name ∉ e.keys) ∨
    (r ∈ l ∧ name ∈ r.keys ∧ ∀ e ∈ l, name ∈ e.keys → leStr e.location r.location = true) := by
  induction l generalizing f with
  | nil => exact .inl ⟨h, nofun⟩
  | cons e rest ih =>
    unfold lastMatch at h
    rcases ih _ hs.2 h with ⟨hf, hn⟩ | ⟨hr, hk, hm⟩
    · by_cases hk : e.keys.contains name = true
      · rw [if_pos hk] at hf
        injection hf with hf
        subst hf
        refine .inr ⟨List.mem_cons_self, by simpa using hk, ?_⟩
        intro x hx hxk
        rcases List.mem_cons.1 hx with rfl | hx
        · exact leStr_refl _
        · exact absurd hxk (hn x hx)
      · rw [if_neg hk] at hf
        refine .inl ⟨hf, ?_⟩
        intro x hx
        rcases List.mem_cons.1 hx with rfl | hx
        · simpa using hk
        · exact hn x hx
    · refine .inr ⟨List.mem_cons_of_mem _ hr, hk, ?_⟩
      intro x hx hxk
      rcases List.mem_cons.1 hx with rfl | hx
      · exact hs.1 r hr
      · exact hm x hx hxk

theorem lastMatch_isSome (name : Str) (l : List Entry) (f : Option Entry) (hf : f.isSome = true) :
    (lastMatch name f l).isSome = true := by
  induction l generalizing f with
  | nil => exact hf
  | cons e rest ih =>
    unfold lastMatch
    by_cases hk : e.keys.contains name = true
    · rw [if_pos hk]; exact ih _ rfl
    · rw [if_neg hk]; exact ih _ hf

theorem lastMatch_exists (name : Str) (l : List Entry) (f : Option Entry) (e : Entry) (he : e ∈ l)
    (hk : name ∈ e.keys) : (lastMatch name f l).isSome = true := by
  induction l generalizing f with
  | nil => cases he
  | cons x rest ih =>
    unfold lastMatch
    rcases List.mem_cons.1 he with rfl | he
    · rw [if_pos (by simpa using hk)]
      exact lastMatch_isSome name rest _ rfl
    · exact ih _ he

theorem keys_iff (e : Entry) (n : Str) (h : ¬ Reserved n) : n ∈ e.keys ↔ e.name = n := by
  unfold Entry.keys
  unfold Reserved at h
  constructor
  · intro hm
    rcases List.mem_cons.1 hm with hm | hm
    · exact hm.symm
    · exact absurd (by simpa using hm) h
  · rintro rfl
    exact List.mem_cons_self

theorem mem_find (roots : List Root) (e : Entry) : e ∈ findDirectives roots ↔ Is roots e := by
  unfold Is
  induction roots with
  | nil => simp [findDirectives]
  | cons r rest ih =>
    unfold findDirectives
    have hh : ∀ n : Str, hidden n = false ↔ ∀ t, n ≠ '_' :: t := by
      intro n
      cases n with
      | nil => simp [hidden]
      | cons c s =>
        by_cases hc : c = '_'
        · subst hc; simp [hidden]
        · unfold hidden
          constructor
          · intro _ t ht
            injection ht with h1 _
            exact hc h1
          · intro _
            split
            · rename_i heq
              injection heq with h1 _
              exact absurd h1 hc
            · rfl
    have hmap : e ∈ ((r.modules.filter fun m => !m.2 && !hidden m.1).map fun m =>
          (⟨m.1, r.path ++ "/operations".toList⟩ : Entry)) ↔
        e.location = r.path ++ "/operations".toList ∧ (e.name, false) ∈ r.modules ∧ ∀ t, e.name ≠ '_' :: t := by
      rw [List.mem_map]
      constructor
      · rintro ⟨⟨n, p⟩, hm, rfl⟩
        obtain ⟨hm, hp⟩ := List.mem_filter.1 hm
        simp only [Bool.and_eq_true, Bool.not_eq_true'] at hp
        obtain ⟨rfl, hp⟩ := hp
        exact ⟨rfl, hm, (hh n).1 hp⟩
      · rintro ⟨hl, hm, hn⟩
        refine ⟨(e.name, false), List.mem_filter.2 ⟨hm, ?_⟩, ?_⟩
        · simp [(hh e.name).2 hn]
        · cases e; simp_all
    by_cases h : r.folders.contains "operations".toList = true
    · rw [if_pos h, List.mem_append, hmap, ih]
      constructor
      · rintro (h1 | ⟨x, hx, h1⟩)
        · exact ⟨r, by simp, by simpa using h, h1⟩
        · exact ⟨x, by simp [hx], h1⟩
      · rintro ⟨x, hx, h1⟩
        rcases List.mem_cons.1 hx with rfl | hx
        · exact .inl h1.2
        · exact .inr ⟨x, hx, h1⟩
    · rw [if_neg h, ih]
      constructor
      · rintro ⟨x, hx, h1⟩
        exact ⟨x, by simp [hx], h1⟩
      · rintro ⟨x, hx, h1⟩
        rcases List.mem_cons.1 hx with rfl | hx
        · exact absurd (by simpa using h1.1) h
        · exact ⟨x, hx, h1⟩

/-- One step of `toCli`. -/
theorem toCli_cons (load : Str → File) (acc : List (Str × Obj)) (e : Entry) (rest : List Entry)
    (h : load (fileOf e.location e.name) ≠ .typeError) :
    (∃ o, Shows load e o ∧ toCli load acc (e :: rest) = toCli load (aset acc e.name o) rest) ∨
    ((∀ o, ¬ Shows load e o) ∧ toCli load acc (e :: rest) = toCli load acc rest) := by
  rw [toCli]
  cases hl : load (fileOf e.location e.name) with
  | typeError => exact absurd hl h
  | missing => exact .inr ⟨fun o ⟨d, cs, i, h1, _⟩ => (nomatch hl.symm.trans h1), rfl⟩
  | fails => exact .inr ⟨fun o ⟨d, cs, i, h1, _⟩ => (nomatch hl.symm.trans h1), rfl⟩
  | content d cs =>
    dsimp only
    have key : ∀ o, Shows load e o → exported d cs = some o ∧ ∃ i, o = .command i true := by
      rintro o ⟨d', cs', i, h1, h2, rfl⟩
      have := hl.symm.trans h1
      injection this with h3 h4
      subst h3 h4
      exact ⟨h2, i, rfl⟩
    cases hx : exported d cs with
    | none => exact .inr ⟨fun o ho => (nomatch hx.symm.trans (key o ho).1), rfl⟩
    | some x =>
      cases x with
      | base i =>
        refine .inr ⟨fun o ho => ?_, rfl⟩
        obtain ⟨h1, i, rfl⟩ := key o ho
        exact nomatch hx.symm.trans h1
      | other i =>
        refine .inr ⟨fun o ho => ?_, rfl⟩
        obtain ⟨h1, i, rfl⟩ := key o ho
        exact nomatch hx.symm.trans h1
      | command i b =>
        cases b with
        | true => exact .inl ⟨.command i true, ⟨d, cs, i, hl, hx, rfl⟩, rfl⟩
        | false =>
          refine .inr ⟨fun o ho => ?_, rfl⟩
          obtain ⟨h1, i, rfl⟩ := key o ho
          exact nomatch hx.symm.trans h1

/-- The dictionary of the command line: under a name, what the last file of this name shows. -/
theorem toCli_get (load : Str → File) (ds : List Entry) (acc : List (Str × Obj))
    (h : ∀ e ∈ ds, load (fileOf e.location e.name) ≠ .typeError) (n : Str) :
    ∃ d, toCli load acc ds = some d ∧ ∀ o, (aget d n = some o ↔
      (∃ pre e post, ds = pre ++ e :: post ∧ e.name = n ∧ Shows load e o ∧
        ∀ x ∈ post, x.name = n → ∀ y, ¬ Shows load x y) ∨
      (aget acc n = some o ∧ ∀ x ∈ ds, x.name = n → ∀ y, ¬ Shows load x y)) := by
  induction ds generalizing acc with
  | nil =>
    refine ⟨acc, rfl, fun o => ⟨fun h => .inr ⟨h, nofun⟩, ?_⟩⟩
    rintro (⟨pre, e, post, h, _⟩ | h)
    · simp at h
    · exact h.1
  | cons e rest ih =>
    have hr := fun x hx => h x (List.mem_cons_of_mem _ hx)
    rcases toCli_cons load acc e rest (h e (by simp)) with ⟨o, ho, he⟩ | ⟨hn, he⟩
    · obtain ⟨d, hd, hg⟩ := ih (aset acc e.name o) hr
      refine ⟨d, he.trans hd, fun y => (hg y).trans ⟨?_, ?_⟩⟩
      · rintro (⟨pre, x, post, rfl, h2⟩ | ⟨h1, h2⟩)
        · exact .inl ⟨e :: pre, x, post, rfl, h2⟩
        · by_cases hen : e.name = n
          · rw [← hen, aget_aset, if_pos rfl] at h1
            injection h1 with h1
            subst h1
            exact .inl ⟨[], e, rest, rfl, hen, ho, h2⟩
          · rw [aget_aset, if_neg (fun hh => hen hh.symm)] at h1
            refine .inr ⟨h1, ?_⟩
            intro x hx
            rcases List.mem_cons.1 hx with rfl | hx
            · exact fun hh => absurd hh hen
            · exact h2 x hx
      · rintro (⟨pre, x, post, h1, h2, h3, h4⟩ | ⟨h1, h2⟩)
        · cases pre with
          | nil =>
            injection h1 with h5 h6
            subst h5 h6
            refine .inr ⟨?_, h4⟩
            rw [← h2, aget_aset, if_pos rfl]
            obtain ⟨d1, c1, i1, q1, q2, q3⟩ := ho
            obtain ⟨d2, c2, i2, r1, r2, r3⟩ := h3
            have := q1.symm.trans r1
            injection this with s1 s2
            subst s1 s2
            have := q2.symm.trans r2
            rw [q3, r3, ← Option.some.inj this]
          | cons z pre =>
            injection h1 with h5 h6
            exact .inl ⟨pre, x, post, h6, h2, h3, h4⟩
        · have hen : e.name ≠ n := fun hh => h2 e (by simp) hh o ho
          refine .inr ⟨?_, fun x hx => h2 x (List.mem_cons_of_mem _ hx)⟩
          rw [aget_aset, if_neg (fun hh => hen hh.symm)]
          exact h1
    · obtain ⟨d, hd, hg⟩ := ih acc hr
      refine ⟨d, he.trans hd, fun y => (hg y).trans ⟨?_, ?_⟩⟩
      · rintro (⟨pre, x, post, rfl, h2⟩ | ⟨h1, h2⟩)
        · exact .inl ⟨e :: pre, x, post, rfl, h2⟩
        · refine .inr ⟨h1, ?_⟩
          intro x hx
          rcases List.mem_cons.1 hx with rfl | hx
          · exact fun _ y => hn y
          · exact h2 x hx
      · rintro (⟨pre, x, post, h1, h2, h3, h4⟩ | ⟨h1, h2⟩)
        · cases pre with
          | nil =>
            injection h1 with h5 h6
            subst h5
            exact absurd h3 (hn y)
          | cons z pre =>
            injection h1 with h5 h6
            exact .inl ⟨pre, x, post, h6, h2, h3, h4⟩
        · exact .inr ⟨h1, fun x hx => h2 x (List.mem_cons_of_mem _ hx)⟩

end Verif.Directives
