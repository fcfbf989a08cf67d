import Verif.Scaffold.Spec

/-!
# Lemmas for C113
-/

namespace Verif.Scaffold

open Verif Verif.Scaffold.Spec

theorem kept_refl (fs : Fs) : Kept fs fs := ⟨fun _ _ h => h, fun _ h => h⟩

theorem kept_trans (a b c : Fs) (h1 : Kept a b) (h2 : Kept b c) : Kept a c :=
  ⟨fun p t h => h2.1 p t (h1.1 p t h), fun p h => h2.2 p (h1.2 p h)⟩

theorem kept_write (fs : Fs) (p : Path) (t : Str) (h : fs.exists p = false) : Kept fs (fs.write p t) := by
  refine ⟨fun q u hq => ?_, fun _ h => h⟩
  show aget (aset fs.files p t) q = some u
  rw [aget_aset]
  by_cases hqp : q = p
  · subst hqp
    unfold Fs.exists at h
    rw [hq] at h
    simp at h
  · rw [if_neg hqp]
    exact hq

theorem kept_mkdirs (fs fs' : Fs) (p : Path) (h : fs.mkdirs p = some fs') : Kept fs fs' ∧ fs'.files = fs.files := by
  unfold Fs.mkdirs at h
  split at h
  · cases h
  · injection h with h
    subst h
    exact ⟨⟨fun _ _ h => h, fun _ h => List.mem_append_left _ h⟩, rfl⟩

/-- What one file does. -/
theorem makeFile_cases (x : Ctx) (dir : Path) (fs : Fs) (f : Str × Str) :
    (compiled f.1 = true ∧ makeFile x dir fs f = (fs, .done)) ∨
    (compiled f.1 = false ∧ fs.exists (resolve dir [fileName x f.1]) = true ∧ makeFile x dir fs f = (fs, .refused)) ∨
    (compiled f.1 = false ∧ fs.exists (resolve dir [fileName x f.1]) = false ∧ ∃ t,
      makeFile x dir fs f = (fs.write (resolve dir [fileName x f.1]) t, .done) ∧
      (replaceFrom x.base x.name 0 f.1 = f.1 → t = x.render f.2)) := by
  unfold makeFile
  cases hc : compiled f.1 with
  | true => left; exact ⟨rfl, by rw [if_pos rfl]⟩
  | false =>
    right
    rw [if_neg (by simp)]
    cases he : fs.exists (resolve dir [fileName x f.1]) with
    | true => left; exact ⟨rfl, rfl, by rw [if_pos rfl]⟩
    | false =>
      right
      refine ⟨rfl, rfl, ?_⟩
      rw [if_neg (by simp)]
      cases hg : aget (fs.write (resolve dir [fileName x f.1]) f.2).files (resolve dir [rewrite f.1]) with
      | none =>
        refine ⟨f.2, rfl, fun h => ?_⟩
        have : fileName x f.1 = rewrite f.1 := by unfold fileName; rw [h]
        rw [← this] at hg
        have h2 : aget (fs.write (resolve dir [fileName x f.1]) f.2).files (resolve dir [fileName x f.1]) = some f.2 :=
          aget_aset_self _ _ _
        rw [h2] at hg
        cases hg
      | some t =>
        refine ⟨x.render t, rfl, fun h => ?_⟩
        have : fileName x f.1 = rewrite f.1 := by unfold fileName; rw [h]
        rw [← this] at hg
        have h2 : aget (fs.write (resolve dir [fileName x f.1]) f.2).files (resolve dir [fileName x f.1]) = some f.2 :=
          aget_aset_self _ _ _
        rw [h2] at hg
        injection hg with hg
        rw [hg]

theorem makeFile_kept (x : Ctx) (dir : Path) (fs : Fs) (f : Str × Str) : Kept fs (makeFile x dir fs f).1 := by
  rcases makeFile_cases x dir fs f with ⟨_, h⟩ | ⟨_, _, h⟩ | ⟨_, he, t, h, _⟩
  · rw [h]; exact kept_refl fs
  · rw [h]; exact kept_refl fs
  · rw [h]; exact kept_write fs _ t he

theorem makeFile_new (x : Ctx) (dir : Path) (fs : Fs) (f : Str × Str) (p : Path) (text : Str)
    (h : aget (makeFile x dir fs f).1.files p = some text) (hn : aget fs.files p = none) :
    compiled f.1 = false ∧ p = resolve dir [fileName x f.1] := by
  rcases makeFile_cases x dir fs f with ⟨_, h'⟩ | ⟨_, _, h'⟩ | ⟨hc, he, t, h', _⟩
  · rw [h', hn] at h; cases h
  · rw [h', hn] at h; cases h
  · refine ⟨hc, ?_⟩
    rw [h'] at h
    replace h : aget (aset fs.files (resolve dir [fileName x f.1]) t) p = some text := h
    rw [aget_aset] at h
    by_cases hp : p = resolve dir [fileName x f.1]
    · exact hp
    · rw [if_neg hp, hn] at h; cases h

theorem makeFiles_cons (x : Ctx) (dir : Path) (fs : Fs) (f : Str × Str) (rest : List (Str × Str)) :
    makeFiles x dir fs (f :: rest) =
      if (makeFile x dir fs f).2 = .done then makeFiles x dir (makeFile x dir fs f).1 rest
      else makeFile x dir fs f := by
  rw [makeFiles]
  rcases h : makeFile x dir fs f with ⟨fs', r⟩
  cases r <;> simp

theorem makeFiles_kept (x : Ctx) (dir : Path) (files : List (Str × Str)) (fs : Fs) :
    Kept fs (makeFiles x dir fs files).1 := by
  induction files generalizing fs with
  | nil => exact kept_refl fs
  | cons f rest ih =>
    rw [makeFiles_cons]
    split
    · exact kept_trans _ _ _ (makeFile_kept x dir fs f) (ih _)
    · exact makeFile_kept x dir fs f

theorem makeFiles_new (x : Ctx) (dir : Path) (files : List (Str × Str)) (fs : Fs) (p : Path) (text : Str)
    (h : aget (makeFiles x dir fs files).1.files p = some text) (hn : aget fs.files p = none) :
    ∃ f ∈ files, compiled f.1 = false ∧ p = resolve dir [fileName x f.1] := by
  induction files generalizing fs with
  | nil => rw [makeFiles, hn] at h; cases h
  | cons f rest ih =>
    rw [makeFiles_cons] at h
    by_cases hd : (makeFile x dir fs f).2 = .done
    · rw [if_pos hd] at h
      cases hm : aget (makeFile x dir fs f).1.files p with
      | none =>
        obtain ⟨g, hg, h'⟩ := ih _ h hm
        exact ⟨g, by simp [hg], h'⟩
      | some t => exact ⟨f, by simp, makeFile_new x dir fs f p t hm hn⟩
    · rw [if_neg hd] at h
      exact ⟨f, by simp, makeFile_new x dir fs f p text h hn⟩

theorem makeFiles_done (x : Ctx) (dir : Path) (files : List (Str × Str)) (fs : Fs)
    (h : (makeFiles x dir fs files).2 = .done) (f : Str × Str) (hf : f ∈ files) (hc : compiled f.1 = false) :
    ∃ t, aget (makeFiles x dir fs files).1.files (resolve dir [fileName x f.1]) = some t ∧
      (replaceFrom x.base x.name 0 f.1 = f.1 → t = x.render f.2) := by
  induction files generalizing fs with
  | nil => cases hf
  | cons g rest ih =>
    rw [makeFiles_cons] at h ⊢
    by_cases hd : (makeFile x dir fs g).2 = .done
    · rw [if_pos hd] at h ⊢
      rcases List.mem_cons.1 hf with rfl | hf
      · rcases makeFile_cases x dir fs f with ⟨h1, _⟩ | ⟨_, _, h1⟩ | ⟨_, _, t, h1, h2⟩
        · rw [h1] at hc; cases hc
        · rw [h1] at hd; cases hd
        · refine ⟨t, (makeFiles_kept x dir rest _).1 _ _ ?_, h2⟩
          rw [h1]
          exact aget_aset_self _ _ _
      · exact ih _ h hf
    · rw [if_neg hd] at h
      exact absurd h hd

theorem makeDirs_cons (x : Ctx) (b : Bool) (top : Path) (fs : Fs) (d : Path × List (Str × Str))
    (rest : List (Path × List (Str × Str))) :
    makeDirs x b top fs (d :: rest) =
      if (makeDir x b top fs d).2 = .done then makeDirs x b top (makeDir x b top fs d).1 rest
      else makeDir x b top fs d := by
  rw [makeDirs]
  rcases h : makeDir x b top fs d with ⟨fs', r⟩
  cases r <;> simp

theorem makeDir_kept (x : Ctx) (b : Bool) (top : Path) (fs : Fs) (d : Path × List (Str × Str)) :
    Kept fs (makeDir x b top fs d).1 := by
  unfold makeDir
  cases h : fs.mkdirs (target top (relative x b d.1)) with
  | none => exact kept_refl fs
  | some fs' => exact kept_trans _ _ _ (kept_mkdirs _ _ _ h).1 (makeFiles_kept _ _ _ _)

theorem makeDirs_kept (x : Ctx) (b : Bool) (top : Path) (ds : List (Path × List (Str × Str))) (fs : Fs) :
    Kept fs (makeDirs x b top fs ds).1 := by
  induction ds generalizing fs with
  | nil => exact kept_refl fs
  | cons d rest ih =>
    rw [makeDirs_cons]
    split
    · exact kept_trans _ _ _ (makeDir_kept x b top fs d) (ih _)
    · exact makeDir_kept x b top fs d

theorem makeDir_new (x : Ctx) (b : Bool) (top : Path) (fs : Fs) (d : Path × List (Str × Str)) (p : Path) (text : Str)
    (h : aget (makeDir x b top fs d).1.files p = some text) (hn : aget fs.files p = none) :
    ∃ f ∈ d.2, compiled f.1 = false ∧ p = resolve (target top (relative x b d.1)) [fileName x f.1] := by
  unfold makeDir at h
  cases hm : fs.mkdirs (target top (relative x b d.1)) with
  | none => rw [hm, hn] at h; cases h
  | some fs' =>
    rw [hm] at h
    exact makeFiles_new x _ d.2 fs' p text h (by rw [(kept_mkdirs _ _ _ hm).2]; exact hn)

theorem makeDirs_new (x : Ctx) (b : Bool) (top : Path) (ds : List (Path × List (Str × Str))) (fs : Fs) (p : Path)
    (text : Str) (h : aget (makeDirs x b top fs ds).1.files p = some text) (hn : aget fs.files p = none) :
    ∃ d ∈ ds, ∃ f ∈ d.2, compiled f.1 = false ∧ p = resolve (target top (relative x b d.1)) [fileName x f.1] := by
  induction ds generalizing fs with
  | nil => rw [makeDirs, hn] at h; cases h
  | cons d rest ih =>
    rw [makeDirs_cons] at h
    by_cases hd : (makeDir x b top fs d).2 = .done
    · rw [if_pos hd] at h
      cases hm : aget (makeDir x b top fs d).1.files p with
      | none =>
        obtain ⟨g, hg, h'⟩ := ih _ h hm
        exact ⟨g, by simp [hg], h'⟩
      | some t => exact ⟨d, by simp, makeDir_new x b top fs d p t hm hn⟩
    · rw [if_neg hd] at h
      exact ⟨d, by simp, makeDir_new x b top fs d p text h hn⟩

theorem makeDirs_done (x : Ctx) (b : Bool) (top : Path) (ds : List (Path × List (Str × Str))) (fs : Fs)
    (h : (makeDirs x b top fs ds).2 = .done) (d : Path × List (Str × Str)) (hd : d ∈ ds) (f : Str × Str)
    (hf : f ∈ d.2) (hc : compiled f.1 = false) :
    ∃ t, aget (makeDirs x b top fs ds).1.files (resolve (target top (relative x b d.1)) [fileName x f.1]) = some t ∧
      (replaceFrom x.base x.name 0 f.1 = f.1 → t = x.render f.2) := by
  induction ds generalizing fs with
  | nil => cases hd
  | cons e rest ih =>
    rw [makeDirs_cons] at h ⊢
    by_cases hdone : (makeDir x b top fs e).2 = .done
    · rw [if_pos hdone] at h ⊢
      rcases List.mem_cons.1 hd with rfl | hd
      · unfold makeDir at hdone
        cases hm : fs.mkdirs (target top (relative x b d.1)) with
        | none => rw [hm] at hdone; cases hdone
        | some fs' =>
          rw [hm] at hdone
          obtain ⟨t, ht, h2⟩ := makeFiles_done x _ d.2 fs' hdone f hf hc
          refine ⟨t, (makeDirs_kept x b top rest _).1 _ _ ?_, h2⟩
          unfold makeDir
          rw [hm]
          exact ht
      · exact ih _ h hd
    · rw [if_neg hdone] at h
      exact absurd h hdone

/-! ### Walking -/

mutual

theorem walk_has (at' : Path) : ∀ (t : Tree) (d : Path × List (Str × Str)), d ∈ walk at' t →
    ∃ p, d.1 = at' ++ p ∧ Directory t p ∧ ∀ f ∈ d.2, Has t p f.1 f.2
  | .node n files subs, d, h => by
    rw [walk] at h
    rcases List.mem_cons.1 h with rfl | h
    · exact ⟨[], by simp, Directory.here _, fun f hf => Has.here n files subs f.1 f.2 hf⟩
    · obtain ⟨t, ht, hh, p, hp, hdir, hf⟩ := walkAll_has at' subs d h
      exact ⟨t.name :: p, hp, Directory.sub n files subs t p ht hh hdir,
        fun f hfm => Has.sub n files subs t p f.1 f.2 ht hh (hf f hfm)⟩

theorem walkAll_has (at' : Path) : ∀ (ts : List Tree) (d : Path × List (Str × Str)), d ∈ walkAll at' ts →
    ∃ t ∈ ts, hidden t.name = false ∧ ∃ p, d.1 = at' ++ t.name :: p ∧ Directory t p ∧ ∀ f ∈ d.2, Has t p f.1 f.2
  | [], d, h => by rw [walkAll] at h; cases h
  | t :: rest, d, h => by
    rw [walkAll] at h
    rcases List.mem_append.1 h with h | h
    · by_cases hh : hidden t.name = true
      · rw [if_pos hh] at h; cases h
      · rw [if_neg hh] at h
        obtain ⟨p, hp, hdir, hf⟩ := walk_has (at' ++ [t.name]) t d h
        exact ⟨t, by simp, by simpa using hh, p, by rw [hp]; simp, hdir, hf⟩
    · obtain ⟨u, hu, h'⟩ := walkAll_has at' rest d h
      exact ⟨u, by simp [hu], h'⟩

end

theorem walkAll_mem (at' : Path) (ts : List Tree) (t : Tree) (ht : t ∈ ts) (hh : hidden t.name = false)
    (d : Path × List (Str × Str)) (hd : d ∈ walk (at' ++ [t.name]) t) : d ∈ walkAll at' ts := by
  induction ts with
  | nil => cases ht
  | cons u rest ih =>
    rw [walkAll]
    rcases List.mem_cons.1 ht with rfl | ht
    · rw [hh]
      exact List.mem_append_left _ hd
    · exact List.mem_append_right _ (ih ht)

theorem has_walk (t : Tree) (p : Path) (f text : Str) (h : Has t p f text) (at' : Path) :
    ∃ d ∈ walk at' t, d.1 = at' ++ p ∧ (f, text) ∈ d.2 := by
  induction h generalizing at' with
  | here n files subs f text h => exact ⟨(at', files), by rw [walk]; simp, by simp, h⟩
  | sub n files subs t p f text h hh ht ih =>
    obtain ⟨d, hd, h1, h2⟩ := ih (at' ++ [t.name])
    refine ⟨d, ?_, by rw [h1]; simp, h2⟩
    rw [walk]
    exact List.mem_cons_of_mem _ (walkAll_mem at' subs t h hh d hd)

/-! ### Paths -/

theorem resolve_plain (names : Path) (h : ∀ n ∈ names, Plain n) (done : Path) : resolve done names = done ++ names := by
  induction names generalizing done with
  | nil => simp [resolve]
  | cons n rest ih =>
    obtain ⟨_, h1, h2, h3⟩ := h n (by simp)
    rw [resolve, if_neg (by simp [h1, h2]), if_neg h3, ih fun m hm => h m (by simp [hm])]
    simp

theorem target_plain (top names : Path) (h : ∀ n ∈ names, Plain n) :
    target top (joinWith ['/'] names) = top ++ names := by
  unfold target
  cases names with
  | nil =>
    rw [if_neg (by decide)]
    show resolve top [[]] = top ++ []
    rw [resolve, if_pos (Or.inl rfl), resolve, List.append_nil]
  | cons n rest =>
    have hn := h n (by simp)
    have hslash : startsWith (joinWith ['/'] (n :: rest)) ['/'] = false := by
      cases n with
      | nil => exact absurd rfl hn.2.1
      | cons c n =>
        have hc : c ≠ '/' := fun e => hn.1 (by simp [e])
        have : ∃ s, joinWith ['/'] ((c :: n) :: rest) = c :: s := by
          cases rest with
          | nil => exact ⟨n, rfl⟩
          | cons q r => exact ⟨n ++ ['/'] ++ joinWith ['/'] (q :: r), rfl⟩
        obtain ⟨s, hs⟩ := this
        rw [hs]
        simp [startsWith, List.isPrefixOf, Ne.symm hc]
    rw [if_neg (by rw [hslash]; simp), splitOn_joinWith '/' (n :: rest) (by simp) fun m hm => (h m hm).1]
    exact resolve_plain _ h top

/-- Where a file goes. -/
theorem goes (x : Ctx) (top p : Path) (f : Str) (hp : ∀ n ∈ p, Plain (renderName x n)) (hf : Plain (fileName x f)) :
    resolve (target top (relative x false p)) [fileName x f] = place x top p f := by
  unfold relative
  rw [if_neg (by simp), target_plain top (p.map (renderName x)) (by
    intro n hn
    obtain ⟨m, hm, rfl⟩ := List.mem_map.1 hn
    exact hp m hm)]
  rw [resolve_plain _ (by simpa using hf)]
  rfl

/-! ### Replacing -/

theorem replaceFrom_mem (old new : Str) (s : Str) (k : Nat) (c : Char) (h : c ∈ replaceFrom old new k s) :
    c ∈ s ∨ c ∈ new := by
  induction s generalizing k with
  | nil => cases k <;> (rw [replaceFrom] at h; cases h)
  | cons a rest ih =>
    cases k with
    | succ k =>
      rw [replaceFrom] at h
      rcases ih k h with h | h
      · exact Or.inl (List.mem_cons_of_mem _ h)
      · exact Or.inr h
    | zero =>
      rw [replaceFrom] at h
      split at h
      · rcases List.mem_append.1 h with h | h
        · exact Or.inr h
        · rcases ih _ h with h | h
          · exact Or.inl (List.mem_cons_of_mem _ h)
          · exact Or.inr h
      · rcases List.mem_cons.1 h with rfl | h
        · exact Or.inl (by simp)
        · rcases ih _ h with h | h
          · exact Or.inl (List.mem_cons_of_mem _ h)
          · exact Or.inr h

theorem replaceFrom_same (old new s : Str) :
    replaceFrom old new 0 s = s ∨ ∀ c ∈ new, c ∈ replaceFrom old new 0 s := by
  induction s with
  | nil => left; rw [replaceFrom]
  | cons a rest ih =>
    rw [replaceFrom]
    split
    · exact Or.inr fun c hc => List.mem_append_left _ hc
    · rcases ih with h | h
      · left; rw [h]
      · exact Or.inr fun c hc => List.mem_cons_of_mem _ (h c hc)

theorem replaceFrom_absent (c : Char) (old new s : Str) (h : c ∉ s) : replaceFrom (c :: old) new 0 s = s := by
  induction s with
  | nil => rw [replaceFrom]
  | cons a rest ih =>
    have ha : c ≠ a := fun e => h (by simp [e])
    have : startsWith (a :: rest) (c :: old) = false := by simp [startsWith, List.isPrefixOf, ha]
    rw [replaceFrom, this, if_neg (by simp), ih fun hm => h (by simp [hm])]

theorem identifier_chars (name : Str) (h : isIdentifier name = true) :
    name ≠ [] ∧ ∀ c ∈ name, c ≠ '/' ∧ c ≠ '.' ∧ c ≠ '{' := by
  cases name with
  | nil => cases h
  | cons a rest =>
    refine ⟨by simp, ?_⟩
    simp only [isIdentifier, Bool.and_eq_true, Bool.or_eq_true, beq_iff_eq, List.all_eq_true] at h
    have hbad : ∀ c : Char, wordChar c = true → c ≠ '/' ∧ c ≠ '.' ∧ c ≠ '{' := by
      intro c hc
      refine ⟨?_, ?_, ?_⟩ <;> (rintro rfl; revert hc; decide)
    intro c hc
    rcases List.mem_cons.1 hc with rfl | hc
    · refine hbad _ ?_
      rcases h.1 with h1 | h1
      · simp [wordChar, Char.isAlphanum, h1]
      · simp [wordChar, h1]
    · exact hbad c (h.2 c hc)

theorem plain_replace (base name n : Str) (hid : isIdentifier name = true) (hn : Plain n) :
    Plain (replaceFrom base name 0 n) := by
  obtain ⟨hne, hch⟩ := identifier_chars name hid
  have hslash : '/' ∉ replaceFrom base name 0 n := by
    intro h
    rcases replaceFrom_mem base name n 0 '/' h with h | h
    · exact hn.1 h
    · exact (hch _ h).1 rfl
  rcases replaceFrom_same base name n with h | h
  · rw [h]; exact hn
  · cases name with
    | nil => exact absurd rfl hne
    | cons a rest =>
      have hm := h a (by simp)
      have ha := hch a (by simp)
      refine ⟨hslash, fun e => ?_, fun e => ?_, fun e => ?_⟩
      · rw [e] at hm; cases hm
      · rw [e] at hm; simp at hm; exact ha.2.1 hm
      · rw [e] at hm; simp at hm; exact ha.2.1 hm

/-- The order of `handle` for a valid new name: the directory, then the files. -/
theorem handle_done (importing : Str → Importing) (x : Ctx) (location : Path) (fs : Fs) (t : Tree)
    (h : (handle importing x location fs ⟨t, none⟩).2 = .done) :
    isIdentifier x.name = true ∧ ∃ fs', fs.mkdirs (location ++ [x.name]) = some fs' ∧
      handle importing x location fs ⟨t, none⟩ = makeDirs x false (location ++ [x.name]) fs' (walk [] t) := by
  unfold handle validate at h ⊢
  by_cases hid : isIdentifier x.name = true
  · refine ⟨hid, ?_⟩
    rw [if_pos hid] at h ⊢
    cases hi : importing x.name with
    | found => rw [hi] at h; cases h
    | raises => rw [hi] at h; cases h
    | missing =>
      rw [hi] at h
      dsimp only at h ⊢
      by_cases he : fs.exists (location ++ [x.name]) = true
      · rw [if_pos he] at h; cases h
      · rw [if_neg he] at h ⊢
        cases hm : fs.mkdirs (location ++ [x.name]) with
        | none => rw [hm] at h; cases h
        | some fs' =>
          refine ⟨fs', rfl, ?_⟩
          dsimp only [fill]
          rcases makeDirs x false (location ++ [x.name]) fs' (walk [] t) with ⟨a, r⟩
          cases r <;> rfl
  · rw [if_neg hid] at h; cases h

end Verif.Scaffold
