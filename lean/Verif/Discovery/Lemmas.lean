import Verif.Discovery.Spec

/-!
# Lemmas for C109
-/

namespace Verif.Discovery

open Verif Verif.Discovery.Spec

/-- Modules one after the other, until one has an application. -/
def walk (w : World) (inst : Option Value) : List Str → Except Err (Option Scaffold × Option Value)
  | [] => .ok (none, inst)
  | n :: rest =>
    match importModule w n with
    | .error e => .error e
    | .ok m =>
      match inspect w n m (register inst m.registers) with
      | .error e => .error e
      | .ok (some s, i) => .ok (some s, i)
      | .ok (none, i) => walk w i rest

/-- What follows a walk. -/
def andThen (r : Except Err (Option Scaffold × Option Value))
    (f : Option Value → Except Err (Option Scaffold × Option Value)) : Except Err (Option Scaffold × Option Value) :=
  match r with
  | .error e => .error e
  | .ok (some s, i) => .ok (some s, i)
  | .ok (none, i) => f i

theorem walk_append (w : World) (inst : Option Value) (a b : List Str) :
    walk w inst (a ++ b) = andThen (walk w inst a) (fun i => walk w i b) := by
  induction a generalizing inst with
  | nil => rfl
  | cons n rest ih =>
    simp only [List.cons_append, walk]
    cases importModule w n with
    | error e => rfl
    | ok m =>
      dsimp only
      cases inspect w n m (register inst m.registers) with
      | error e => rfl
      | ok r =>
        obtain ⟨o, i⟩ := r
        cases o with
        | some s => rfl
        | none => exact ih i

theorem findInFolder_walk (w : World) (cwd folder : FilePath) (inst : Option Value) (ss : List Str) :
    findInFolder w cwd folder inst ss
      = walk w inst ((ss.filter fun s => w.file folder (s ++ ".py".toList)).map (dottedPath cwd folder)) := by
  induction ss generalizing inst with
  | nil => rfl
  | cons s rest ih =>
    unfold findInFolder
    by_cases h : w.file folder (s ++ ".py".toList) = true
    · rw [if_pos h, List.filter_cons_of_pos (by simpa using h), List.map_cons, walk]
      cases importModule w (dottedPath cwd folder s) with
      | error e => rfl
      | ok m =>
        dsimp only
        cases inspect w (dottedPath cwd folder s) m (register inst m.registers) with
        | error e => rfl
        | ok r =>
          obtain ⟨o, i⟩ := r
          cases o with
          | some s => rfl
          | none => exact ih i
    · rw [if_neg h, List.filter_cons_of_neg (by simpa using h)]
      exact ih inst

/-- Folders one after the other, with the instance kept. -/
theorem findInFolders_walk (w : World) (cwd : FilePath) (inst : Option Value) (fs : List FilePath) :
    findInFolders w cwd inst fs =
      (match walk w inst (fs.flatMap fun f => (discoveryFiles.filter fun s =>
          w.file (cwd.join f) (s ++ ".py".toList)).map (dottedPath cwd (cwd.join f))) with
      | .error e => .error e
      | .ok (o, _) => .ok o) := by
  induction fs generalizing inst with
  | nil => rfl
  | cons f rest ih =>
    unfold findInFolders
    rw [findInFolder_walk, List.flatMap_cons, walk_append]
    cases walk w inst ((discoveryFiles.filter fun s =>
        w.file (cwd.join f) (s ++ ".py".toList)).map (dottedPath cwd (cwd.join f))) with
    | error e => rfl
    | ok r =>
      obtain ⟨o, i⟩ := r
      cases o with
      | some s => rfl
      | none => exact ih i

theorem dotted_here (cwd : FilePath) : dottedPath cwd cwd = fun s => s := by
  funext s
  simp [dottedPath, joinWith]

theorem dotted_below (cwd : FilePath) (n s : Str) :
    dottedPath cwd (below cwd n) s = n ++ '.' :: s := by
  simp [dottedPath, below, joinWith]

theorem join_below (cwd : FilePath) (h : Direct cwd) (n : Str) : cwd.join (below cwd n) = below cwd n := by
  unfold FilePath.join below
  rcases h with h | h
  · rw [h]; rfl
  · cases cwd with
    | mk ab ps =>
      dsimp only at h
      subst h
      cases ab <;> rfl

/-- The search is a walk over the places. -/
theorem findApp_walk (w : World) (cwd : FilePath) (h : Direct cwd) (inst : Option Value) :
    findApp w cwd inst none =
      (match walk w inst ((places w cwd).map Place.name) with
      | .error e => .error e
      | .ok (some s, _) => .ok s
      | .ok (none, _) => .error .env) := by
  unfold findApp
  rw [if_neg (by simp), findInFolder_walk, dotted_here]
  have hp : (places w cwd).map Place.name =
      ((discoveryFiles.filter fun s => w.file cwd (s ++ ".py".toList)).map fun s => s) ++
      ((getFolders w cwd).flatMap fun f => (discoveryFiles.filter fun s =>
          w.file (cwd.join f) (s ++ ".py".toList)).map (dottedPath cwd (cwd.join f))) := by
    unfold places getFolders
    rw [show stems = discoveryFiles from rfl]
    rw [List.map_append, List.map_map, List.map_flatMap, List.flatMap_map]
    congr 1
    congr 1
    funext n
    rw [List.map_map]
    have hj := join_below cwd h n
    unfold below at hj
    rw [hj]
    have hd : dottedPath cwd ⟨cwd.absolute, cwd.parts ++ [n]⟩ = fun s => n ++ '.' :: s :=
      funext fun s => dotted_below cwd n s
    rw [hd]
    rfl
  rw [hp, walk_append]
  cases walk w inst ((discoveryFiles.filter fun s => w.file cwd (s ++ ".py".toList)).map fun s => s) with
  | error e => rfl
  | ok r =>
    obtain ⟨o, i⟩ := r
    cases o with
    | some s => rfl
    | none =>
      dsimp only [andThen]
      rw [findInFolders_walk]
      cases walk w i ((getFolders w cwd).flatMap fun f => (discoveryFiles.filter fun s =>
          w.file (cwd.join f) (s ++ ".py".toList)).map (dottedPath cwd (cwd.join f))) with
      | error e => rfl
      | ok r =>
        obtain ⟨o, i⟩ := r
        cases o <;> rfl

theorem firstBase_none (l : List (Str × Value)) : firstBase l = none ↔ ∀ kv ∈ l, kv.2.kind = .other := by
  induction l with
  | nil => simp [firstBase]
  | cons kv rest ih =>
    unfold firstBase
    by_cases h : kv.2.kind = .other <;> simp [Value.isBase, h, ih]

theorem firstBase_some (pre post : List (Str × Value)) (a : Str) (v : Value)
    (hp : ∀ kv ∈ pre, kv.2.kind = .other) (hv : v.kind ≠ .other) :
    firstBase (pre ++ (a, v) :: post) = some (a, v) := by
  induction pre with
  | nil => simp [firstBase, Value.isBase, hv]
  | cons kv rest ih =>
    rw [List.cons_append, firstBase, if_neg (by simp [Value.isBase, hp kv (by simp)])]
    exact ih fun x hx => hp x (by simp [hx])

theorem firstBase_mem (l : List (Str × Value)) (a : Str) (v : Value) (h : firstBase l = some (a, v)) :
    (a, v) ∈ l ∧ v.kind ≠ .other := by
  induction l with
  | nil => cases h
  | cons kv rest ih =>
    unfold firstBase at h
    by_cases hb : kv.2.isBase = true
    · rw [if_pos hb] at h
      cases h
      exact ⟨List.mem_cons_self, by simpa [Value.isBase] using hb⟩
    · rw [if_neg hb] at h
      exact ⟨List.mem_cons_of_mem _ (ih h).1, (ih h).2⟩

theorem firstTruthy_none (m : Module) (ns : List Str)
    (h : ∀ n ∈ ns, ∀ v, aget m.attrs n = some v → v.truthy = false) : firstTruthy m ns = none := by
  induction ns with
  | nil => rfl
  | cons n rest ih =>
    unfold firstTruthy
    have hr := ih fun x hx => h x (by simp [hx])
    cases hg : aget m.attrs n with
    | none => exact hr
    | some v =>
      dsimp only
      rw [if_neg (by simp [h n (by simp) v hg])]
      exact hr

theorem firstTruthy_mem (m : Module) (ns : List Str) (a : Str) (v : Value) (h : firstTruthy m ns = some (a, v)) :
    a ∈ ns ∧ aget m.attrs a = some v ∧ v.truthy = true := by
  induction ns with
  | nil => cases h
  | cons n rest ih =>
    unfold firstTruthy at h
    cases hg : aget m.attrs n with
    | none =>
      rw [hg] at h
      exact ⟨List.mem_cons_of_mem _ (ih h).1, (ih h).2⟩
    | some x =>
      rw [hg] at h
      dsimp only at h
      by_cases ht : x.truthy = true
      · rw [if_pos ht] at h
        cases h
        exact ⟨List.mem_cons_self, hg, ht⟩
      · rw [if_neg ht] at h
        exact ⟨List.mem_cons_of_mem _ (ih h).1, (ih h).2⟩

theorem factories_silent (w : World) (d : Str) (m : Module) (inst : Option Value) (fs : List Str)
    (h : ∀ n ∈ fs, ∀ v, aget m.attrs n = some v → v.truthy = false) :
    factories w d m inst fs = .ok (none, inst) := by
  induction fs with
  | nil => rfl
  | cons n rest ih =>
    unfold factories
    have hr := ih fun x hx => h x (by simp [hx])
    cases hg : aget m.attrs n with
    | none => exact hr
    | some v =>
      dsimp only
      rw [if_neg (by simp [h n (by simp) v hg])]
      exact hr

theorem inspect_silent (w : World) (d : Str) (m : Module) (inst : Option Value) (hn : NoApp m)
    (h : ∀ n ∈ ["application".toList, "app".toList, "get_application".toList, "get_app".toList],
      ∀ v, aget m.attrs n = some v → v.truthy = false) :
    inspect w d m inst = .ok (none, inst) := by
  have ha : firstTruthy m discoveryAttrs = none :=
    firstTruthy_none m _ fun n hn => h n (by
      simp only [discoveryAttrs, List.mem_cons, List.not_mem_nil, or_false] at hn ⊢
      rcases hn with hn | hn <;> simp [hn])
  have hf : ∀ i, factories w d m i discoveryFunctions = .ok (none, i) := fun i =>
    factories_silent w d m i _ fun n hn => h n (by
      simp only [discoveryFunctions, List.mem_cons, List.not_mem_nil, or_false] at hn ⊢
      rcases hn with hn | hn <;> simp [hn])
  unfold inspect
  rw [(firstBase_none m.attrs).2 hn]
  cases inst with
  | none => exact hf none
  | some i =>
    dsimp only
    rw [ha]
    exact hf (some i)

/-- Silent modules are passed over. -/
theorem walk_silent (w : World) (inst : Option Value) (pre : List Str) (h : ∀ n ∈ pre, Silent w n) :
    ∃ i, walk w inst pre = .ok (none, i) := by
  induction pre generalizing inst with
  | nil => exact ⟨inst, rfl⟩
  | cons n rest ih =>
    obtain ⟨m, hm, hn, hs⟩ := h n (by simp)
    unfold walk
    rw [hm]
    dsimp only
    rw [inspect_silent w n m _ hn hs]
    exact ih _ fun x hx => h x (by simp [hx])

/-- The first module with something is the one that is found. -/
theorem walk_found (w : World) (inst : Option Value) (pre post : List Str) (n : Str) (m : Module) (s : Scaffold)
    (h : ∀ n ∈ pre, Silent w n) (hm : importModule w n = .ok m)
    (hs : ∀ i, ∃ j, inspect w n m (register i m.registers) = .ok (some s, j)) :
    ∃ j, walk w inst (pre ++ n :: post) = .ok (some s, j) := by
  obtain ⟨i, hi⟩ := walk_silent w inst pre h
  obtain ⟨j, hj⟩ := hs i
  refine ⟨j, ?_⟩
  rw [walk_append, hi]
  show walk w i (n :: post) = _
  unfold walk
  rw [hm]
  dsimp only
  rw [hj]

/-- What a factory that was called without success says. -/
theorem factories_none (w : World) (d : Str) (m : Module) (inst j : Option Value) (fs : List Str)
    (h : factories w d m inst fs = .ok (none, j)) :
    ∀ f ∈ fs, ∀ fn, aget m.attrs f = some fn → fn.truthy = true →
      ∀ v, (w.call fn).result = .ok v → v.kind ≠ .lilya := by
  induction fs generalizing inst with
  | nil => exact nofun
  | cons n rest ih =>
    unfold factories at h
    intro f hf fn hg ht v hv
    rcases List.mem_cons.1 hf with rfl | hf
    · rw [hg] at h
      dsimp only at h
      rw [if_pos ht, hv] at h
      dsimp only at h
      intro hk
      rw [if_pos hk] at h
      cases h
    · cases hgn : aget m.attrs n with
      | none =>
        rw [hgn] at h
        exact ih inst h f hf fn hg ht v hv
      | some x =>
        rw [hgn] at h
        dsimp only at h
        by_cases hx : x.truthy = true
        · rw [if_pos hx] at h
          cases hc : (w.call x).result with
          | error e => rw [hc] at h; cases h
          | ok y =>
            rw [hc] at h
            dsimp only at h
            by_cases hk : y.kind = .lilya
            · rw [if_pos hk] at h; cases h
            · rw [if_neg hk] at h
              cases hr : register inst (w.call x).registers with
              | some i => rw [hr] at h; cases h
              | none => rw [hr] at h; exact ih none h f hf fn hg ht v hv
        · rw [if_neg hx] at h
          exact ih inst h f hf fn hg ht v hv

theorem inspect_none (w : World) (d : Str) (m : Module) (inst j : Option Value)
    (h : inspect w d m inst = .ok (none, j)) :
    NoApp m ∧ ∀ f ∈ discoveryFunctions, ∀ fn, aget m.attrs f = some fn → fn.truthy = true →
      ∀ v, (w.call fn).result = .ok v → v.kind ≠ .lilya := by
  unfold inspect at h
  cases hb : firstBase m.attrs with
  | some kv => rw [hb] at h; obtain ⟨a, v⟩ := kv; cases h
  | none =>
    refine ⟨(firstBase_none _).1 hb, ?_⟩
    rw [hb] at h
    cases inst with
    | none => exact factories_none w d m none j _ h
    | some i =>
      dsimp only at h
      cases ht : firstTruthy m discoveryAttrs with
      | some kv => rw [ht] at h; obtain ⟨a, v⟩ := kv; cases h
      | none => rw [ht] at h; exact factories_none w d m (some i) j _ h

theorem walk_none (w : World) (inst j : Option Value) (ns : List Str) (h : walk w inst ns = .ok (none, j)) :
    ∀ n ∈ ns, ∃ m, importModule w n = .ok m ∧ NoApp m ∧
      ∀ f ∈ discoveryFunctions, ∀ fn, aget m.attrs f = some fn → fn.truthy = true →
        ∀ v, (w.call fn).result = .ok v → v.kind ≠ .lilya := by
  induction ns generalizing inst with
  | nil => exact nofun
  | cons n rest ih =>
    unfold walk at h
    cases hm : importModule w n with
    | error e => rw [hm] at h; cases h
    | ok m =>
      rw [hm] at h
      dsimp only at h
      cases hi : inspect w n m (register inst m.registers) with
      | error e => rw [hi] at h; cases h
      | ok r =>
        obtain ⟨o, i⟩ := r
        cases o with
        | some s => rw [hi] at h; cases h
        | none =>
          rw [hi] at h
          intro x hx
          rcases List.mem_cons.1 hx with rfl | hx
          · exact ⟨m, hm, inspect_none w _ m _ i hi⟩
          · exact ih i h x hx

theorem factories_error (w : World) (hq : Quiet w) (d : Str) (m : Module) (inst : Option Value) (fs : List Str) :
    factories w d m inst fs ≠ .error .env := by
  induction fs generalizing inst with
  | nil => exact nofun
  | cons n rest ih =>
    unfold factories
    cases aget m.attrs n with
    | none => exact ih inst
    | some x =>
      dsimp only
      by_cases hx : x.truthy = true
      · rw [if_pos hx]
        cases hc : (w.call x).result with
        | error e =>
          intro h
          injection h with h
          subst h
          exact hq.2 x hc
        | ok y =>
          dsimp only
          by_cases hk : y.kind = .lilya
          · rw [if_pos hk]; exact nofun
          · rw [if_neg hk]
            cases register inst (w.call x).registers with
            | some i => exact nofun
            | none => exact ih none
      · rw [if_neg hx]
        exact ih inst

theorem inspect_error (w : World) (hq : Quiet w) (d : Str) (m : Module) (inst : Option Value) :
    inspect w d m inst ≠ .error .env := by
  unfold inspect
  cases firstBase m.attrs with
  | some kv => exact nofun
  | none =>
    cases inst with
    | none => exact factories_error w hq d m none _
    | some i =>
      dsimp only
      cases firstTruthy m discoveryAttrs with
      | some kv => exact nofun
      | none => exact factories_error w hq d m (some i) _

theorem import_error (w : World) (hq : Quiet w) (n : Str) : importModule w n ≠ .error .env := by
  unfold importModule
  by_cases h : startsWith n ['.'] = true
  · rw [if_pos h]; exact nofun
  · rw [if_neg h]; exact hq.1 n

theorem walk_error (w : World) (hq : Quiet w) (inst : Option Value) (ns : List Str) :
    walk w inst ns ≠ .error .env := by
  induction ns generalizing inst with
  | nil => exact nofun
  | cons n rest ih =>
    unfold walk
    cases hm : importModule w n with
    | error e =>
      intro h
      injection h with h
      subst h
      exact import_error w hq n hm
    | ok m =>
      dsimp only
      cases hi : inspect w n m (register inst m.registers) with
      | error e =>
        intro h
        injection h with h
        subst h
        exact inspect_error w hq _ _ _ hi
      | ok r =>
        obtain ⟨o, i⟩ := r
        cases o with
        | some s => exact nofun
        | none => exact ih i

/-- Where a found application comes from. -/
def From (w : World) (d : Str) (m : Module) (s : Scaffold) : Prop :=
  ∃ a v, (a, v) ∈ m.attrs ∧ s.path = appPath d a ∧
    (s.app = v ∧ (v.kind ≠ .other ∨ a ∈ discoveryAttrs)
      ∨ (w.call v).result = .ok s.app ∧ a ∈ discoveryFunctions)

theorem aget_memOf {β : Type} {a : Str} {v : β} {l : List (Str × β)} (h : aget l a = some v) : (a, v) ∈ l := by
  induction l with
  | nil => cases h
  | cons kv rest ih =>
    obtain ⟨k, x⟩ := kv
    by_cases hk : k = a
    · subst hk
      simp [aget] at h
      subst h
      exact List.mem_cons_self
    · rw [aget] at h
      simp [hk] at h
      exact List.mem_cons_of_mem _ (ih h)

theorem aget_mem {m : Module} {a : Str} {v : Value} (h : aget m.attrs a = some v) : (a, v) ∈ m.attrs :=
  aget_memOf h

theorem factories_some (w : World) (d : Str) (m : Module) (inst j : Option Value) (s : Scaffold) (fs : List Str)
    (hfs : ∀ f ∈ fs, f ∈ discoveryFunctions)
    (h : factories w d m inst fs = .ok (some s, j)) : From w d m s := by
  induction fs generalizing inst with
  | nil => cases h
  | cons n rest ih =>
    have ih' := fun i hi => ih i (fun f hf => hfs f (by simp [hf])) hi
    unfold factories at h
    cases hgn : aget m.attrs n with
    | none => rw [hgn] at h; exact ih' inst h
    | some x =>
      rw [hgn] at h
      dsimp only at h
      by_cases hx : x.truthy = true
      · rw [if_pos hx] at h
        cases hc : (w.call x).result with
        | error e => rw [hc] at h; cases h
        | ok y =>
          rw [hc] at h
          dsimp only at h
          by_cases hk : y.kind = .lilya
          · rw [if_pos hk] at h
            injection h with h
            injection h with h1 h2
            injection h1 with h1
            subst h1
            exact ⟨n, x, aget_mem hgn, rfl, .inr ⟨hc, hfs n (by simp)⟩⟩
          · rw [if_neg hk] at h
            cases hr : register inst (w.call x).registers with
            | some i =>
              rw [hr] at h
              injection h with h
              injection h with h1 h2
              injection h1 with h1
              subst h1
              exact ⟨n, x, aget_mem hgn, rfl, .inr ⟨hc, hfs n (by simp)⟩⟩
            | none => rw [hr] at h; exact ih' none h
      · rw [if_neg hx] at h
        exact ih' inst h

theorem inspect_some (w : World) (d : Str) (m : Module) (inst j : Option Value) (s : Scaffold)
    (h : inspect w d m inst = .ok (some s, j)) : From w d m s := by
  unfold inspect at h
  cases hb : firstBase m.attrs with
  | some kv =>
    obtain ⟨a, v⟩ := kv
    rw [hb] at h
    injection h with h
    injection h with h1 h2
    injection h1 with h1
    subst h1
    have := firstBase_mem _ a v hb
    exact ⟨a, v, this.1, rfl, .inl ⟨rfl, .inl this.2⟩⟩
  | none =>
    rw [hb] at h
    cases inst with
    | none => exact factories_some w d m none j s _ (fun _ hf => hf) h
    | some i =>
      dsimp only at h
      cases ht : firstTruthy m discoveryAttrs with
      | some kv =>
        obtain ⟨a, v⟩ := kv
        rw [ht] at h
        injection h with h
        injection h with h1 h2
        injection h1 with h1
        subst h1
        have := firstTruthy_mem m _ a v ht
        exact ⟨a, v, aget_mem this.2.1, rfl, .inl ⟨rfl, .inr this.1⟩⟩
      | none => rw [ht] at h; exact factories_some w d m (some i) j s _ (fun _ hf => hf) h

theorem walk_some (w : World) (inst j : Option Value) (s : Scaffold) (ns : List Str)
    (h : walk w inst ns = .ok (some s, j)) : ∃ n ∈ ns, ∃ m, importModule w n = .ok m ∧ From w n m s := by
  induction ns generalizing inst with
  | nil => cases h
  | cons n rest ih =>
    unfold walk at h
    cases hm : importModule w n with
    | error e => rw [hm] at h; cases h
    | ok m =>
      rw [hm] at h
      dsimp only at h
      cases hi : inspect w n m (register inst m.registers) with
      | error e => rw [hi] at h; cases h
      | ok r =>
        obtain ⟨o, i⟩ := r
        rw [hi] at h
        cases o with
        | some x =>
          injection h with h
          injection h with h1 h2
          injection h1 with h1
          subst h1
          exact ⟨n, List.mem_cons_self, m, hm, inspect_some w _ m _ i _ hi⟩
        | none =>
          obtain ⟨x, hx, r⟩ := ih i h
          exact ⟨x, List.mem_cons_of_mem _ hx, r⟩

theorem splitOn_none (s : Str) (h : ':' ∉ s) : splitOn ':' s = [s] := by
  induction s with
  | nil => rfl
  | cons c rest ih =>
    have hc : c ≠ ':' := fun e => h (by simp [e])
    have hr := ih fun e => h (by simp [e])
    simp [splitOn, hc, hr]

theorem splitOn_one (a b : Str) (ha : ':' ∉ a) (hb : ':' ∉ b) : splitOn ':' (a ++ ':' :: b) = [a, b] := by
  induction a with
  | nil => simp [splitOn, splitOn_none b hb]
  | cons c rest ih =>
    have hc : c ≠ ':' := fun e => ha (by simp [e])
    have hr := ih fun e => ha (by simp [e])
    simp [splitOn, hc, hr]

theorem importApp_path (w : World) (inst : Option Value) (d a : Str) (m : Module) (v : Value)
    (hd : ':' ∉ d) (ha : ':' ∉ a) (hm : importModule w d = .ok m) (hg : aget m.attrs a = some v) :
    importApp w inst (appPath d a)
      = .ok ⟨appPath d a, v, if v.isBase then some v else register inst m.registers⟩ := by
  unfold importApp splitPair
  rw [show splitOn ':' (appPath d a) = [d, a] from splitOn_one d a hd ha]
  dsimp only
  rw [hm]
  dsimp only
  rw [hg]

end Verif.Discovery
