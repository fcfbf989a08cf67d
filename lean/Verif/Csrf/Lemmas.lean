import Verif.Csrf.Spec
import Verif.MultiDict.Lemmas

namespace Verif.Csrf

open Verif Spec

theorem isAscii_iff (s : Str) : isAscii s = true ↔ ∀ c ∈ s, c.toNat < 128 := by
  unfold isAscii
  rw [List.all_eq_true]
  simp

theorem cut_some {pat s a b : Str} (h : cut pat s = some (a, b)) : s = a ++ pat ++ b := by
  induction s generalizing a with
  | nil =>
    rw [cut] at h
    split at h
    · rename_i r hr
      injection h with h
      injection h with h1 h2
      rw [← h1, ← h2, List.nil_append]
      exact (stripPrefix?_eq_some _ _ _).1 hr
    · cases h
  | cons c cs ih =>
    rw [cut] at h
    split at h
    · rename_i r hr
      injection h with h
      injection h with h1 h2
      rw [← h1, ← h2, List.nil_append]
      exact (stripPrefix?_eq_some _ _ _).1 hr
    · split at h
      · rename_i a' b' hc
        injection h with h
        injection h with h1 h2
        subst h1 h2
        rw [ih hc]
        simp
      · cases h

theorem cut_isSome {pat s : Str} (h : hasSub pat s = true) : Occurs pat s := by
  unfold hasSub at h
  cases hc : cut pat s with
  | none => rw [hc] at h; cases h
  | some ab => obtain ⟨a, b⟩ := ab; exact ⟨a, b, cut_some hc⟩

theorem occurs_trans {a b c : Str} (h1 : Occurs a b) (h2 : Occurs b c) : Occurs a c := by
  obtain ⟨x, y, rfl⟩ := h1
  obtain ⟨u, v, rfl⟩ := h2
  exact ⟨u ++ x, y ++ v, by simp⟩

theorem splitSubF_occurs (pat : Str) (n : Nat) (s : Str) : ∀ p ∈ splitSubF pat n s, Occurs p s := by
  induction n generalizing s with
  | zero =>
    intro p hp
    simp only [splitSubF, List.mem_singleton] at hp
    exact ⟨[], [], by simp [hp]⟩
  | succ n ih =>
    intro p hp
    rw [splitSubF] at hp
    split at hp
    · rename_i a b hc
      have hs := cut_some hc
      rcases List.mem_cons.1 hp with rfl | hp
      · exact ⟨[], pat ++ b, by rw [hs]; simp⟩
      · exact occurs_trans (ih b p hp) ⟨a ++ pat, [], by rw [hs]; simp⟩
    · exact ⟨[], [], by simp [List.mem_singleton.1 hp]⟩

theorem namesField_occurs (field s : Str) (h : namesField field s = true) :
    Occurs ("name=\"".toList ++ field ++ ['"']) s := by
  induction s with
  | nil => cases h
  | cons c cs ih =>
    rw [namesField, Bool.or_eq_true] at h
    rcases h with h | h
    · split at h
      · rename_i r hr
        exact ⟨[], r, by rw [List.nil_append]; exact (stripPrefix?_eq_some _ _ _).1 hr⟩
      · cases h
    · obtain ⟨a, b, hs⟩ := ih h
      exact ⟨c :: a, b, by rw [hs]; simp⟩

theorem dropWhile_occurs (p : Char → Bool) (s : Str) : ∃ a, s = a ++ s.dropWhile p :=
  ⟨s.takeWhile p, (List.takeWhile_append_dropWhile).symm⟩

theorem strip_occurs (p : Char → Bool) (s : Str) : Occurs (strip p s) s := by
  obtain ⟨a, ha⟩ := dropWhile_occurs p s
  obtain ⟨b, hb⟩ := dropWhile_occurs p (s.dropWhile p).reverse
  refine ⟨a, b.reverse, ?_⟩
  have : s.dropWhile p = strip p s ++ b.reverse := by
    unfold strip rstrip lstrip
    rw [← List.reverse_append, ← hb, List.reverse_reverse]
  rw [List.append_assoc, ← this]
  exact ha

theorem partToken_spec {field e part v : Str} (h : partToken field e part = some v) :
    ∃ headers content, part = headers ++ content ∧
      Occurs ("name=\"".toList ++ field ++ ['"']) headers ∧ Occurs v content := by
  have key : ∀ (hd : Str) (sep rest : Str), part = hd ++ sep ++ rest → namesField field hd = true →
      v = strip (fun x => x = '\r' || x = '\n') (part.drop (hd.length + 4)) →
      ∃ headers content, part = headers ++ content ∧
        Occurs ("name=\"".toList ++ field ++ ['"']) headers ∧ Occurs v content := by
    intro hd sep rest hp hn hv
    refine ⟨hd, sep ++ rest, by rw [hp]; simp, namesField_occurs _ _ hn, ?_⟩
    rw [hv]
    refine occurs_trans (strip_occurs _ _) ?_
    have hdrop : part.drop (hd.length + 4) = (sep ++ rest).drop 4 := by
      rw [← List.drop_drop, hp, List.append_assoc, List.drop_left]
    rw [hdrop]
    exact ⟨(sep ++ rest).take 4, [], by simp⟩
  unfold partToken at h
  split at h
  · cases h
  · simp only at h
    cases hc : cut "\r\n\r\n".toList part with
    | some ab =>
      obtain ⟨a, b⟩ := ab
      rw [hc] at h
      simp only at h
      split at h
      · rename_i hn
        injection h with h
        exact key a _ b (cut_some hc) hn h.symm
      · cases h
    | none =>
      rw [hc] at h
      simp only at h
      cases hc2 : cut "\n\n".toList part with
      | some ab =>
        obtain ⟨a, b⟩ := ab
        rw [hc2] at h
        simp only at h
        split at h
        · rename_i hn
          injection h with h
          exact key a _ b (cut_some hc2) hn h.symm
        · cases h
      | none => rw [hc2] at h; cases h

theorem get_first (ps : List (Str × Str)) (k v : Str) (h : MultiDict.get id ps k = some v) :
    ∃ pre post, ps = pre ++ (k, v) :: post ∧ ∀ kv ∈ pre, kv.1 ≠ k := by
  induction ps with
  | nil => cases h
  | cons x ps ih =>
    unfold MultiDict.get at h ih
    rw [MultiDict.getall_cons] at h
    by_cases hx : x.1 = k
    · rw [if_pos (by simpa using hx)] at h
      injection h with h
      refine ⟨[], ps, ?_, by simp⟩
      rw [List.nil_append, ← hx, ← h]
    · rw [if_neg (by simpa using hx)] at h
      obtain ⟨pre, post, he, hp⟩ := ih h
      refine ⟨x :: pre, post, by rw [he]; rfl, ?_⟩
      intro kv hkv
      rcases List.mem_cons.1 hkv with rfl | hkv
      · exact hx
      · exact hp kv hkv

theorem extractToken_spec {body ctype field v : Str} (h : extractToken body ctype field = some v) :
    FormField body ctype field v := by
  unfold extractToken at h
  simp only at h
  split at h
  · rename_i hu
    exact .inl ⟨cut_isSome hu, get_first _ _ _ h⟩
  · split at h
    · rename_i hm
      split at h
      · cases h
      · split at h
        · cases h
        · obtain ⟨part, hp, ht⟩ := List.exists_of_findSome?_eq_some h
          obtain ⟨hd, ct, he, h1, h2⟩ := partToken_spec ht
          refine .inr ⟨cut_isSome hm, hd, ct, ?_, h1, h2⟩
          rw [← he]
          exact splitSubF_occurs _ _ _ part hp
    · cases h

theorem readBody_spec (max : Nat) (acc : Str) (ms : List Msg) (b : Str)
    (h : readBody max acc ms = .done b) : ∃ r, b = acc ++ r ∧ Body ms r := by
  induction ms generalizing acc with
  | nil => cases h
  | cons m ms ih =>
    cases m with
    | other => rw [readBody] at h; exact ih acc h
    | body d more =>
      rw [readBody] at h
      split at h
      · cases h
      · cases more with
        | true =>
          rw [if_pos rfl] at h
          obtain ⟨r, h1, h2⟩ := ih _ h
          exact ⟨d ++ r, by rw [h1]; simp, r, rfl, h2⟩
        | false =>
          rw [if_neg (by simp)] at h
          injection h with h
          exact ⟨d, h.symm, rfl⟩

theorem decode_iff (hmac : Str → Str → Str) (hh : HexMac hmac) (secret token s : Str) :
    decode hmac secret token = .some s ↔ Signed hmac secret s token := by
  unfold decode Signed secretLength
  simp only
  constructor
  · intro h
    split at h
    · cases h
    · rename_i hlen
      split at h
      · split at h
        · rename_i he
          injection h with h
          refine ⟨by rw [← h, List.length_take]; omega, ?_⟩
          rw [← h, ← he, List.take_append_drop]
        · cases h
      · cases h
  · rintro ⟨hl, rfl⟩
    obtain ⟨hm, ha⟩ := hh secret s
    have ht : (s ++ hmac secret s).take 64 = s := by rw [← hl, List.take_left]
    have hd : (s ++ hmac secret s).drop 64 = hmac secret s := by rw [← hl, List.drop_left]
    rw [if_neg (by rw [List.length_append]; omega), ht, hd]
    have : isAscii (hmac secret s) = true := (isAscii_iff _).2 ha
    rw [this]
    simp

theorem tokensMatch_true (hmac : Str → Str → Str) (hh : HexMac hmac) (secret : Str) (a b : Option Str)
    (h : tokensMatch hmac secret a b = some true) :
    ∃ s x y, a = some x ∧ b = some y ∧ Signed hmac secret s x ∧ Signed hmac secret s y := by
  unfold tokensMatch at h
  cases a with
  | none => cases h
  | some x =>
    cases b with
    | none => cases h
    | some y =>
      simp only at h
      split at h
      · cases h
      · cases hx : decode hmac secret x with
        | raised => rw [hx] at h; cases h
        | none =>
          rw [hx] at h
          cases hy : decode hmac secret y with
          | raised => rw [hy] at h; cases h
          | none => rw [hy] at h; cases h
          | some t => rw [hy] at h; cases h
        | some s =>
          rw [hx] at h
          cases hy : decode hmac secret y with
          | raised => rw [hy] at h; cases h
          | none => rw [hy] at h; cases h
          | some t =>
            rw [hy] at h
            simp only at h
            split at h
            · injection h with h
              have hst : s = t := of_decide_eq_true h
              refine ⟨s, x, y, rfl, rfl, (decode_iff hmac hh _ _ _).1 hx, ?_⟩
              rw [hst]
              exact (decode_iff hmac hh _ _ _).1 hy
            · cases h

theorem safe_iff (c : Config) (m : Str) : m ∈ c.safe ↔ SafeMethod c m := by
  unfold Config.safe SafeMethod
  by_cases h : c.safeMethods = []
  · rw [if_pos h, h]
    simp only [List.mem_cons, List.not_mem_nil, or_false, true_and]
  · rw [if_neg h]
    simp only [h, false_and, false_or]

/-! ## Forms that are admitted -/

theorem cut_of_occurs {pat s : Str} (h : Occurs pat s) : (cut pat s).isSome = true := by
  obtain ⟨a, b, rfl⟩ := h
  induction a with
  | nil =>
    have hp : stripPrefix? pat (pat ++ b) = some b := (stripPrefix?_eq_some _ _ _).2 rfl
    rw [List.nil_append]
    cases hpb : pat ++ b with
    | nil => rw [cut]; rw [hpb] at hp; rw [hp]; rfl
    | cons c cs => rw [cut]; rw [hpb] at hp; rw [hp]; rfl
  | cons c a ih =>
    rw [List.cons_append, List.cons_append, cut]
    cases hs : stripPrefix? pat (c :: (a ++ pat ++ b)) with
    | some r => rfl
    | none =>
      dsimp only
      cases hc : cut pat (a ++ pat ++ b) with
      | none => rw [hc] at ih; cases ih
      | some ab => rfl

theorem hasSub_iff (pat s : Str) : hasSub pat s = true ↔ Occurs pat s := ⟨cut_isSome, cut_of_occurs⟩

theorem isForm_iff (ctype : Str) : isForm ctype = true ↔ IsForm ctype := by
  unfold isForm IsForm
  rw [Bool.or_eq_true, hasSub_iff, hasSub_iff]
  exact Or.comm

theorem readBody_complete (max : Nat) (acc : Str) (ms : List Msg) (b : Str) (h : Body ms b)
    (hl : acc.length + b.length ≤ max) : readBody max acc ms = .done (acc ++ b) := by
  induction ms generalizing acc b with
  | nil => cases h
  | cons m ms ih =>
    cases m with
    | other => rw [readBody]; exact ih acc b h hl
    | body d more =>
      cases more with
      | true =>
        obtain ⟨r, rfl, h⟩ := h
        rw [List.length_append] at hl
        rw [readBody, if_neg (by rintro ⟨_, h2⟩; omega), if_pos rfl,
          ih (acc ++ d) r h (by rw [List.length_append]; omega), List.append_assoc]
      | false =>
        have h : b = d := h
        subst h
        rw [readBody, if_neg (by rintro ⟨_, h2⟩; omega), if_neg (by decide)]

theorem first_get (pre post : List (Str × Str)) (k v : Str) (h : ∀ kv ∈ pre, kv.1 ≠ k) :
    MultiDict.get id (pre ++ (k, v) :: post) k = some v := by
  unfold MultiDict.get
  rw [MultiDict.getall_append]
  have : MultiDict.getall id pre k = [] := by
    rw [List.eq_nil_iff_forall_not_mem]
    intro x hx
    obtain ⟨k', hk, hm⟩ := (MultiDict.mem_getall _ _ _ _).1 hx
    exact h _ hm hk
  rw [this, MultiDict.getall_cons, if_pos rfl]
  rfl

/-! ### Multipart bodies -/

/-- The first occurrence is found when there is none before. -/
theorem cut_first {pat p rest : Str} (hne : pat ≠ []) (h : OnlyAtEnd pat p) :
    cut pat (p ++ pat ++ rest) = some (p, rest) := by
  induction p with
  | nil =>
    have hp : stripPrefix? pat (pat ++ rest) = some rest := (stripPrefix?_eq_some _ _ _).2 rfl
    rw [List.nil_append]
    cases hpb : pat ++ rest with
    | nil => exact absurd (List.append_eq_nil_iff.1 hpb).1 hne
    | cons c cs => rw [cut]; rw [hpb] at hp; rw [hp]
  | cons c p ih =>
    have hrest : OnlyAtEnd pat p := by
      intro a r e
      exact h (c :: a) r (by rw [List.cons_append, e]; rfl)
    rw [List.cons_append, List.cons_append, cut]
    cases hs : stripPrefix? pat (c :: (p ++ pat ++ rest)) with
    | none =>
      dsimp only
      rw [ih hrest]
    | some r =>
      exfalso
      have e : c :: (p ++ pat ++ rest) = pat ++ r := (stripPrefix?_eq_some _ _ _).1 hs
      -- the occurrence at the start lies within `c :: p ++ pat`
      have e2 : (c :: p) ++ pat = [] ++ pat ++ ((c :: p) ++ pat).drop pat.length := by
        have ht := congrArg (List.take pat.length) e
        rw [List.take_left' rfl] at ht
        have hl : pat.length ≤ ((c :: p) ++ pat).length := by simp; omega
        have ht2 : ((c :: p) ++ pat).take pat.length = pat := by
          rw [← List.cons_append, ← List.cons_append, List.take_append_of_le_length hl] at ht
          exact ht
        rw [List.nil_append]
        conv => lhs; rw [← List.take_append_drop pat.length ((c :: p) ++ pat), ht2]
      have hnil := h [] _ e2
      have := congrArg List.length hnil
      simp at this
      omega

theorem cut_le {pat a r x y : Str} (h : cut pat (a ++ pat ++ r) = some (x, y)) : x.length ≤ a.length := by
  induction a generalizing x y with
  | nil =>
    have hp : stripPrefix? pat (pat ++ r) = some r := (stripPrefix?_eq_some _ _ _).2 rfl
    rw [List.nil_append] at h
    cases hpb : pat ++ r with
    | nil => rw [hpb] at h hp; rw [cut, hp] at h; injection h with h; injection h with h _; rw [← h]; simp
    | cons c cs => rw [hpb] at h hp; rw [cut, hp] at h; injection h with h; injection h with h _; rw [← h]; simp
  | cons c a ih =>
    rw [List.cons_append, List.cons_append, cut] at h
    cases hs : stripPrefix? pat (c :: (a ++ pat ++ r)) with
    | some r' => rw [hs] at h; injection h with h; injection h with h _; rw [← h]; simp
    | none =>
      rw [hs] at h
      dsimp only at h
      cases hc : cut pat (a ++ pat ++ r) with
      | none => rw [hc] at h; cases h
      | some ab =>
        obtain ⟨x', y'⟩ := ab
        rw [hc] at h
        injection h with h
        injection h with h _
        have := ih hc
        rw [← h, List.length_cons, List.length_cons]
        omega

theorem onlyAtEnd_of_cut {d p : Str} (h : cut d (p ++ d) = some (p, [])) : OnlyAtEnd d p := by
  intro a r e
  rw [e] at h
  have h1 := cut_le h
  have h2 := congrArg List.length e
  rw [List.length_append, List.length_append, List.length_append] at h2
  exact List.length_eq_zero_iff.1 (by omega)

theorem splitSubF_parts (d last : Str) (hne : d ≠ []) (hlast : ¬ Occurs d last) (ps : List Str)
    (h : ∀ p ∈ ps, OnlyAtEnd d p) (n : Nat) (hn : ps.length ≤ n) :
    splitSubF d n (ps.flatMap (fun p => p ++ d) ++ last) = ps ++ [last] := by
  induction ps generalizing n with
  | nil =>
    rw [List.flatMap_nil, List.nil_append, List.nil_append]
    cases n with
    | zero => rfl
    | succ n =>
      rw [splitSubF]
      cases hc : cut d last with
      | none => rfl
      | some ab => exact absurd (cut_isSome (by unfold hasSub; rw [hc]; rfl)) hlast
  | cons p ps ih =>
    cases n with
    | zero => simp at hn
    | succ n =>
      rw [splitSubF, List.flatMap_cons, List.append_assoc, cut_first hne (h p List.mem_cons_self)]
      dsimp only
      rw [ih (fun q hq => h q (List.mem_cons_of_mem _ hq)) n (by simp at hn; omega)]
      rfl

theorem findSome?_append_none {α β : Type} (f : α → Option β) (l l' : List α) (h : ∀ x ∈ l, f x = none) :
    (l ++ l').findSome? f = l'.findSome? f := by
  induction l with
  | nil => rfl
  | cons a l ih =>
    rw [List.cons_append, List.findSome?_cons, h a List.mem_cons_self]
    exact ih fun x hx => h x (List.mem_cons_of_mem _ hx)

theorem namesField_names (field h : Str) (hn : NamesField field h) : namesField field h = true := by
  obtain ⟨pre, rest, rfl, hr⟩ := hn
  induction pre with
  | nil =>
    have step : ∀ c cs, "name=\"".toList ++ field ++ ['"'] = c :: cs →
        namesField field (c :: (cs ++ rest)) = true := by
      intro c cs ht
      rw [namesField, ht, (stripPrefix?_eq_some (c :: cs) (c :: (cs ++ rest)) rest).2 rfl]
      dsimp only
      rcases hr with rfl | hr
      · rfl
      · rw [hr]; simp
    exact step 'n' ("ame=\"".toList ++ field ++ ['"']) rfl
  | cons c pre ih =>
    rw [List.cons_append, List.cons_append, namesField, ih, Bool.or_true]

/-- The headers of a part, with the line break before them. -/
theorem partToken_part (field e : Str) (p : Part) (he : startsWith e "--".toList = true)
    (hh : OnlyAtEnd "\r\n\r\n".toList ("\r\n".toList ++ p.headers)) :
    partToken field e p.text = if namesField field ("\r\n".toList ++ p.headers) = true then
      some (strip (fun x => x = '\r' || x = '\n') (p.content ++ "\r\n".toList)) else none := by
  have ht : p.text = ("\r\n".toList ++ p.headers) ++ "\r\n\r\n".toList ++ (p.content ++ "\r\n".toList) := by
    unfold Part.text
    simp only [List.append_assoc]
  have h1 : p.text ≠ [] := by rw [ht]; simp
  have h2 : startsWith p.text "--".toList = false := by
    rw [ht]; rfl
  have h3 : p.text ≠ e := by
    rintro rfl
    rw [h2] at he
    cases he
  have hc : cut "\r\n\r\n".toList p.text = some ("\r\n".toList ++ p.headers, p.content ++ "\r\n".toList) := by
    rw [ht]; exact cut_first (by decide) hh
  have hd : p.text.drop (("\r\n".toList ++ p.headers).length + 4) = p.content ++ "\r\n".toList := by
    rw [← List.drop_drop, ht, List.append_assoc, List.drop_left]
    rfl
  unfold partToken
  rw [if_neg (by
    rintro (h | h | h)
    · exact h1 h
    · rw [h2] at h; cases h
    · exact h3 h), hc]
  dsimp only
  rw [hd]

theorem partToken_end (field e : Str) : partToken field e "--\r\n".toList = none := by
  unfold partToken
  rw [if_pos (.inr (.inl (by decide)))]

theorem partToken_nil (field e : Str) : partToken field e [] = none := by
  unfold partToken
  rw [if_pos (.inl rfl)]

theorem strip_crlf (s : Str) (h : ∀ c ∈ s, c ≠ '\r' ∧ c ≠ '\n') :
    strip (fun x => x = '\r' || x = '\n') (s ++ "\r\n".toList) = s := by
  have hn : ∀ c ∈ s, (decide (c = '\r') || decide (c = '\n')) = false := by
    intro c hc
    rw [Bool.or_eq_false_iff, decide_eq_false_iff_not, decide_eq_false_iff_not]
    exact h c hc
  cases s with
  | nil => decide
  | cons a s =>
    unfold strip lstrip rstrip
    rw [List.cons_append, List.dropWhile_cons_of_neg (by rw [hn a List.mem_cons_self]; decide), ← List.cons_append,
      List.reverse_append, show "\r\n".toList.reverse = ['\n', '\r'] from by decide, List.cons_append, List.cons_append,
      List.nil_append, List.dropWhile_cons_of_pos (by decide), List.dropWhile_cons_of_pos (by decide)]
    have : ∀ t : Str, (∀ c ∈ t, (decide (c = '\r') || decide (c = '\n')) = false) →
        t.dropWhile (fun x => decide (x = '\r') || decide (x = '\n')) = t := by
      intro t ht
      cases t with
      | nil => rfl
      | cons b t => rw [List.dropWhile_cons_of_neg (by rw [ht b List.mem_cons_self]; decide)]
    rw [this _ (fun c hc => hn c (List.mem_reverse.1 hc)), List.reverse_reverse]

theorem boundaryOf_type (b : Str) (hne : b ≠ []) (hs : ';' ∉ b) : boundaryOf (multipartType b) = some b := by
  have ht : b.takeWhile (fun x => decide (x ≠ ';')) = b := by
    have key : ∀ t : Str, ';' ∉ t → t.takeWhile (fun x => decide (x ≠ ';')) = t := by
      intro t ht
      induction t with
      | nil => rfl
      | cons c t ih =>
        rw [List.takeWhile_cons_of_pos (by rw [decide_eq_true_eq]; rintro rfl; exact ht List.mem_cons_self),
          ih fun h => ht (List.mem_cons_of_mem _ h)]
    exact key b hs
  have hb : boundaryOf ("boundary=".toList ++ b) = some b := by
    have e : "boundary=".toList ++ b = 'b' :: ("oundary=".toList ++ b) := rfl
    have hp : stripPrefix? "boundary=".toList ('b' :: ("oundary=".toList ++ b)) = some b :=
      (stripPrefix?_eq_some _ _ _).2 rfl
    rw [e, boundaryOf, hp]
    dsimp only
    rw [ht, if_pos hne]
  have step : ∀ (pre rest : Str), (∀ c ∈ pre, c ≠ 'b') → boundaryOf (pre ++ rest) = boundaryOf rest := by
    intro pre rest h
    induction pre with
    | nil => rfl
    | cons c pre ih =>
      rw [List.cons_append, boundaryOf]
      cases hp : stripPrefix? "boundary=".toList (c :: (pre ++ rest)) with
      | some r =>
        have e : c :: (pre ++ rest) = 'b' :: ("oundary=".toList ++ r) := (stripPrefix?_eq_some _ _ _).1 hp
        injection e with e _
        exact absurd e (h c List.mem_cons_self)
      | none =>
        dsimp only
        exact ih fun d hd => h d (List.mem_cons_of_mem _ hd)
  have e : multipartType b = "multipart/form-data; ".toList ++ ("boundary=".toList ++ b) := by
    unfold multipartType
    rw [← List.append_assoc]
    rfl
  rw [e, step _ _ (by decide), hb]

/-- Text around the only occurrence of a character. -/
theorem split_unique {x y u v : Str} {d : Char} (hu : d ∉ u) (hv : d ∉ v) (h : x ++ d :: y = u ++ d :: v) : x = u := by
  induction x generalizing u with
  | nil =>
    cases u with
    | nil => rfl
    | cons a u =>
      rw [List.nil_append, List.cons_append] at h
      injection h with h _
      exact absurd (h ▸ List.mem_cons_self) hu
  | cons c x ih =>
    cases u with
    | nil =>
      rw [List.nil_append, List.cons_append] at h
      injection h with _ h
      exact absurd (h ▸ List.mem_append_right _ List.mem_cons_self) hv
    | cons a u =>
      rw [List.cons_append, List.cons_append] at h
      injection h with h1 h2
      rw [h1, ih (fun hm => hu (List.mem_cons_of_mem _ hm)) h2]

theorem plain_props (c : Char) (h : c = '-' ∨ (48 ≤ c.toNat ∧ c.toNat ≤ 57) ∨ (97 ≤ c.toNat ∧ c.toNat ≤ 122)) :
    c.toLower = c ∧ c ≠ ';' ∧ c ≠ '"' ∧ c ≠ '/' ∧ c.toNat < 128 ∧ isSpace c = false := by
  have hn : c.toNat = 45 ∨ (48 ≤ c.toNat ∧ c.toNat ≤ 57) ∨ (97 ≤ c.toNat ∧ c.toNat ≤ 122) := by
    rcases h with rfl | h | h
    · exact .inl rfl
    · exact .inr (.inl h)
    · exact .inr (.inr h)
  have hlt : c.toNat < 128 := by omega
  have key : ∀ n < 128, (n = 45 ∨ (48 ≤ n ∧ n ≤ 57) ∨ (97 ≤ n ∧ n ≤ 122)) →
      (Char.ofNat n).toLower = Char.ofNat n ∧ Char.ofNat n ≠ ';' ∧
      Char.ofNat n ≠ '"' ∧ Char.ofNat n ≠ '/' ∧ isSpace (Char.ofNat n) = false := by
    decide +kernel
  have := key c.toNat hlt hn
  rw [Char.ofNat_toNat] at this
  obtain ⟨h1, h2, h3, h4, h5⟩ := this
  exact ⟨h1, h2, h3, h4, hlt, h5⟩

theorem lower_plain {b : Str} (h : ∀ c ∈ b, c.toLower = c) : lower b = b := by
  unfold lower
  induction b with
  | nil => rfl
  | cons c b ih =>
    rw [List.map_cons, h c List.mem_cons_self, ih fun d hd => h d (List.mem_cons_of_mem _ hd)]

theorem strip_none {p : Char → Bool} {s : Str} (h : ∀ c ∈ s, p c = false) : strip p s = s := by
  have key : ∀ t : Str, (∀ c ∈ t, p c = false) → t.dropWhile p = t := by
    intro t ht
    cases t with
    | nil => rfl
    | cons b t => rw [List.dropWhile_cons_of_neg (by rw [ht b List.mem_cons_self]; decide)]
  unfold strip lstrip rstrip
  rw [key s h, key _ (fun c hc => h c (List.mem_reverse.1 hc)), List.reverse_reverse]

theorem lower_multipartType {b : Str} (h : PlainBoundary b) : lower (multipartType b) = multipartType b := by
  have e : ∀ a c : Str, lower (a ++ c) = lower a ++ lower c := fun a c => by unfold lower; rw [List.map_append]
  unfold multipartType
  rw [e, lower_plain fun c hc => (plain_props c (h.2 c hc)).1]
  rfl

theorem multipartType_not_urlencoded {b : Str} (h : PlainBoundary b) :
    ¬ Occurs "application/x-www-form-urlencoded".toList (multipartType b) := by
  rintro ⟨x, y, e⟩
  have e1 : (x ++ "application".toList) ++ '/' :: ("x-www-form-urlencoded".toList ++ y) =
      "multipart".toList ++ '/' :: ("form-data; boundary=".toList ++ b) := by
    have e2 : "application/x-www-form-urlencoded".toList =
        "application".toList ++ '/' :: "x-www-form-urlencoded".toList := rfl
    have e3 : multipartType b = "multipart".toList ++ '/' :: ("form-data; boundary=".toList ++ b) := rfl
    rw [e3, e2] at e
    rw [e]
    simp only [List.append_assoc, List.cons_append]
  have hs : '/' ∉ "form-data; boundary=".toList ++ b := by
    intro hm
    rcases List.mem_append.1 hm with hm | hm
    · revert hm; decide
    · exact (plain_props _ (h.2 _ hm)).2.2.2.1 rfl
  have := congrArg List.length (split_unique (by decide) hs e1)
  rw [List.length_append] at this
  have h1 : "application".toList.length = 11 := rfl
  have h2 : "multipart".toList.length = 9 := rfl
  omega

theorem dash_filter {b : Str} (h : PlainBoundary b) :
    ("--".toList ++ b).filter (fun c => decide (c.toNat < 128)) = "--".toList ++ b := by
  rw [List.filter_eq_self]
  intro c hc
  rcases List.mem_append.1 hc with hc | hc
  · have : ∀ c ∈ "--".toList, decide (c.toNat < 128) = true := by decide
    exact this c hc
  · exact decide_eq_true (plain_props c (h.2 c hc)).2.2.2.2.1

theorem dashes_filter {b : Str} (h : PlainBoundary b) :
    ("--".toList ++ b ++ "--".toList).filter (fun c => decide (c.toNat < 128)) = "--".toList ++ b ++ "--".toList := by
  rw [List.filter_append, dash_filter h]
  rfl

theorem extractToken_multipart {b body field : Str} (h : PlainBoundary b) :
    extractToken body (multipartType b) field =
      (splitSub ("--".toList ++ b) body).findSome? (partToken field ("--".toList ++ b ++ "--".toList)) := by
  have hu : hasSub "application/x-www-form-urlencoded".toList (multipartType b) = false := by
    cases hh : hasSub "application/x-www-form-urlencoded".toList (multipartType b) with
    | false => rfl
    | true => exact absurd (cut_isSome hh) (multipartType_not_urlencoded h)
  have hm : hasSub "multipart/form-data".toList (multipartType b) = true :=
    cut_of_occurs ⟨[], "; boundary=".toList ++ b, rfl⟩
  have hsp : strip isSpace b = b := strip_none fun c hc => (plain_props c (h.2 c hc)).2.2.2.2.2
  have hq : strip (· = '"') b = b :=
    strip_none fun c hc => decide_eq_false (plain_props c (h.2 c hc)).2.2.1
  unfold extractToken
  simp only []
  rw [lower_multipartType h, hu, hm, if_neg (by decide), if_pos rfl,
    boundaryOf_type b h.1 (fun hm => (plain_props _ (h.2 _ hm)).2.1 rfl)]
  dsimp only
  rw [hsp, hq, if_neg h.1, dash_filter h, dashes_filter h]

theorem splitSub_parts (d last : Str) (hne : d ≠ []) (hlast : ¬ Occurs d last) (ps : List Str)
    (h : ∀ p ∈ ps, OnlyAtEnd d p) :
    splitSub d (ps.flatMap (fun p => p ++ d) ++ last) = ps ++ [last] := by
  refine splitSubF_parts d last hne hlast ps h _ ?_
  rw [List.length_append]
  have : ∀ l : List Str, l.length ≤ (l.flatMap (fun p => p ++ d)).length := by
    intro l
    induction l with
    | nil => simp
    | cons a l ih =>
      rw [List.flatMap_cons, List.length_append, List.length_append, List.length_cons]
      have := List.length_pos_iff.2 hne
      omega
  have := this ps
  omega

theorem extractToken_form {b field tok : Str} (h : PlainBoundary b) (before : List Part) (p : Part) (after : List Part)
    (hd : ∀ q ∈ before ++ p :: after, OnlyAtEnd ("--".toList ++ b) q.text)
    (hh : ∀ q ∈ before ++ p :: after, OnlyAtEnd "\r\n\r\n".toList ("\r\n".toList ++ q.headers))
    (hb : ∀ q ∈ before, ¬ Occurs ("name=\"".toList ++ field ++ ['"']) ("\r\n".toList ++ q.headers))
    (hp : NamesField field ("\r\n".toList ++ p.headers))
    (hc : p.content = tok) (ht : ∀ c ∈ tok, c ≠ '\r' ∧ c ≠ '\n') :
    extractToken (multipartBody b (before ++ p :: after)) (multipartType b) field = some tok := by
  rw [extractToken_multipart h]
  have hne : "--".toList ++ b ≠ [] := by simp
  have hlast : ¬ Occurs ("--".toList ++ b) "--\r\n".toList := by
    rintro ⟨x, y, e⟩
    have hl := congrArg List.length e
    obtain ⟨c, b', rfl⟩ : ∃ c b', b = c :: b' := by
      cases hb : b with
      | nil => exact absurd hb h.1
      | cons c b' => exact ⟨c, b', rfl⟩
    have hmem : c ≠ '\r' ∧ c ≠ '\n' := by
      have := h.2 c List.mem_cons_self
      constructor <;> rintro rfl <;> revert this <;> decide
    have h4 : "--\r\n".toList = ['-', '-', '\r', '\n'] := rfl
    have h2 : "--".toList = ['-', '-'] := rfl
    rw [h4, h2] at e
    match x, e with
    | [], e => simp at e; exact hmem.1 e.1.symm
    | [_], e => simp at e
    | [_, _], e => simp at e
    | [_, _, _], e => simp at e
    | [_, _, _, _], e => simp at e
    | _ :: _ :: _ :: _ :: _ :: _, e => simp at e
  have hbody : multipartBody b (before ++ p :: after) =
      (([] : Str) :: (before ++ p :: after).map Part.text).flatMap (fun q => q ++ ("--".toList ++ b)) ++ "--\r\n".toList := by
    unfold multipartBody
    rw [List.flatMap_cons, List.nil_append, List.flatMap_map]
  have hfirst : OnlyAtEnd ("--".toList ++ b) [] := by
    intro a r e
    have := congrArg List.length e
    rw [List.nil_append, List.length_append, List.length_append, List.length_append] at this
    apply List.length_eq_zero_iff.1
    rw [List.length_append] at this
    omega
  rw [hbody, splitSub_parts _ _ hne hlast]
  · obtain ⟨e, hE, he⟩ : ∃ e, "--".toList ++ b ++ "--".toList = e ∧ startsWith e "--".toList = true :=
      ⟨_, rfl, rfl⟩
    rw [hE, List.cons_append, List.findSome?_cons, partToken_nil]
    dsimp only
    rw [List.map_append, List.map_cons, List.append_assoc, findSome?_append_none _ (before.map Part.text), List.cons_append,
      List.findSome?_cons, partToken_part _ _ p he (hh p (by simp)), if_pos (namesField_names _ _ hp), hc, strip_crlf tok ht]
    intro x hx
    obtain ⟨q, hq, rfl⟩ := List.mem_map.1 hx
    rw [partToken_part _ _ q he (hh q (by simp [hq])), if_neg]
    exact fun hn => hb q hq (namesField_occurs _ _ hn)
  · intro q hq
    rcases List.mem_cons.1 hq with rfl | hq
    · exact hfirst
    · obtain ⟨r, hr, rfl⟩ := List.mem_map.1 hq
      exact hd r hr

end Verif.Csrf
