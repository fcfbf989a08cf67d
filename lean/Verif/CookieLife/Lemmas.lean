import Verif.CookieLife.Spec
import Verif.SetCookie.Props
import Verif.Cookies.Props
import Verif.SignedUrl.Lemmas

/-!
# Lemmas for C165
-/

namespace Verif.CookieLife

open Verif Spec Verif.Responses Verif.Responses.Spec Verif.SetCookie Verif.SetCookie.Spec

/-- The place of a cookie of the whole site. -/
def spot (host key : Str) : Key := (key, host, "/".toList)

/-- What a call leaves in its place. -/
def left (date : Int → Str) (c : Client) : Op → Option Str
  | .set _ v o => if Ended date c o then none else some (Cookies.quote v)
  | .delete _ _ => none

/-- What a call does to a jar. -/
def effect (date : Int → Str) (host : Str) (jar : Jar) (x : Client × Op) : Jar := fun k =>
  if k = spot host x.2.key then left date x.1 x.2 else jar k

theorem wanted_site (c : Client) (key : Str) (o : Opts) (h : Site o) : wanted c key o = some (spot c.host key) := by
  have h1 : given o.domain = none := by rw [h.2]; rfl
  have h2 : pathOf c (given o.path) = "/".toList := by rw [h.1]; rfl
  unfold wanted
  rw [h1, h2]
  rfl

theorem apply_good (date : Int → Str) (hs : Headers) (op : Op) (h : Good date op) :
    ∃ f, op.apply date hs = some (hs ++ [("set-cookie".toList, f)]) ∧
      ∀ (c : Client) (jar : Jar), receive c jar f = effect date c.host jar (c, op) := by
  cases op with
  | set k v o =>
    obtain ⟨h1, h2, h3, h4⟩ := h
    obtain ⟨f, e1, e2⟩ := C59_set_partial date hs k v o h1 h2 h3
    refine ⟨f, e1, fun c jar => funext fun x => ?_⟩
    rw [e2 c jar x]
    unfold stored effect
    rw [wanted_site c k o h4]
    by_cases e : x = spot c.host k
    · have e1 : some (spot c.host k) = some x := by rw [e]
      have e2 : x = spot c.host (Op.set k v o).key := e
      rw [if_pos e1]
      simp only [if_pos e2]
      rfl
    · have e1 : ¬ some (spot c.host k) = some x := fun h => e (Option.some.inj h).symm
      have e2 : ¬ x = spot c.host (Op.set k v o).key := e
      rw [if_neg e1]
      simp only [if_neg e2]
  | delete k o =>
    obtain ⟨h1, h2, h3, h4⟩ := h
    obtain ⟨f, e1, e2⟩ := C59_delete_partial date hs k o h1 h2 h3
    refine ⟨f, e1, fun c jar => funext fun x => ?_⟩
    rw [e2 c jar x]
    unfold effect
    rw [wanted_site c k o h4]
    by_cases e : x = spot c.host k
    · have e1 : some (spot c.host k) = some x := by rw [e]
      have e2 : x = spot c.host (Op.delete k o).key := e
      rw [if_pos e1]
      simp only [if_pos e2]
      rfl
    · have e1 : ¬ some (spot c.host k) = some x := fun h => e (Option.some.inj h).symm
      have e2 : ¬ x = spot c.host (Op.delete k o).key := e
      rw [if_neg e1]
      simp only [if_neg e2]

theorem respond_good (date : Int → Str) (ops : List Op) (hs : Headers) (h : ∀ op ∈ ops, Good date op) :
    ∃ fs : List Str, respond date ops hs = some (hs ++ fs.map fun f => ("set-cookie".toList, f)) ∧
      ∀ (c : Client) (jar : Jar), fs.foldl (receive c) jar =
        (ops.map fun op => (c, op)).foldl (effect date c.host) jar := by
  induction ops generalizing hs with
  | nil => exact ⟨[], by rw [List.map_nil, List.append_nil]; rfl, fun _ _ => rfl⟩
  | cons op ops ih =>
    obtain ⟨f, e1, e2⟩ := apply_good date hs op (h op List.mem_cons_self)
    obtain ⟨fs, e3, e4⟩ := ih (hs ++ [("set-cookie".toList, f)]) fun x hx => h x (List.mem_cons_of_mem _ hx)
    refine ⟨f :: fs, ?_, fun c jar => ?_⟩
    · rw [respond, e1, Option.bind_some, e3, List.append_assoc]
      rfl
    · rw [List.foldl_cons, e2, e4, List.map_cons, List.foldl_cons]

theorem fields_map (fs : List Str) :
    fields (fs.map fun f => ("set-cookie".toList, f)) "set-cookie".toList = fs := by
  induction fs with
  | nil => rfl
  | cons f fs ih =>
    have e : fields (("set-cookie".toList, f) :: fs.map fun f => ("set-cookie".toList, f)) "set-cookie".toList =
        f :: fields (fs.map fun f => ("set-cookie".toList, f)) "set-cookie".toList := rfl
    rw [List.map_cons, e, ih]

theorem lives_good (date : Int → Str) (host : Str) {jar jar' : Jar} {history : List (Client × List Op)}
    (h : Lives date jar history jar') (hh : ∀ x ∈ history, x.1.host = host)
    (hg : ∀ x ∈ history, ∀ op ∈ x.2, Good date op) :
    jar' = (calls history).foldl (effect date host) jar := by
  induction h with
  | nil jar => rfl
  | cons jar jar' c ops hs rest hr _ ih =>
    have ih := ih (fun x hx => hh x (List.mem_cons_of_mem _ hx)) (fun x hx => hg x (List.mem_cons_of_mem _ hx))
    obtain ⟨fs, e1, e2⟩ := respond_good date ops [] (hg _ List.mem_cons_self)
    rw [hr, List.nil_append] at e1
    have hc : c.host = host := hh _ List.mem_cons_self
    rw [ih]
    unfold calls answered
    rw [List.flatMap_cons, List.foldl_append, Option.some.inj e1, fields_map, e2, hc]

/-- What is in the jar is the last word. -/
theorem effects_last (date : Int → Str) (host : Str) (xs : List (Client × Op)) :
    (∀ n, xs.foldl (effect date host) (fun _ => none) (spot host n) = (lastWord date xs n).map Cookies.quote) ∧
    ∀ k, (∀ n, k ≠ spot host n) → xs.foldl (effect date host) (fun _ => none) k = none := by
  have key : ∀ ys : List (Client × Op),
      (∀ n, ys.reverse.foldl (effect date host) (fun _ => none) (spot host n) =
        (lastWord date ys.reverse n).map Cookies.quote) ∧
      ∀ k, (∀ n, k ≠ spot host n) → ys.reverse.foldl (effect date host) (fun _ => none) k = none := by
    intro ys
    induction ys with
    | nil => exact ⟨fun _ => rfl, fun _ _ => rfl⟩
    | cons y ys ih =>
      rw [List.reverse_cons, List.foldl_append]
      refine ⟨fun n => ?_, fun k hk => ?_⟩
      · show (if spot host n = spot host y.2.key then left date y.1 y.2 else
          ys.reverse.foldl (effect date host) (fun _ => none) (spot host n)) = _
        by_cases e : y.2.key = n
        · subst e
          rw [if_pos rfl]
          unfold lastWord
          rw [List.filter_append, List.filter_cons_of_pos (by simp), List.filter_nil, List.getLast?_concat]
          obtain ⟨c, op⟩ := y
          cases op with
          | set k v o =>
            simp only [left]
            split <;> rfl
          | delete k o => rfl
        · have hne : spot host n ≠ spot host y.2.key := fun h => e (congrArg Prod.fst h).symm
          rw [if_neg hne, ih.1 n]
          unfold lastWord
          rw [List.filter_append, List.filter_cons_of_neg (by simpa using e), List.filter_nil, List.append_nil]
      · show (if k = spot host y.2.key then left date y.1 y.2 else
          ys.reverse.foldl (effect date host) (fun _ => none) k) = _
        rw [if_neg (hk _), ih.2 k hk]
  have := key xs.reverse
  rwa [List.reverse_reverse] at this

/-- Cookies between semicolons and blanks. -/
theorem join_blank (x : Str) (xs : List Str) :
    joinWith "; ".toList (x :: xs) = joinWith [';'] (x :: xs.map fun y => ' ' :: y) := by
  induction xs generalizing x with
  | nil => rfl
  | cons y ys ih =>
    have h := ih y
    have e1 : joinWith "; ".toList (x :: y :: ys) = x ++ "; ".toList ++ joinWith "; ".toList (y :: ys) := rfl
    have e2 : joinWith [';'] (x :: (y :: ys).map fun y => ' ' :: y) =
      x ++ [';'] ++ joinWith [';'] ((' ' :: y) :: ys.map fun y => ' ' :: y) := rfl
    have e3 : joinWith [';'] ((' ' :: y) :: ys.map fun y => ' ' :: y) =
        ' ' :: joinWith [';'] (y :: ys.map fun y => ' ' :: y) := by
      cases ys <;> rfl
    have e4 : ("; ".toList : Str) = [';', ' '] := by decide
    rw [e1, e2, e3, h, e4, List.append_assoc, List.append_assoc]
    rfl

/-- What is read from the header of a browser. -/
theorem parse_sent (c : Str × Str) (cs : List (Str × Str)) (hn : ∀ kv ∈ c :: cs, Cookies.Spec.Legal kv.1)
    (k : Str) :
    aget (Cookies.parse (joinWith "; ".toList ((c :: cs).map fun kv => kv.1 ++ '=' :: Cookies.quote kv.2))) k =
      Cookies.Spec.lookup ((c :: cs).map fun kv => (kv.1, Url.unquote kv.2)) k := by
  have hblank : Cookies.Spec.Blank [] := fun c hc => by cases hc
  have hsp : Cookies.Spec.Blank [' '] := fun c hc => by rw [List.mem_singleton.1 hc]; decide
  let f : Str → Str × Str → Cookies.Spec.Written := fun b kv => ⟨b, kv.1, [], [], Cookies.quote kv.2, []⟩
  have hok : ∀ b, Cookies.Spec.Blank b → ∀ kv ∈ c :: cs, (f b kv).Ok := by
    intro b hb kv hkv
    have hl := Cookies.legal_all _ (hn kv hkv).2
    refine ⟨hb, hblank, hblank, hblank, Cookies.legal_trimmed _ hl, Cookies.quote_trimmed _, ?_, ?_,
      Cookies.quote_no_semi _⟩
    · intro hm; exact absurd ((List.all_eq_true.1 hl) _ hm) (by decide)
    · intro hm; exact absurd ((List.all_eq_true.1 hl) _ hm) (by decide)
  have htext : ∀ b kv, (f b kv).text = b ++ (kv.1 ++ '=' :: Cookies.quote kv.2) := by
    intro b kv
    simp [f, Cookies.Spec.Written.text]
  have hval : ∀ b kv, ((f b kv).name, Url.unquote (Cookies.unquoteCookie (f b kv).value)) =
      (kv.1, Url.unquote kv.2) := by
    intro b kv
    simp only [f, Cookies.unquote_quote]
  have hmain := Cookies.C48_parse (f [] c :: cs.map (f [' '])) (List.cons_ne_nil _ _) (by
    intro w hw
    rcases List.mem_cons.1 hw with e | e
    · rw [e]; exact hok [] hblank c List.mem_cons_self
    · obtain ⟨kv, hkv, e⟩ := List.mem_map.1 e
      rw [← e]
      exact hok [' '] hsp kv (List.mem_cons_of_mem _ hkv)) k
  rw [List.map_cons, join_blank]
  have e1 : (f [] c :: cs.map (f [' '])).map Cookies.Spec.Written.text =
      (c.1 ++ '=' :: Cookies.quote c.2) ::
        (cs.map fun kv => kv.1 ++ '=' :: Cookies.quote kv.2).map fun y => ' ' :: y := by
    rw [List.map_cons, htext, List.map_map, List.map_map]
    rw [List.nil_append]
    refine congrArg (List.cons _) (List.map_congr_left fun kv _ => ?_)
    exact htext [' '] kv
  have e2 : (f [] c :: cs.map (f [' '])).map (fun w => (w.name, Url.unquote (Cookies.unquoteCookie w.value))) =
      (c :: cs).map fun kv => (kv.1, Url.unquote kv.2) := by
    rw [List.map_cons, hval [] c, List.map_map, List.map_cons]
    exact congrArg (List.cons _) (List.map_congr_left fun kv _ => hval [' '] kv)
  rw [e1, e2] at hmain
  exact hmain

/-- The dictionary of one header. -/
theorem cookies_one (h : Str) : Cookies.cookies [h] = Cookies.parse h := by
  have hn : ((Cookies.parse h).map (·.1)).Nodup := Environ.nodup_aupdate [] _ (by simp)
  exact SignedUrl.aupdate_nodup [] (Cookies.parse h) (by rw [List.nil_append]; exact hn)

/-- The last of two lists. -/
theorem lookup_append (a b : List (Str × Str)) (k : Str) :
    Cookies.Spec.lookup (a ++ b) k = (Cookies.Spec.lookup b k).or (Cookies.Spec.lookup a k) := by
  unfold Cookies.Spec.lookup
  rw [List.filter_append, List.getLast?_append]
  cases (b.filter fun kv => kv.1 = k).getLast? <;> rfl

/-- A dictionary has each name once. -/
theorem lookup_parse (h k : Str) : Cookies.Spec.lookup (Cookies.parse h) k = aget (Cookies.parse h) k := by
  have e := Cookies.aget_aupdate [] (Cookies.parse h) k
  have e' : aupdate [] (Cookies.parse h) = Cookies.parse h := cookies_one h
  rw [e'] at e
  rw [e]
  cases Cookies.Spec.lookup (Cookies.parse h) k <;> rfl

/-- A list with one value for a name. -/
theorem lookup_one (cs : List (Str × Str)) (n w : Str) (h : ∀ kv ∈ cs, kv.1 = n → kv.2 = w)
    (hm : (n, w) ∈ cs) : Cookies.Spec.lookup cs n = some w := by
  unfold Cookies.Spec.lookup
  have hm' : (n, w) ∈ cs.filter fun kv => kv.1 = n := List.mem_filter.2 ⟨hm, by simp⟩
  cases hl : (cs.filter fun kv => kv.1 = n).getLast? with
  | none => rw [List.getLast?_eq_none_iff] at hl; rw [hl] at hm'; cases hm'
  | some x =>
    have hx := List.mem_filter.1 (List.mem_of_getLast? hl)
    rw [Option.map_some, h x hx.1 (by simpa using hx.2)]

/-- A list without the name. -/
theorem lookup_none (cs : List (Str × Str)) (n : Str) (h : ∀ kv ∈ cs, kv.1 ≠ n) : Cookies.Spec.lookup cs n = none := by
  unfold Cookies.Spec.lookup
  have : cs.filter (fun kv => kv.1 = n) = [] := List.filter_eq_nil_iff.2 fun kv hkv => by simpa using h kv hkv
  rw [this]
  rfl

end Verif.CookieLife
