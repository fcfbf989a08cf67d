import Verif.Params.Spec

namespace Verif.Params

open Spec

/-! ## All or nothing -/

theorem allOf_mem {α β : Type} (g : β → Option α) :
    ∀ (l : List β) (ws : List α), allOf (l.map g) = some ws → ∀ w ∈ ws, ∃ v ∈ l, g v = some w
  | [], ws, h, w, hw => by cases h; cases hw
  | v :: l, ws, h, w, hw => by
    rw [List.map_cons] at h
    cases e : g v with
    | none => rw [e] at h; simp [allOf] at h
    | some a =>
      rw [e] at h
      simp only [allOf, Option.map_eq_some_iff] at h
      obtain ⟨r, hr, he⟩ := h
      subst he
      rcases List.mem_cons.mp hw with e' | hw
      · exact ⟨v, List.mem_cons_self, by rw [e, e']⟩
      · obtain ⟨v', hv', he'⟩ := allOf_mem g l r hr w hw
        exact ⟨v', List.mem_cons_of_mem _ hv', he'⟩

/-! ## Types -/

theorem castTo_union (cs : List Cast) (b : Bool) (v : Val) : castTo (.union cs b) v =
    if v.isNone && b then some .none
    else if strLast cs v then
      match castFirst true cs v with
      | some w => some w
      | none => some (.str (strOf v))
    else castFirst false cs v := by
  rw [castTo]; cases castFirst true cs v <;> rfl

theorem mem_str {cs : List Cast} (h : cs.any Cast.isStr = true) : Cast.str ∈ cs := by
  obtain ⟨c, hc, hs⟩ := List.any_eq_true.mp h
  cases c <;> simp [Cast.isStr] at hs
  exact hc

mutual
theorem typed : ∀ (c : Cast) (v w : Val), NoTuple c → castTo c v = some w → HasType c w
  | .any, v, w, _, h => .any w
  | .str, v, w, _, h => by
    simp only [castTo, Option.some.injEq] at h; subst h; exact .str _
  | .int, v, w, _, h => by
    rw [castTo] at h
    cases v with
    | str s =>
      simp only [toInt, Option.map_eq_some_iff] at h
      obtain ⟨n, _, e⟩ := h
      subst e; exact .int n
    | int n => simp only [toInt, Option.some.injEq] at h; subst h; exact .int n
    | bool b => simp only [toInt, Option.some.injEq] at h; subst h; exact .int _
    | none => simp [toInt] at h
    | list vs => simp [toInt] at h
    | tuple vs => simp [toInt] at h
    | obj n => simp [toInt] at h
  | .bool, v, w, _, h => by
    rw [castTo] at h
    cases v with
    | str s =>
      simp only [toBool] at h
      split at h
      · cases h; exact .bool _
      · split at h
        · cases h; exact .bool _
        · exact absurd h (by simp)
    | int n => cases h; exact .bool _
    | bool b => cases h; exact .bool _
    | none => cases h; exact .bool _
    | list vs => cases h; exact .bool _
    | tuple vs => cases h; exact .bool _
    | obj n => cases h; exact .bool _
  | .list c, v, w, hn, h => by
    cases hn with
    | list _ hn =>
      rw [castTo, Option.map_eq_some_iff] at h
      obtain ⟨ws, hws, e⟩ := h
      subst e
      refine .list c ws fun x hx => ?_
      obtain ⟨y, _, hy⟩ := allOf_mem _ _ _ hws x hx
      exact typed c y x hn hy
  | .tupleOf c, v, w, hn, h => by
    cases hn with
    | tupleOf _ hn =>
      rw [castTo, Option.map_eq_some_iff] at h
      obtain ⟨ws, hws, e⟩ := h
      subst e
      refine .tupleOf c ws fun x hx => ?_
      obtain ⟨y, _, hy⟩ := allOf_mem _ _ _ hws x hx
      exact typed c y x hn hy
  | .tuple cs, v, w, hn, h => nomatch hn
  | .union cs b, v, w, hn, h => by
    cases hn with
    | union _ _ hn =>
      rw [castTo_union] at h
      split at h
      · rename_i hb
        cases h
        rw [Bool.and_eq_true] at hb
        rw [hb.2]
        exact .unionNone cs
      · split at h
        · rename_i hl
          unfold strLast at hl
          rw [Bool.and_eq_true, Bool.and_eq_true] at hl
          cases e : castFirst true cs v with
          | some x =>
            rw [e] at h
            cases h
            obtain ⟨c, hc, ht⟩ := typedFirst true cs v w hn e
            exact .union cs b c w hc ht
          | none =>
            rw [e] at h
            cases h
            exact .union cs b .str _ (mem_str hl.1.2) (.str _)
        · obtain ⟨c, hc, ht⟩ := typedFirst false cs v w hn h
          exact .union cs b c w hc ht
  | .call f, v, w, _, h => by rw [castTo] at h; exact .call f v w h

theorem typedFirst (k : Bool) : ∀ (cs : List Cast) (v w : Val), NoTuples cs →
    castFirst k cs v = some w → ∃ c ∈ cs, HasType c w
  | [], v, w, _, h => by simp [castFirst] at h
  | c :: cs, v, w, hn, h => by
    cases hn with
    | cons _ _ h1 h2 =>
      rw [castFirst] at h
      split at h
      · obtain ⟨d, hd, ht⟩ := typedFirst k cs v w h2 h
        exact ⟨d, List.mem_cons_of_mem _ hd, ht⟩
      · cases e : castTo c v with
        | some x =>
          rw [e] at h
          cases h
          exact ⟨c, List.mem_cons_self, typed c v w h1 e⟩
        | none =>
          rw [e] at h
          obtain ⟨d, hd, ht⟩ := typedFirst k cs v w h2 h
          exact ⟨d, List.mem_cons_of_mem _ hd, ht⟩
end

/-! ## Numbers -/

theorem digit_ofNat : ∀ d, d < 10 → digit (Char.ofNat (48 + d)) = some d := by decide +kernel

theorem digit_not_space : ∀ d, d < 10 → isSpace (Char.ofNat (48 + d)) = false := by decide +kernel

theorem digit_not_under : ∀ d, d < 10 → Char.ofNat (48 + d) ≠ '_' := by decide +kernel

theorem digit_not_sign : ∀ d, d < 10 → Char.ofNat (48 + d) ≠ '-' ∧ Char.ofNat (48 + d) ≠ '+' := by
  decide +kernel

theorem digit_some {c : Char} {d : Nat} (h : digit c = some d) :
    d < 10 ∧ c = Char.ofNat (48 + d) := by
  unfold digit at h
  split at h
  · rename_i hc
    cases h
    have h1 : 48 ≤ c.toNat := hc.1
    have h2 : c.toNat ≤ 57 := hc.2
    have e : '0'.toNat = 48 := rfl
    rw [e]
    refine ⟨by omega, ?_⟩
    have : 48 + (c.toNat - 48) = c.toNat := by omega
    rw [this]
    exact (Char.ofNat_toNat c).symm
  · exact absurd h (by simp)

theorem digitsFrom_cons (acc : Nat) (c : Char) (s : Str) (h : c ≠ '_') :
    digitsFrom acc (c :: s) = match digit c with
      | some d => digitsFrom (acc * 10 + d) s
      | none => none := by
  rw [digitsFrom]
  · cases digit c <;> rfl
  · intro c' cs' he; exact absurd he h

theorem digitsFrom_append : ∀ (acc : Nat) (s t : Str) (n : Nat),
    digitsFrom acc s = some n → digitsFrom acc (s ++ t) = digitsFrom n t := by
  intro acc s
  induction acc, s using digitsFrom.induct with
  | case1 acc =>
    intro t n h
    simp only [digitsFrom, Option.some.injEq] at h
    rw [h]; rfl
  | case2 acc c cs d e ih =>
    intro t n h
    rw [digitsFrom, e] at h
    rw [List.cons_append, List.cons_append, digitsFrom, e]
    exact ih t n h
  | case3 acc c cs e =>
    intro t n h
    rw [digitsFrom, e] at h
    exact absurd h (by simp)
  | case4 acc c cs hx d e ih =>
    intro t n h
    obtain ⟨hd, hc⟩ := digit_some e
    have hu : c ≠ '_' := by rw [hc]; exact digit_not_under d hd
    rw [digitsFrom_cons _ _ _ hu, e] at h
    rw [List.cons_append, digitsFrom_cons _ _ _ hu, e]
    exact ih t n h
  | case5 acc c cs hx e =>
    intro t n h
    rw [digitsFrom, e] at h
    · exact absurd h (by simp)
    · exact hx

theorem digits_append {s : Str} {n : Nat} (t : Str) (h : digits s = some n) :
    digits (s ++ t) = digitsFrom n t := by
  cases s with
  | nil => exact absurd h (by simp [digits])
  | cons c s =>
    rw [List.cons_append, digits]
    rw [digits] at h
    cases e : digit c with
    | none => rw [e] at h; exact absurd h (by simp)
    | some k =>
      rw [e] at h
      exact digitsFrom_append k s t n h

theorem digits_py {s : Str} {n : Nat} (h : PyDecimal s n) : digits s = some n := by
  induction h with
  | one d hd => rw [digits, digit_ofNat d hd]; rfl
  | more s n d _ hd ih =>
    rw [digits_append _ ih, digitsFrom_cons _ _ _ (digit_not_under d hd), digit_ofNat d hd]
    simp only [digitsFrom, Option.some.injEq]
    omega
  | under s n d _ hd ih =>
    rw [digits_append _ ih, digitsFrom, digit_ofNat d hd]
    simp only [digitsFrom, Option.some.injEq]
    omega

theorem digitsFrom_sound : ∀ (acc : Nat) (s p : Str) (n : Nat), PyDecimal p acc →
    digitsFrom acc s = some n → PyDecimal (p ++ s) n := by
  intro acc s
  induction acc, s using digitsFrom.induct with
  | case1 acc =>
    intro p n hp h
    simp only [digitsFrom, Option.some.injEq] at h
    subst h; simpa using hp
  | case2 acc c cs d e ih =>
    intro p n hp h
    rw [digitsFrom, e] at h
    obtain ⟨hd, hc⟩ := digit_some e
    have h2 := ih (p ++ ['_', c]) n (by rw [hc, Nat.mul_comm]; exact .under p acc d hp hd) h
    simpa using h2
  | case3 acc c cs e =>
    intro p n hp h
    rw [digitsFrom, e] at h
    exact absurd h (by simp)
  | case4 acc c cs hx d e ih =>
    intro p n hp h
    rw [digitsFrom, e] at h
    case x_1 => exact hx
    obtain ⟨hd, hc⟩ := digit_some e
    have h2 := ih (p ++ [c]) n (by rw [hc, Nat.mul_comm]; exact .more p acc d hp hd) h
    simpa using h2
  | case5 acc c cs hx e =>
    intro p n hp h
    rw [digitsFrom, e] at h
    · exact absurd h (by simp)
    · exact hx

theorem digits_sound (s : Str) (n : Nat) (h : digits s = some n) : PyDecimal s n := by
  cases s with
  | nil => exact absurd h (by simp [digits])
  | cons c cs =>
    rw [digits] at h
    cases e : digit c with
    | none => rw [e] at h; exact absurd h (by simp)
    | some d =>
      rw [e] at h
      obtain ⟨hd, hc⟩ := digit_some e
      exact digitsFrom_sound d cs [c] n (by rw [hc]; exact .one d hd) h

theorem pyDecimal_ends {s : Str} {n : Nat} (h : PyDecimal s n) :
    (∃ c r, s = c :: r ∧ isSpace c = false ∧ c ≠ '-' ∧ c ≠ '+') ∧
      ∃ c r, s = r ++ [c] ∧ isSpace c = false := by
  induction h with
  | one d hd =>
    exact ⟨⟨_, [], rfl, digit_not_space d hd, digit_not_sign d hd⟩,
      ⟨_, [], rfl, digit_not_space d hd⟩⟩
  | more s n d _ hd ih =>
    obtain ⟨⟨c, r, e, h1, h2⟩, _⟩ := ih
    exact ⟨⟨c, _, by rw [e]; rfl, h1, h2⟩, ⟨_, s, rfl, digit_not_space d hd⟩⟩
  | under s n d _ hd ih =>
    obtain ⟨⟨c, r, e, h1, h2⟩, _⟩ := ih
    exact ⟨⟨c, _, by rw [e]; rfl, h1, h2⟩,
      ⟨_, s ++ ['_'], by rw [List.append_assoc]; rfl, digit_not_space d hd⟩⟩

theorem pySigned_ends {s : Str} {n : Int} (h : PySigned s n) :
    (∃ c r, s = c :: r ∧ isSpace c = false) ∧ ∃ c r, s = r ++ [c] ∧ isSpace c = false := by
  cases h with
  | plain s n h =>
    obtain ⟨⟨c, r, e, h1, _⟩, h2⟩ := pyDecimal_ends h
    exact ⟨⟨c, r, e, h1⟩, h2⟩
  | plus s n h =>
    obtain ⟨_, ⟨c, r, e, h1⟩⟩ := pyDecimal_ends h
    exact ⟨⟨_, s, rfl, by decide⟩, ⟨c, '+' :: r, by rw [e]; rfl, h1⟩⟩
  | minus s n h =>
    obtain ⟨_, ⟨c, r, e, h1⟩⟩ := pyDecimal_ends h
    exact ⟨⟨_, s, rfl, by decide⟩, ⟨c, '-' :: r, by rw [e]; rfl, h1⟩⟩

theorem dropWhile_all (p : Char → Bool) : ∀ (a s : Str), (∀ c ∈ a, p c = true) →
    (a ++ s).dropWhile p = s.dropWhile p
  | [], _, _ => rfl
  | c :: a, s, h => by
    rw [List.cons_append, List.dropWhile_cons, h c List.mem_cons_self]
    exact dropWhile_all p a s fun x hx => h x (List.mem_cons_of_mem _ hx)

theorem dropWhile_split (p : Char → Bool) : ∀ (s : Str),
    ∃ a, s = a ++ s.dropWhile p ∧ ∀ c ∈ a, p c = true
  | [] => ⟨[], rfl, by simp⟩
  | c :: s => by
    rw [List.dropWhile_cons]
    cases h : p c with
    | false => exact ⟨[], rfl, by simp⟩
    | true =>
      obtain ⟨a, e, ha⟩ := dropWhile_split p s
      refine ⟨c :: a, ?_, ?_⟩
      · rw [if_pos rfl, List.cons_append, ← e]
      · intro x hx
        rcases List.mem_cons.mp hx with e' | hx
        · rw [e', h]
        · exact ha x hx

theorem strip_around (p : Char → Bool) (a t b : Str) (ha : ∀ c ∈ a, p c = true)
    (hb : ∀ c ∈ b, p c = true) (h1 : ∃ c r, t = c :: r ∧ p c = false)
    (h2 : ∃ c r, t = r ++ [c] ∧ p c = false) : strip p (a ++ (t ++ b)) = t := by
  obtain ⟨c, r, e, hc⟩ := h1
  obtain ⟨c', r', e', hc'⟩ := h2
  unfold strip rstrip lstrip
  rw [dropWhile_all p a _ ha]
  have h3 : (t ++ b).dropWhile p = t ++ b := by
    rw [e, List.cons_append, List.dropWhile_cons, hc]; rfl
  rw [h3, List.reverse_append, dropWhile_all p b.reverse _ (by simpa using hb)]
  have h4 : t.reverse.dropWhile p = t.reverse := by
    rw [e', List.reverse_append, List.reverse_singleton, List.singleton_append,
      List.dropWhile_cons, hc']
    rfl
  rw [h4, List.reverse_reverse]

theorem strip_split (p : Char → Bool) (s : Str) :
    ∃ a b, s = a ++ (strip p s ++ b) ∧ (∀ c ∈ a, p c = true) ∧ ∀ c ∈ b, p c = true := by
  obtain ⟨a, e, ha⟩ := dropWhile_split p s
  obtain ⟨b, e', hb⟩ := dropWhile_split p (lstrip p s).reverse
  refine ⟨a, b.reverse, ?_, ha, by simpa using hb⟩
  have : lstrip p s = strip p s ++ b.reverse := by
    have h := congrArg List.reverse e'
    rw [List.reverse_reverse, List.reverse_append] at h
    exact h
  rw [← this]
  exact e

theorem intOf_of_strip {s t : Str} {n : Int} (e : strip isSpace s = t) (h : PySigned t n) :
    intOf s = some n := by
  unfold intOf
  rw [e]
  cases h with
  | plain t n h =>
    obtain ⟨⟨c, r, e2, _, h1, h2⟩, _⟩ := pyDecimal_ends h
    have hd := digits_py h
    split
    · cases e2; exact absurd rfl h1
    · cases e2; exact absurd rfl h2
    · rw [hd]; rfl
  | plus t n h => simp only [digits_py h]; rfl
  | minus t n h => simp only [digits_py h]; rfl

theorem intOf_iff (s : Str) (n : Int) : intOf s = some n ↔ PyNumber s n := by
  constructor
  · intro h
    obtain ⟨a, b, e, ha, hb⟩ := strip_split isSpace s
    refine ⟨a, strip isSpace s, b, e, ha, hb, ?_⟩
    unfold intOf at h
    split at h
    · rename_i r e
      rw [Option.map_eq_some_iff] at h
      obtain ⟨k, hk, hn⟩ := h
      rw [e, ← hn]
      exact .minus _ k (digits_sound r k hk)
    · rename_i r e
      rw [Option.map_eq_some_iff] at h
      obtain ⟨k, hk, hn⟩ := h
      rw [e, ← hn]
      exact .plus _ k (digits_sound r k hk)
    · rw [Option.map_eq_some_iff] at h
      obtain ⟨k, hk, hn⟩ := h
      rw [← hn]
      exact .plain _ k (digits_sound _ k hk)
  · rintro ⟨a, t, b, e, ha, hb, h⟩
    obtain ⟨h1, h2⟩ := pySigned_ends h
    exact intOf_of_strip (by rw [e, strip_around isSpace a t b ha hb h1 h2]) h

theorem py_of_decimal {s : Str} {n : Nat} (h : Decimal s n) : PyDecimal s n := by
  induction h with
  | one d hd => exact .one d hd
  | more s n d _ hd ih => exact .more s n d ih hd

theorem py_of_number {s : Str} {n : Int} (h : Number s n) : PyNumber s n := by
  refine ⟨[], s, [], by simp, by simp, by simp, ?_⟩
  cases h with
  | plain s n h => exact .plain s n (py_of_decimal h)
  | plus s n h => exact .plus s n (py_of_decimal h)
  | minus s n h => exact .minus s n (py_of_decimal h)

theorem one_mono {c : Cast} {s : Str} {v : Val} (h : One Number c s v) : One PyNumber c s v := by
  induction h with
  | any s => exact .any s
  | str s => exact .str s
  | int s n h => exact .int s n (py_of_number h)
  | bool s b h => exact .bool s b h
  | optional c b s v _ ih => exact .optional c b s v ih
  | call f s v h => exact .call f s v h

theorem each_mono {c : Cast} {ss : List Str} {vs : List Val} (h : Each Number c ss vs) :
    Each PyNumber c ss vs := by
  induction h with
  | nil => exact .nil
  | cons s ss v vs h _ ih => exact .cons s ss v vs (one_mono h) ih

theorem zip_mono {cs : List Cast} {ss : List Str} {vs : List Val} (h : Zip Number cs ss vs) :
    Zip PyNumber cs ss vs := by
  induction h with
  | nil => exact .nil
  | cons c cs s ss v vs h _ ih => exact .cons c cs s ss v vs (one_mono h) ih

theorem means_mono {c : Cast} {ss : List Str} {v : Val} (h : Means Number c ss v) :
    Means PyNumber c ss v := by
  cases h with
  | one c s v h => exact .one c s v (one_mono h)
  | list c ss vs hne h => exact .list c ss vs hne (each_mono h)
  | tupleOf c ss vs hne h => exact .tupleOf c ss vs hne (each_mono h)
  | tuple cs ss vs hne h => exact .tuple cs ss vs hne (zip_mono h)

theorem right_mono {r : Sent} {f : Field} {v : Val} (h : Right Number r f v) :
    Right PyNumber r f v := by
  cases h with
  | typed c _ hc h => exact .typed c v hc (means_mono h)
  | plain s hc h => exact .plain s hc h
  | absent hr h hd => exact .absent hr h hd
  | default hr h hk hc => exact .default hr h hk hc
  | defaultText c s _ hr h hk hc hd hv => exact .defaultText c s v hr h hk hc hd (one_mono hv)

/-! ## Meaning -/

theorem toBool_word {s : Str} {b : Bool} (h : Word s b) : toBool (.str s) = some (.bool b) := by
  have hdis : ∀ w ∈ falseWords, w ∉ trueWords := by decide
  cases b with
  | true =>
    have h' : lower s ∈ trueWords := h
    simp only [toBool, if_pos h']
  | false =>
    have h' : lower s ∈ falseWords := h
    have h2 : lower s ∉ trueWords := hdis _ h'
    simp only [toBool, if_neg h2, if_pos h']

theorem word_toBool {s : Str} {w : Val} (h : toBool (.str s) = some w) :
    ∃ b, w = .bool b ∧ Word s b := by
  simp only [toBool] at h
  split at h
  · rename_i h'
    cases h
    exact ⟨true, rfl, h'⟩
  · split at h
    · rename_i h'
      cases h
      exact ⟨false, rfl, h'⟩
    · exact absurd h (by simp)

theorem castTo_one {c : Cast} {s : Str} {v : Val} (h : One PyNumber c s v) : castTo c (.str s) = some v := by
  induction h with
  | any s => rw [castTo]
  | str s => rw [castTo]; rfl
  | int s n h => rw [castTo]; simp only [toInt, (intOf_iff s n).mpr h]; rfl
  | bool s b h => rw [castTo]; exact toBool_word h
  | optional c b s v h ih =>
    rw [castTo_union]
    have e : strLast [c] (.str s) = false := by simp [strLast]
    simp only [Val.isNone, Bool.false_and, e, castFirst, ih]
    rfl
  | call f s v h => rw [castTo]; exact h

theorem one_castTo {c : Cast} (hs : Simple c) : ∀ {s : Str} {v : Val},
    castTo c (.str s) = some v → One PyNumber c s v := by
  induction hs with
  | any => intro s v h; simp only [castTo, Option.some.injEq] at h; subst h; exact .any s
  | str => intro s v h; simp only [castTo, Option.some.injEq] at h; subst h; exact .str s
  | int =>
    intro s v h
    simp only [castTo, toInt, Option.map_eq_some_iff] at h
    obtain ⟨n, hn, e⟩ := h
    subst e
    exact .int s n ((intOf_iff s n).mp hn)
  | bool =>
    intro s v h
    rw [castTo] at h
    obtain ⟨b, e, hw⟩ := word_toBool h
    subst e
    exact .bool s b hw
  | optional c b _ ih =>
    intro s v h
    rw [castTo_union] at h
    have e : strLast [c] (.str s) = false := by simp [strLast]
    simp only [Val.isNone, Bool.false_and, e, castFirst, Bool.false_eq_true, if_false] at h
    cases e2 : castTo c (.str s) with
    | none => rw [e2] at h; exact absurd h (by simp)
    | some w =>
      rw [e2] at h
      cases h
      exact .optional c b s v (ih e2)
  | call f => intro s v h; rw [castTo] at h; exact .call f s v h

theorem each_allOf {c : Cast} (hs : Simple c) : ∀ (ss : List Str) (vs : List Val),
    allOf ((ss.map Val.str).map (castTo c)) = some vs → Each PyNumber c ss vs
  | [], vs, h => by cases h; exact .nil
  | s :: ss, vs, h => by
    rw [List.map_cons, List.map_cons] at h
    cases e : castTo c (.str s) with
    | none => rw [e] at h; exact absurd h (by simp [allOf])
    | some v =>
      rw [e, allOf, Option.map_eq_some_iff] at h
      obtain ⟨ws, hw, e2⟩ := h
      subst e2
      exact .cons s ss v ws (one_castTo hs e) (each_allOf hs ss ws hw)

theorem zip_castZip : ∀ (cs : List Cast) (ss : List Str) (vs : List Val), (∀ c ∈ cs, Simple c) →
    cs.length = ss.length → castZip cs (ss.map Val.str) = some vs → Zip PyNumber cs ss vs
  | [], [], vs, _, _, h => by simp [castZip] at h; subst h; exact .nil
  | [], _ :: _, _, _, hl, _ => by simp at hl
  | _ :: _, [], _, _, hl, _ => by simp at hl
  | c :: cs, s :: ss, vs, hs, hl, h => by
    rw [List.map_cons, castZip] at h
    cases e : castTo c (.str s) with
    | none => rw [e] at h; exact absurd h (by simp)
    | some v =>
      simp only [e, Option.map_eq_some_iff] at h
      obtain ⟨ws, hw, e2⟩ := h
      subst e2
      exact .cons c cs s ss v ws (one_castTo (hs c List.mem_cons_self) e)
        (zip_castZip cs ss ws (fun x hx => hs x (List.mem_cons_of_mem _ hx)) (by simpa using hl) hw)

theorem allOf_each {c : Cast} {ss : List Str} {vs : List Val} (h : Each PyNumber c ss vs) :
    allOf ((ss.map Val.str).map (castTo c)) = some vs := by
  induction h with
  | nil => rfl
  | cons s ss v vs h _ ih => rw [List.map_cons, List.map_cons, castTo_one h, allOf, ih]; rfl

theorem castZip_zip {cs : List Cast} {ss : List Str} {vs : List Val} (h : Zip PyNumber cs ss vs) :
    castZip cs (ss.map Val.str) = some vs := by
  induction h with
  | nil => simp [castZip]
  | cons c cs s ss v vs h _ ih => rw [List.map_cons, castZip, castTo_one h]; simp only [ih]; rfl

theorem asList_rawOf {ss : List Str} (h : ss ≠ []) : asList (rawOf ss) = ss.map .str := by
  match ss with
  | [] => exact absurd rfl h
  | [s] => rfl
  | s :: t :: ss => rfl

theorem castTo_means {c : Cast} {ss : List Str} {v : Val} (h : Means PyNumber c ss v) :
    castTo c (rawOf ss) = some v := by
  cases h with
  | one c s v h => exact castTo_one h
  | list c ss vs hne h => rw [castTo, asList_rawOf hne, allOf_each h]; rfl
  | tupleOf c ss vs hne h => rw [castTo, asList_rawOf hne, allOf_each h]; rfl
  | tuple cs ss vs hne h => rw [castTo, asList_rawOf hne, castZip_zip h]; rfl

theorem means_ne {c : Cast} {ss : List Str} {v : Val} (h : Means PyNumber c ss v) : ss.isEmpty = false := by
  cases h with
  | one => rfl
  | list _ _ _ hne => simpa using hne
  | tupleOf _ _ _ hne => simpa using hne
  | tuple _ _ _ hne => simpa using hne

theorem rawOf_none (ss : List Str) : (rawOf ss).isNone = ss.isEmpty := by
  match ss with
  | [] => rfl
  | [s] => rfl
  | s :: t :: ss => rfl

theorem isNone_eq {v : Val} (h : v.isNone = true) : v = .none := by
  cases v <;> simp [Val.isNone] at h ⊢

/-! ## Requests -/

theorem filterMap_if {α β : Type} (p : α → Prop) [DecidablePred p] (g : α → β) (l : List α) :
    l.filterMap (fun x => if p x then some (g x) else none) = (l.filter (fun x => p x)).map g := by
  induction l with
  | nil => rfl
  | cons x l ih =>
    by_cases h : p x <;> simp [h, ih]

theorem find?_aget (k : Str) (d : List (Str × Str)) :
    (d.find? fun p => p.1 = k).map (·.2) = aget d k := by
  induction d with
  | nil => rfl
  | cons p d ih =>
    obtain ⟨a, b⟩ := p
    rw [List.find?_cons, aget]
    by_cases h : a = k <;> simp [h, ih]

theorem raw_texts (r : Sent) (f : Field) : raw r f = rawOf (texts r f) := by
  unfold raw texts
  cases f.kind with
  | query => simp only; rw [filterMap_if]
  | header => simp only; rw [filterMap_if]; rfl
  | cookie =>
    simp only
    rw [← find?_aget]
    cases r.cookies.find? fun p => p.1 = f.key <;> rfl

theorem argument_right {r : Sent} {f : Field} {v : Val} (h : Right PyNumber r f v) : argument r f = .ok v := by
  unfold argument
  rw [raw_texts, rawOf_none]
  cases h with
  | typed c _ hc h =>
    have hm := castTo_means h
    have hne : (texts r f).isEmpty = false := means_ne h
    have : resolve f (rawOf (texts r f)) = some v := by
      unfold resolve
      rw [rawOf_none, hne, hc]
      exact hm
    simp [hne, this]
  | plain s hc h =>
    rw [h]
    simp [resolve, rawOf, Val.isNone, hc]
  | absent hr h hd =>
    have : f.defaultOf = .none := by
      unfold Field.defaultOf; cases f.kind <;> simp [hd]
    rw [h]
    cases hc : f.cast <;> simp [hr, resolve, rawOf, Val.isNone, hc, this]
  | default hr h hk hc =>
    have : f.defaultOf = f.default := by
      unfold Field.defaultOf; rw [hk]
    rw [h]
    simp [hr, resolve, rawOf, Val.isNone, hc, this]
  | defaultText c s _ hr h hk hc hd hv =>
    have : f.defaultOf = .str s := by
      unfold Field.defaultOf; rw [hk]; exact hd
    rw [h]
    simp [hr, resolve, rawOf, Val.isNone, hc, this, castTo_one hv]

/-- The converse of `argument_right`. -/
theorem right_argument {r : Sent} {f : Field} {v : Val} (hf : Fit r f) (h : argument r f = .ok v) :
    Right PyNumber r f v := by
  unfold argument at h
  rw [raw_texts, rawOf_none] at h
  cases hf with
  | absent ht hd =>
    rw [ht] at h
    cases hr : f.required with
    | true => simp [hr] at h
    | false =>
      rw [hr] at h
      simp only [Bool.false_and, Bool.false_eq_true, if_false, rawOf] at h
      cases hrs : resolve f .none with
      | none => rw [hrs] at h; exact absurd h (by simp)
      | some w =>
        rw [hrs] at h
        cases h
        unfold resolve at hrs
        simp only [Val.isNone, if_true] at hrs
        cases hd with
        | none hd =>
          have hdo : f.defaultOf = .none := by
            unfold Field.defaultOf; cases f.kind <;> simp [hd]
          rw [hdo] at hrs
          cases hc : f.cast with
          | none => rw [hc] at hrs; cases hrs; exact .absent hr ht hd
          | some c => rw [hc] at hrs; cases hrs; exact .absent hr ht hd
        | plain hk hc =>
          have hdo : f.defaultOf = f.default := by unfold Field.defaultOf; rw [hk]
          rw [hc, hdo] at hrs
          cases hrs
          exact .default hr ht hk hc
        | text c s hk hc hs hd =>
          have hdo : f.defaultOf = .str s := by unfold Field.defaultOf; rw [hk]; exact hd
          rw [hc, hdo] at hrs
          exact .defaultText c s v hr ht hk hc hd (one_castTo hs hrs)
  | plain s ht hc =>
    rw [ht] at h
    simp only [List.isEmpty_cons, Bool.and_false, Bool.false_eq_true, if_false, rawOf, resolve, hc,
      Val.isNone] at h
    cases h
    exact .plain s hc ht
  | one c s ht hc hs =>
    rw [ht] at h
    simp only [List.isEmpty_cons, Bool.and_false, Bool.false_eq_true, if_false, rawOf, resolve, hc,
      Val.isNone] at h
    cases e : castTo c (.str s) with
    | none => rw [e] at h; exact absurd h (by simp)
    | some w =>
      rw [e] at h
      cases h
      exact .typed c v hc (by rw [ht]; exact .one c s v (one_castTo hs e))
  | list c hne hc hs =>
    have he : (texts r f).isEmpty = false := by simpa using hne
    have h1 : resolve f (rawOf (texts r f)) = castTo (.list c) (rawOf (texts r f)) := by
      unfold resolve; rw [rawOf_none, he, hc]; rfl
    rw [he, h1, castTo, asList_rawOf hne] at h
    simp only [Bool.and_false, Bool.false_eq_true, if_false] at h
    cases e : allOf (((texts r f).map Val.str).map (castTo c)) with
    | none => rw [e] at h; exact absurd h (by simp)
    | some ws =>
      rw [e] at h
      cases h
      exact .typed _ _ hc (.list c _ ws hne (each_allOf hs _ ws e))
  | tupleOf c hne hc hs =>
    have he : (texts r f).isEmpty = false := by simpa using hne
    have h1 : resolve f (rawOf (texts r f)) = castTo (.tupleOf c) (rawOf (texts r f)) := by
      unfold resolve; rw [rawOf_none, he, hc]; rfl
    rw [he, h1, castTo, asList_rawOf hne] at h
    simp only [Bool.and_false, Bool.false_eq_true, if_false] at h
    cases e : allOf (((texts r f).map Val.str).map (castTo c)) with
    | none => rw [e] at h; exact absurd h (by simp)
    | some ws =>
      rw [e] at h
      cases h
      exact .typed _ _ hc (.tupleOf c _ ws hne (each_allOf hs _ ws e))
  | tuple cs hne hc hs hl =>
    have he : (texts r f).isEmpty = false := by simpa using hne
    have h1 : resolve f (rawOf (texts r f)) = castTo (.tuple cs) (rawOf (texts r f)) := by
      unfold resolve; rw [rawOf_none, he, hc]; rfl
    rw [he, h1, castTo, asList_rawOf hne] at h
    simp only [Bool.and_false, Bool.false_eq_true, if_false] at h
    cases e : castZip cs ((texts r f).map Val.str) with
    | none => rw [e] at h; exact absurd h (by simp)
    | some ws =>
      rw [e] at h
      cases h
      exact .typed _ _ hc (.tuple cs _ ws hne (zip_castZip cs _ ws hs hl e))

/-- The arguments, if every field has its value. -/
theorem arguments_ok (r : Sent) (g : Field → Val) : ∀ (fs : List Field) (args : List (Str × Val)),
    (∀ f ∈ fs, argument r f = .ok (g f)) → arguments r fs args =
      .called (fs.foldl (fun a f => aset a f.name (g f)) args)
  | [], args, _ => rfl
  | f :: fs, args, h => by
    rw [arguments, h f List.mem_cons_self]
    exact arguments_ok r g fs _ fun x hx => h x (List.mem_cons_of_mem _ hx)

theorem aget_foldl_other (g : Field → Val) (n : Str) : ∀ (fs : List Field) (args : List (Str × Val)),
    (∀ f ∈ fs, f.name ≠ n) → aget (fs.foldl (fun a f => aset a f.name (g f)) args) n = aget args n
  | [], _, _ => rfl
  | f :: fs, args, h => by
    rw [List.foldl_cons, aget_foldl_other g n fs _ fun x hx => h x (List.mem_cons_of_mem _ hx),
      aget_aset_ne _ _ _ _ (h f List.mem_cons_self).symm]

theorem aget_foldl_mem (g : Field → Val) : ∀ (fs : List Field) (args : List (Str × Val)),
    (fs.map Field.name).Nodup → ∀ f ∈ fs,
    aget (fs.foldl (fun a f => aset a f.name (g f)) args) f.name = some (g f)
  | [], _, _, f, hf => nomatch hf
  | x :: fs, args, hn, f, hf => by
    rw [List.map_cons, List.nodup_cons] at hn
    rw [List.foldl_cons]
    rcases List.mem_cons.mp hf with e | hf
    · subst e
      rw [aget_foldl_other g _ fs _ (fun y hy e => hn.1 (List.mem_map.mpr ⟨y, hy, e⟩)),
        aget_aset_self]
    · exact aget_foldl_mem g fs _ hn.2 f hf

theorem arguments_error (r : Sent) : ∀ (fs : List Field) (args : List (Str × Val)),
    (∃ f ∈ fs, ∃ e, argument r f = .error e) → ∃ e, arguments r fs args = .refused e
  | [], _, ⟨_, hf, _⟩ => nomatch hf
  | x :: fs, args, ⟨f, hf, e, he⟩ => by
    rw [arguments]
    cases hx : argument r x with
    | error e' => exact ⟨e', rfl⟩
    | ok v =>
      rcases List.mem_cons.mp hf with e' | hf
      · rw [← e', he] at hx; exact absurd hx (by simp)
      · exact arguments_error r fs _ ⟨f, hf, e, he⟩

/-- A call came from values for all fields. -/
theorem arguments_called (r : Sent) : ∀ (fs : List Field) (args out : List (Str × Val)),
    arguments r fs args = .called out → ∀ f ∈ fs, ∃ v, argument r f = .ok v
  | fs, args, out, h, f, hf => by
    cases e : argument r f with
    | ok v => exact ⟨v, rfl⟩
    | error x =>
      obtain ⟨y, hy⟩ := arguments_error r fs args ⟨f, hf, x, e⟩
      rw [hy] at h
      exact absurd h (by simp)

theorem aget_filter (path : List (Str × Val)) (names : List Str) (n : Str) (hn : n ∈ names) :
    aget (path.filter fun p => p.1 ∈ names) n = aget path n := by
  induction path with
  | nil => rfl
  | cons p path ih =>
    obtain ⟨a, b⟩ := p
    rw [List.filter_cons]
    by_cases h : a ∈ names
    · simp only [h, decide_true, if_true, aget, ih]
    · have : a ≠ n := fun e => h (e ▸ hn)
      simp only [h, decide_false, Bool.false_eq_true, if_false, aget, this, ih]

/-- The refusal of the first field without a right value. -/
theorem refusal (path : List (Str × Val)) (names : List Str) (pre post : List Field) (f : Field) (r : Sent)
    (hpre : ∀ g ∈ pre, ∃ v, Right PyNumber r g v) (hf : Fit r f) (hno : ∀ v, ¬ Right PyNumber r f v) :
    handle path names (pre ++ f :: post) r = .refused
      (if f.required = true ∧ texts r f = [] then
        missingText f.key else invalidText f.key f.castName) := by
  have skip : ∀ (pre : List Field) (args : List (Str × Val)), (∀ g ∈ pre, ∃ v, Right PyNumber r g v) →
      ∃ args', arguments r (pre ++ f :: post) args = arguments r (f :: post) args' := by
    intro pre
    induction pre with
    | nil => intro args _; exact ⟨args, rfl⟩
    | cons g pre ih =>
      intro args h
      obtain ⟨v, hv⟩ := h g List.mem_cons_self
      obtain ⟨args', e⟩ := ih (aset args g.name v) (fun x hx => h x (List.mem_cons_of_mem _ hx))
      refine ⟨args', ?_⟩
      rw [List.cons_append, arguments, argument_right hv]
      exact e
  obtain ⟨args, e⟩ := skip pre (path.filter fun p => p.1 ∈ names) hpre
  unfold handle
  rw [e, arguments]
  cases ha : argument r f with
  | ok v => exact absurd (right_argument hf ha) (hno v)
  | error x =>
    refine congrArg Outcome.refused ?_
    unfold argument at ha
    rw [raw_texts, rawOf_none] at ha
    by_cases hm : f.required = true ∧ texts r f = []
    · rw [if_pos hm]
      rw [hm.1, hm.2] at ha
      simp only [List.isEmpty_nil, Bool.and_self, if_true, Except.error.injEq] at ha
      exact ha.symm
    · rw [if_neg hm]
      have hb : ¬ (f.required && (texts r f).isEmpty) = true := by
        rw [Bool.and_eq_true, List.isEmpty_iff]
        exact hm
      rw [if_neg hb] at ha
      cases hr : resolve f (rawOf (texts r f)) with
      | some v => rw [hr] at ha; cases ha
      | none =>
        rw [hr] at ha
        simp only [Except.error.injEq] at ha
        exact ha.symm


theorem missing_eq (key : Str) : missing key = missingText key := List.append_assoc _ _ _

theorem invalid_eq (key cast : Str) : invalid key cast = invalidText key cast := by
  unfold invalid invalidText
  rw [List.append_assoc, List.append_assoc]

end Verif.Params
