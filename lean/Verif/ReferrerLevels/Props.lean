import Verif.ReferrerLevels.Lemmas

/-!
# C163: several checks of referrers
-/

namespace Verif.ReferrerLevels.Props

open Verif Verif.ReferrerLevels.Spec Verif.Referrer Verif.Referrer.Spec Verif.Hosts.Spec

/-- **C163**, who comes in: a request reaches the application exactly if each middleware that blocks trusts it; else it
is answered with 400.

The full statement is for all values of the header; those that are no addresses raise (`C64_raises_false`). -/
theorem C163_reached_partial (ip6 : Str → Bool) (ls : List Level) (hv : ∀ l ∈ ls, l.config.valid = true)
    (host referer source : Option Str) (target : Str) (ht : HostName (host.getD []) target)
    (hr : ComesFrom source referer) (flags : List (Str × Bool)) :
    (Reaches (run ip6 true host referer ls flags) ↔
      ∀ l ∈ ls, l.config.block = true → Trusts l.config source target) ∧
    (¬ Reaches (run ip6 true host referer ls flags) → run ip6 true host referer ls flags = .reject) := by
  obtain ⟨h1, h2, h3⟩ := run_cases ip6 true host referer ls flags
  have key : Reaches (run ip6 true host referer ls flags) ↔
      ∀ l ∈ ls, l.config.block = true → Trusts l.config source target := by
    rw [h1]
    constructor
    · intro h l hl hb
      obtain ⟨t, k1, k2⟩ := call_trusts ip6 l.config (hv l hl) host referer source target ht hr
      obtain ⟨o, ho⟩ := h l hl
      rw [k2] at ho
      cases t with
      | true => exact k1.1 rfl
      | false => rw [if_pos ⟨rfl, hb⟩] at ho; cases ho
    · intro h l hl
      obtain ⟨t, k1, k2⟩ := call_trusts ip6 l.config (hv l hl) host referer source target ht hr
      rw [k2]
      by_cases hb : l.config.block = true
      · rw [if_neg (fun e => by rw [k1.2 (h l hl hb)] at e; cases e.1)]
        exact ⟨_, rfl⟩
      · rw [if_neg (fun e => hb e.2)]
        exact ⟨_, rfl⟩
  refine ⟨key, fun hn => ?_⟩
  cases hrun : run ip6 true host referer ls flags with
  | app out => exact absurd ⟨out, hrun⟩ hn
  | reject => rfl
  | raised =>
    obtain ⟨l, hl, hc⟩ := h3.1 hrun
    obtain ⟨t, _, k2⟩ := call_trusts ip6 l.config (hv l hl) host referer source target ht hr
    rw [k2] at hc
    split at hc <;> cases hc

/-- **C163**, the flag: the application finds the judgement of the innermost middleware with this name. -/
theorem C163_flag_partial (ip6 : Str → Bool) (outer inner : List Level) (l : Level) (hv : l.config.valid = true)
    (hi : ∀ x ∈ inner, x.flag ≠ l.flag) (host referer source : Option Str) (target : Str)
    (ht : HostName (host.getD []) target) (hr : ComesFrom source referer) (flags out : List (Str × Bool))
    (h : run ip6 true host referer (outer ++ l :: inner) flags = .app out) :
    ∃ trusted, flag out l.flag = some trusted ∧ (trusted = true ↔ Trusts l.config source target) := by
  obtain ⟨mid, _, h2⟩ := run_append ip6 true host referer outer (l :: inner) flags out h
  obtain ⟨t, k1, k2⟩ := call_trusts ip6 l.config hv host referer source target ht hr
  refine ⟨t, ?_, k1⟩
  by_cases hb : t = false ∧ l.config.block = true
  · rw [if_pos hb] at k2
    simp only [run, k2] at h2
    cases h2
  · rw [if_neg hb] at k2
    simp only [run, k2] at h2
    rw [run_other ip6 true host referer inner _ out l.flag hi h2]
    unfold flag
    rw [List.lookup_cons, beq_self_eq_true]

/-- **C163**, other flags: a name that no middleware has is left alone, for all requests. -/
theorem C163_others (ip6 : Str → Bool) (conn : Bool) (ls : List Level) (host referer : Option Str)
    (flags out : List (Str × Bool)) (name : Str) (hn : ∀ l ∈ ls, l.flag ≠ name)
    (h : run ip6 conn host referer ls flags = .app out) : flag out name = flag flags name :=
  run_other ip6 conn host referer ls flags out name hn h

/-- **C163**, the order: for all requests, also with headers that are no addresses, the order of the middlewares does
not
change whether the request comes in, is refused, or raises. -/
theorem C163_order (ip6 : Str → Bool) (conn : Bool) (xs ys : List Level) (hp : ∀ l, l ∈ xs ↔ l ∈ ys)
    (host referer : Option Str) (f g : List (Str × Bool)) :
    (Reaches (run ip6 conn host referer xs f) ↔ Reaches (run ip6 conn host referer ys g)) ∧
    (run ip6 conn host referer xs f = .reject ↔ run ip6 conn host referer ys g = .reject) ∧
    (run ip6 conn host referer xs f = .raised ↔ run ip6 conn host referer ys g = .raised) := by
  obtain ⟨a1, a2, a3⟩ := run_cases ip6 conn host referer xs f
  obtain ⟨b1, b2, b3⟩ := run_cases ip6 conn host referer ys g
  rw [a1, a2, a3, b1, b2, b3]
  simp only [hp, and_self]

/-- **C163**, other scopes pass with their flags. -/
theorem C163_lifespan (ip6 : Str → Bool) (ls : List Level) (host referer : Option Str) (flags : List (Str × Bool)) :
    run ip6 false host referer ls flags = .app flags := by
  induction ls with
  | nil => rfl
  | cons l ls ih =>
    rw [run, (C64_any ip6 l.config host referer).2]
    exact ih

/-! ## The example of the documentation -/

/-- The name of the flag. -/
def name : Str := "referrer_is_trusted".toList

/-- `/api` (docs_src/middleware/available/trusted_referrers.py 9-15): the outer one blocks, the inner one marks. -/
def api : List Level :=
  [⟨name, ⟨["".toList, "example.com".toList, "external.example.com".toList], true, true⟩⟩,
   ⟨name, ⟨["external.example.com".toList], false, false⟩⟩]

/-- A list without stars. -/
theorem listed_plain (allowed : List Str) (h : Str) (hp : ∀ p ∈ allowed, p.head? ≠ some '*') :
    Listed allowed h ↔ h ∈ allowed := by
  unfold Listed
  constructor
  · rintro (hm | ⟨d, hm, _⟩)
    · exact hm
    · exact absurd rfl (hp _ hm)
  · exact .inl

/-- What the outer one trusts. -/
theorem trusts_outer (source referer : Option Str) (target : Str) (hr : ComesFrom source referer) :
    Trusts ⟨["".toList, "example.com".toList, "external.example.com".toList], true, true⟩ source target ↔
      source = none ∨ ∃ h, source = some h ∧
        (lower h = target ∨ lower h = "example.com".toList ∨ lower h = "external.example.com".toList) := by
  have hstar : "*".toList ∉ ["".toList, "example.com".toList, "external.example.com".toList] := by decide
  have hempty : ([] : Str) ∈ ["".toList, "example.com".toList, "external.example.com".toList] := by decide
  have hhead : ∀ p ∈ ["".toList, "example.com".toList, "external.example.com".toList], p.head? ≠ some '*' := by decide
  unfold Trusts
  cases source with
  | none => exact ⟨fun _ => .inl rfl, fun _ => .inr hempty⟩
  | some h =>
    obtain ⟨r, _, _, _, _, _, _, _, _, hp, _⟩ := hr
    have hne : lower h ≠ "".toList := by
      intro e
      exact hp.1 (List.map_eq_nil_iff.1 e)
    simp only [Trusted, listed_plain _ _ hhead, List.mem_cons, List.not_mem_nil, or_false]
    constructor
    · rintro (h' | ⟨_, e⟩ | e | e | e)
      · exact absurd (by simpa only [List.mem_cons, List.not_mem_nil, or_false] using h') hstar
      · exact .inr ⟨h, rfl, .inl e⟩
      · exact absurd e hne
      · exact .inr ⟨h, rfl, .inr (.inl e)⟩
      · exact .inr ⟨h, rfl, .inr (.inr e)⟩
    · rintro (h' | ⟨x, e, h'⟩)
      · cases h'
      · cases e
        rcases h' with e | e | e
        · exact .inr (.inl ⟨trivial, e⟩)
        · exact .inr (.inr (.inr (.inl e)))
        · exact .inr (.inr (.inr (.inr e)))

/-- What the inner one trusts. -/
theorem trusts_inner (source : Option Str) (target : Str) :
    Trusts ⟨["external.example.com".toList], false, false⟩ source target ↔
      ∃ h, source = some h ∧ lower h = "external.example.com".toList := by
  have hstar : "*".toList ∉ ["external.example.com".toList] := by decide
  have hempty : ([] : Str) ∉ ["external.example.com".toList] := by decide
  have hhead : ∀ p ∈ ["external.example.com".toList], p.head? ≠ some '*' := by decide
  unfold Trusts
  cases source with
  | none => exact ⟨fun h => absurd h (fun h => h.elim hstar hempty), fun ⟨_, h, _⟩ => by cases h⟩
  | some h =>
    constructor
    · rintro (h' | ⟨h', _⟩ | h')
      · exact absurd h' hstar
      · cases h'
      · exact ⟨h, rfl, List.mem_singleton.1 ((listed_plain _ _ hhead).1 h')⟩
    · rintro ⟨x, e, h'⟩
      cases e
      exact .inr (.inr ((listed_plain _ _ hhead).2 (List.mem_singleton.2 h')))

/-- **C163**, the example: requests without a referrer, from `example.com`, from `external.example.com` and from the own
host come in; the flag says whether it is `external.example.com`. -/
theorem C163_docs_partial (ip6 : Str → Bool) (host referer source : Option Str) (target : Str)
    (ht : HostName (host.getD []) target) (hr : ComesFrom source referer) (flags : List (Str × Bool)) :
    (Reaches (run ip6 true host referer api flags) ↔
      source = none ∨ ∃ h, source = some h ∧
        (lower h = target ∨ lower h = "example.com".toList ∨ lower h = "external.example.com".toList)) ∧
    ∀ out, run ip6 true host referer api flags = .app out → ∃ trusted, flag out name = some trusted ∧
      (trusted = true ↔ ∃ h, source = some h ∧ lower h = "external.example.com".toList) := by
  have hv : ∀ l ∈ api, l.config.valid = true := by
    intro l hl
    rcases List.mem_cons.1 hl with e | e
    · rw [e]; decide +kernel
    · rw [List.mem_singleton.1 e]; decide +kernel
  constructor
  · rw [(C163_reached_partial ip6 api hv host referer source target ht hr flags).1, ← trusts_outer source referer
      target hr]
    constructor
    · exact fun h => h _ List.mem_cons_self rfl
    · intro h l hl hb
      rcases List.mem_cons.1 hl with e | e
      · rw [e]; exact h
      · rw [List.mem_singleton.1 e] at hb; cases hb
  · intro out h
    obtain ⟨t, h1, h2⟩ := C163_flag_partial ip6
      [⟨name, ⟨["".toList, "example.com".toList, "external.example.com".toList], true, true⟩⟩] []
      ⟨name, ⟨["external.example.com".toList], false, false⟩⟩ (hv _ (List.mem_cons_of_mem _ List.mem_cons_self))
      (fun _ hx => absurd hx List.not_mem_nil) host referer source target ht hr flags out h
    exact ⟨t, h1, h2.trans (trusts_inner source target)⟩

/-! ## Examples -/

theorem refers : RefersTo "https://example.com/a".toList "example.com".toList := by
  refine ⟨"https".toList, [], [], "/a".toList, [], .inr rfl, .inl rfl, ?_, ?_, ?_, ?_, by decide +kernel⟩
  · unfold PlainHost; decide +kernel
  · exact .inl rfl
  · exact ⟨.inr ⟨"a".toList, rfl⟩, by decide +kernel⟩
  · exact fun c hc => absurd hc List.not_mem_nil

theorem hostName : HostName "own.org:8000".toList "own.org".toList :=
  ⟨by decide +kernel, .inr ⟨"8000".toList, by decide +kernel⟩⟩

example : HostName ((some "own.org:8000".toList).getD []) "own.org".toList ∧
    ComesFrom (some "example.com".toList) (some "https://example.com/a".toList) ∧ ComesFrom none none :=
  ⟨hostName, ⟨_, rfl, refers⟩, rfl⟩

example (ip6 : Str → Bool) : Reaches (run ip6 true (some "own.org:8000".toList)
    (some "https://example.com/a".toList) api []) :=
  (C163_docs_partial ip6 (some "own.org:8000".toList) _ (some "example.com".toList) "own.org".toList hostName ⟨_, rfl,
      refers⟩ []).1.2
    (.inr ⟨_, rfl, .inr (.inl (by decide +kernel))⟩)

example : run (fun _ => false) true (some "own.org".toList) (some "https://external.example.com/".toList) api [] =
    .app [(name, true), (name, true)] := by decide +kernel

example : run (fun _ => false) true (some "own.org".toList) (some "https://evil.org/".toList) api [] = .reject := by
  decide +kernel

/-! ## Where it fails -/

/-- The flag is not the judgement of all: an inner middleware that trusts more overwrites that of an outer one. -/
theorem C163_all_false : ∃ (a b : Level) (out : List (Str × Bool)), a.flag = b.flag ∧
    run (fun _ => false) true (some "own.org".toList) (some "https://evil.org/".toList) [a, b] [] = .app out ∧
    flag out a.flag = some true ∧
    ¬ Trusts a.config (some "evil.org".toList) "own.org".toList := by
  refine ⟨⟨name, ⟨[], true, false⟩⟩, ⟨name, ⟨["*".toList], true, false⟩⟩, [(name, true), (name, false)], rfl,
    by decide +kernel, by decide +kernel, ?_⟩
  rintro (h | ⟨_, h⟩ | h | ⟨_, h, _⟩)
  · exact absurd h List.not_mem_nil
  · exact absurd h (by decide +kernel)
  · exact absurd h List.not_mem_nil
  · exact absurd h List.not_mem_nil

end Verif.ReferrerLevels.Props
