import Verif.Referrer.Model
import Verif.Referrer.Spec
import Verif.Hosts.Lemmas

/-!
# Lemmas about trusted referrers
-/

namespace Verif.Referrer

open Verif Url Spec Hosts Hosts.Spec

theorem any_listed (allowed : List Str) (hw : WellFormed allowed) (h : Str) :
    allowed.any (matchesPattern h) = true ↔ Listed allowed h := by
  rw [← listed_iff ⟨allowed, false, false⟩ hw, validateHost_fst, List.any_eq_true]
  unfold matchesPattern
  simp only [Bool.or_eq_true, Bool.and_eq_true, decide_eq_true_eq]

theorem judgeHost_iff (c : Config) (hw : WellFormed c.allowed) (h target : Str) :
    judgeHost c h target = true ↔ (c.sameOrigin = true ∧ h = target) ∨ Listed c.allowed h := by
  unfold judgeHost
  rw [Bool.or_eq_true, any_listed c.allowed hw, Bool.and_eq_true, decide_eq_true_eq]

theorem afterLast_at (c : Char) (x y : Str) (h : c ∉ y) : afterLast c (x ++ [c] ++ y) = y := by
  unfold afterLast
  have hy : ∀ a ∈ y.reverse, decide (a ≠ c) = true := by
    intro a ha
    apply decide_eq_true
    intro e
    rw [e] at ha
    exact h (List.mem_reverse.mp ha)
  rw [List.reverse_append, List.reverse_append, List.takeWhile_append_of_pos hy]
  simp

theorem hostinfo_user (u n : Str) (hu : UserPart u) (hn : '@' ∉ n) : hostinfo (u ++ n) = hostinfo n := by
  rcases hu with rfl | ⟨x, rfl, _⟩
  · rfl
  · unfold hostinfo
    rw [afterLast_at '@' x n hn, afterLast_of_not_mem '@' n hn]

theorem authority_user (u h t : Str) (hu : UserPart u) (hh : PlainHost h) (ht : PortText t) :
    PlainNetloc (u ++ (h ++ t)) ∧ Clean (u ++ (h ++ t)) := by
  obtain ⟨h1, h2, _, _⟩ := authority_plain hh ht
  have key : ∀ c ∈ u, (c ≠ '/' ∧ c ≠ '?' ∧ c ≠ '#' ∧ c ≠ '[' ∧ c ≠ ']') ∧ c ≠ '\t' ∧ c ≠ '\r' ∧ c ≠ '\n' := by
    intro c hc
    rcases hu with rfl | ⟨x, rfl, hx⟩
    · cases hc
    · rcases List.mem_append.mp hc with hc | hc
      · obtain ⟨a, b, d, e, f, g⟩ := hx c hc
        exact ⟨⟨a, b, d, e, f⟩, g⟩
      · rw [List.mem_singleton.mp hc]
        decide
  constructor
  · intro c hc
    rcases List.mem_append.mp hc with hc | hc
    · exact (key c hc).1
    · exact h1 c hc
  · intro c hc
    rcases List.mem_append.mp hc with hc | hc
    · exact (key c hc).2
    · exact h2 c hc

theorem mkURL_referrer (ip6 : Str → Bool) (referrer h : Str) (hr : RefersTo referrer h) :
    ∃ u, mkURL ip6 referrer = some u ∧ hostname u.netloc = some (lower h) := by
  obtain ⟨s, u, t, p, q, hs, hu, hh, ht, hp, hq, rfl⟩ := hr
  obtain ⟨h1, h2⟩ := authority_user u h t hu hh ht
  obtain ⟨_, _, hat, _⟩ := authority_plain hh ht
  have hscheme : Scheme s := by
    rcases hs with rfl | rfl
    · exact scheme_lits.1
    · exact scheme_lits.2.1
  have habs : AbsPath p := ⟨hp.1, fun hm => (hp.2 _ hm).1 rfl, fun hm => (hp.2 _ hm).2.1 rfl⟩
  refine ⟨⟨s, u ++ (h ++ t), p, q, []⟩, ?_, ?_⟩
  · unfold mkURL
    rw [← tail_eq, urlsplit_eq ip6 hscheme h1 habs (fun hm => (hq _ hm).1 rfl) h2
      (fun c hc => (hp.2 c hc).2.2) (fun c hc => (hq c hc).2)]
    have : port (u ++ (h ++ t)) = port (h ++ t) := by
      unfold port
      rw [hostinfo_user u _ hu hat]
    simp only [this, port_authority hh ht]
  · have : hostname (u ++ (h ++ t)) = hostname (h ++ t) := by
      unfold hostname
      rw [hostinfo_user u _ hu hat]
    simp only [this, hostname_authority hh ht]

theorem headD_plain (h : Str) (hh : PlainHost h) : (splitOn ':' (lower h)).headD [] = lower h := by
  have : ':' ∉ lower h := fun hm => (alwaysSafe_facts (plainHost_safe (lower_plainHost hh) _ hm)).2.2.2.2.2.1 rfl
  rw [splitOn_of_not_mem _ _ this]
  rfl

theorem refersTo_ne (referrer h : Str) (hr : RefersTo referrer h) : referrer ≠ [] := by
  obtain ⟨s, u, t, p, q, hs, _, _, _, _, _, rfl⟩ := hr
  rcases hs with rfl | rfl <;> simp

theorem validate_refers (ip6 : Str → Bool) (c : Config) (hs : "*".toList ∉ c.allowed) (referrer h host : Str)
    (hr : RefersTo referrer h) : validate ip6 c referrer host = some (judgeHost c (lower h) host) := by
  obtain ⟨u, h1, h2⟩ := mkURL_referrer ip6 referrer h hr
  have hh : PlainHost h := by
    obtain ⟨_, _, _, _, _, _, _, hh, _⟩ := hr
    exact hh
  unfold validate
  rw [if_neg hs, if_neg (refersTo_ne referrer h hr), h1]
  simp only [h2]
  rw [headD_plain h hh]

theorem splitScheme_slash (rest : Str) : splitScheme ('/' :: rest) = ([], '/' :: rest) := by
  unfold splitScheme
  have h : (partition ':' ('/' :: rest)).1 = '/' :: (partition ':' rest).1 := by
    rw [partition, if_neg (by decide)]
  have hp : partition ':' ('/' :: rest) = ('/' :: (partition ':' rest).1, (partition ':' ('/' :: rest)).2) := by
    rw [← h]
  rw [hp]
  cases (partition ':' ('/' :: rest)).2 with
  | none => rfl
  | some r => rfl

theorem mkURL_path (ip6 : Str → Bool) (rest : Str) (h : rest.head? ≠ some '/')
    (hc : ∀ c ∈ rest, c ≠ '\t' ∧ c ≠ '\r' ∧ c ≠ '\n') :
    ∃ u, mkURL ip6 ('/' :: rest) = some u ∧ hostname u.netloc = none := by
  have h1 : (('/' :: rest).dropWhile fun c => decide (c.toNat ≤ 32)) = '/' :: rest := by
    rw [List.dropWhile_cons_of_neg (by decide)]
  have h2 : (('/' :: rest).filter fun c => decide (c ≠ '\t' ∧ c ≠ '\r' ∧ c ≠ '\n')) = '/' :: rest := by
    rw [List.filter_eq_self]
    intro c hm
    rcases List.mem_cons.1 hm with rfl | hm
    · decide
    · exact decide_eq_true (hc c hm)
  have h3 : stripPrefix? "//".toList ('/' :: rest) = none := by
    cases e : stripPrefix? "//".toList ('/' :: rest) with
    | none => rfl
    | some r =>
      have := (stripPrefix?_eq_some _ _ _).1 e
      have hr : rest = '/' :: r := (List.cons.inj this).2
      rw [hr] at h
      exact absurd rfl h
  have h4 : splitNetloc ('/' :: rest) = ([], '/' :: rest) := by
    unfold splitNetloc
    rw [h3]
  have hn : netlocOk ip6 [] = true := rfl
  unfold mkURL urlsplit
  simp only [h1, h2, splitScheme_slash, h4, hn, if_true]
  exact ⟨_, rfl, rfl⟩

end Verif.Referrer
