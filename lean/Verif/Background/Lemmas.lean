import Verif.Background.Spec

/-!
# Lemmas about background tasks
-/

namespace Verif.Background

open Verif Spec

theorem oneByOne_append (a b : List (Nat × Bool)) :
    oneByOne (a ++ b) = oneByOne a ++ if a.all (·.2) then oneByOne b else [] := by
  induction a with
  | nil => simp [oneByOne]
  | cons p a ih =>
    obtain ⟨id, ok⟩ := p
    cases ok with
    | true =>
      show Ev.start id :: Ev.finish id :: oneByOne (a ++ b) = _
      rw [ih]
      rfl
    | false => simp [oneByOne]

mutual

theorem runs_plain {j : Job} {t : List Ev} {ok : Bool} (h : Runs j t ok) (hp : plain j = true) :
    t = oneByOne (leaves j) ∧ ok = (leaves j).all (·.2) := by
  cases h with
  | leafOk id => exact ⟨rfl, rfl⟩
  | leafFail id => exact ⟨rfl, rfl⟩
  | single h =>
    rw [leaves]
    refine single_plain h ?_
    rw [plain] at hp
    simpa using hp
  | groupOk h => simp [plain] at hp
  | groupFail h => simp [plain] at hp

theorem single_plain {js : List Job} {t : List Ev} {ok : Bool} (h : RunsSingle js t ok) (hp : plainAll js = true) :
    t = oneByOne (leavesAll js) ∧ ok = (leavesAll js).all (·.2) := by
  cases h with
  | nil => exact ⟨rfl, rfl⟩
  | @stop j js t h =>
    rw [plainAll, Bool.and_eq_true] at hp
    obtain ⟨e1, e2⟩ := runs_plain h hp.1
    rw [leavesAll, oneByOne_append, ← e2, e1, List.all_append, ← e2]
    simp
  | @next j js t t' ok h h' =>
    rw [plainAll, Bool.and_eq_true] at hp
    obtain ⟨e1, e2⟩ := runs_plain h hp.1
    obtain ⟨e3, e4⟩ := single_plain h' hp.2
    rw [leavesAll, oneByOne_append, ← e2, e1, List.all_append, ← e2, ← e4, e3]
    simp

end

mutual

theorem runs_exists : (j : Job) → plain j = true → Runs j (oneByOne (leaves j)) ((leaves j).all (·.2))
  | .leaf id true, _ => Runs.leafOk id
  | .leaf id false, _ => Runs.leafFail id
  | .tasks true js, hp => by simp [plain] at hp
  | .tasks false js, hp => by
    rw [leaves]
    exact Runs.single (single_exists js (by rw [plain] at hp; simpa using hp))

theorem single_exists : (js : List Job) → plainAll js = true →
    RunsSingle js (oneByOne (leavesAll js)) ((leavesAll js).all (·.2))
  | [], _ => RunsSingle.nil
  | j :: js, hp => by
    rw [plainAll, Bool.and_eq_true] at hp
    have h1 := runs_exists j hp.1
    have h2 := single_exists js hp.2
    rw [leavesAll, oneByOne_append, List.all_append]
    cases e : (leaves j).all (·.2) with
    | true =>
      rw [e] at h1
      simpa using RunsSingle.next h1 h2
    | false =>
      rw [e] at h1
      simpa using RunsSingle.stop (js := js) h1

end

theorem single_append {js ks : List Job} {t : List Ev} {ok : Bool} (h : RunsSingle (js ++ ks) t ok) :
    (RunsSingle js t false ∧ ok = false) ∨
      ∃ t1 t2, t = t1 ++ t2 ∧ RunsSingle js t1 true ∧ RunsSingle ks t2 ok := by
  induction js generalizing t with
  | nil => exact .inr ⟨[], t, rfl, .nil, h⟩
  | cons j js ih =>
    rw [List.cons_append] at h
    cases h with
    | stop h => exact .inl ⟨.stop h, rfl⟩
    | @next _ _ t t' _ h h' =>
      rcases ih h' with ⟨h1, h2⟩ | ⟨t1, t2, e, h1, h2⟩
      · exact .inl ⟨.next h h1, h2⟩
      · exact .inr ⟨t ++ t1, t2, by rw [e, List.append_assoc], .next h h1, h2⟩

theorem mix_count {a b c : List Ev} (h : Mix a b c) (e : Ev) : times e c = times e a + times e b := by
  unfold times
  induction h with
  | nil => rfl
  | left x _ ih => rw [List.countP_cons, List.countP_cons, ih]; omega
  | right x _ ih => rw [List.countP_cons, List.countP_cons, ih]; omega

theorem mix_mem {a b c : List Ev} (h : Mix a b c) (e : Ev) : e ∈ c ↔ e ∈ a ∨ e ∈ b := by
  induction h with
  | nil => simp
  | left x _ ih => simp [ih, or_assoc]
  | right x _ ih => simp [ih, or_left_comm]

theorem times_append (e : Ev) (a b : List Ev) : times e (a ++ b) = times e a + times e b := by
  unfold times; rw [List.countP_append]

theorem allEvents_append (a b : List (Nat × Bool)) : allEvents (a ++ b) = allEvents a ++ allEvents b := by
  unfold allEvents; rw [List.flatMap_append]

mutual

/-- A job that returns has run every task of its once. -/
theorem runs_ok {j : Job} {t : List Ev} {ok : Bool} (h : Runs j t ok) (hok : ok = true) (e : Ev) :
    times e t = times e (allEvents (leaves j)) ∧ (leaves j).all (·.2) = true := by
  cases h with
  | leafOk id => exact ⟨rfl, rfl⟩
  | leafFail id => cases hok
  | single h => rw [leaves]; exact single_ok h hok e
  | groupOk h => rw [leaves]; exact all_ok h e
  | groupFail h => cases hok

theorem single_ok {js : List Job} {t : List Ev} {ok : Bool} (h : RunsSingle js t ok) (hok : ok = true) (e : Ev) :
    times e t = times e (allEvents (leavesAll js)) ∧ (leavesAll js).all (·.2) = true := by
  cases h with
  | nil => exact ⟨rfl, rfl⟩
  | stop h => cases hok
  | next h h' =>
    have h1 := runs_ok h rfl e
    have h2 := single_ok h' hok e
    rw [leavesAll, allEvents_append, times_append, times_append, h1.1, h2.1, List.all_append, h1.2, h2.2]
    exact ⟨rfl, rfl⟩

theorem all_ok {js : List Job} {t : List Ev} (h : RunsAll js t) (e : Ev) :
    times e t = times e (allEvents (leavesAll js)) ∧ (leavesAll js).all (·.2) = true := by
  cases h with
  | nil => exact ⟨rfl, rfl⟩
  | cons h h' hm =>
    have h1 := runs_ok h rfl e
    have h2 := all_ok h' e
    rw [leavesAll, allEvents_append, times_append, mix_count hm, h1.1, h2.1, List.all_append, h1.2, h2.2]
    exact ⟨rfl, rfl⟩

end

theorem mix_left (a : List Ev) : Mix a [] a := by
  induction a with
  | nil => exact .nil
  | cons e a ih => exact .left e ih

theorem mix_right (a : List Ev) : Mix [] a a := by
  induction a with
  | nil => exact .nil
  | cons e a ih => exact .right e ih

theorem cut_all : (js : List Job) → (∀ j ∈ js, ∃ t ok, Runs j t ok) → RunsSome js [] false
  | [], _ => .nil
  | j :: js, h => by
    obtain ⟨t, ok, hr⟩ := h j (by simp)
    exact .cut (t := []) (r := t) hr (cut_all js fun k hk => h k (by simp [hk])) .nil

theorem mem_take_range (a m i : Nat) : i ∈ (List.range m).take a ↔ i < a ∧ i < m := by
  rw [List.take_range, List.mem_range]
  omega

theorem sentOf_range (k : Kind) (headerOnly : Bool) (n : Nat) (fate : Fate) :
    ∃ m, m ≤ n + 1 ∧ sentOf k headerOnly n fate = List.range m := by
  have hm : ∃ m, m ≤ n + 1 ∧ messages k headerOnly n = List.range m := by
    cases k <;> cases headerOnly
    · exact ⟨n + 1, Nat.le_refl _, rfl⟩
    · exact ⟨n + 1, Nat.le_refl _, rfl⟩
    · exact ⟨n + 1, Nat.le_refl _, rfl⟩
    · exact ⟨1, by omega, rfl⟩
  obtain ⟨m, hle, e⟩ := hm
  cases fate with
  | sent => exact ⟨m, hle, e⟩
  | raises a => exact ⟨min a m, by omega, by show (messages k headerOnly n).take a = _; rw [e, List.take_range]⟩
  | disconnect a =>
    cases k <;> cases headerOnly
    · exact ⟨m, hle, e⟩
    · exact ⟨m, hle, e⟩
    · exact ⟨min (a + 1) m, by omega, by show (messages _ _ n).take (a + 1) = _; rw [e, List.take_range]⟩
    · exact ⟨m, hle, e⟩

theorem mem_sentOf (k : Kind) (headerOnly : Bool) (n : Nat) (fate : Fate) (i : Nat) :
    i ∈ sentOf k headerOnly n fate ↔ i ≤ n ∧ (k = .streaming → headerOnly = true → i = 0) ∧
      (∀ a, fate = .raises a → i < a) ∧
      (∀ a, fate = .disconnect a → k = .streaming → headerOnly = false → i ≤ a) := by
  cases k <;> cases headerOnly <;> cases fate <;>
    simp [sentOf, messages, List.mem_range, List.take_range] <;> (try cases ‹Nat›) <;> (try simp) <;> omega

theorem responds_send {k : Kind} {headerOnly : Bool} {n i : Nat} {job : Option Job} {fate : Fate} {out : List Out}
    (h : Responds k headerOnly n job fate out) : Out.send i ∈ out ↔ i ∈ sentOf k headerOnly n fate := by
  cases h with
  | run => simp
  | skip => split <;> simp

end Verif.Background
