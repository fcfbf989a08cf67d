import Verif.SessionTheft.Spec
import Verif.SessionFlow.Props
import Verif.Proxies.Props

/-!
# Lemmas for C152
-/

namespace Verif.SessionTheft

open Verif Spec Session

theorem known (a : App) (h : Hit) (hk : Relayed a h ∨ Direct a h) : h.address a = some h.client := by
  unfold Hit.address
  rcases hk with ⟨r, post, he, h1, h2, h3, h4, h5, h6⟩ | ⟨he, h1, h2⟩
  · rw [he]
    exact Proxies.Props.C144_client_partial _ r post _ _ (.inr h1) h2 h3 h4 h5 h6
  · rw [he]
    exact Proxies.Props.C144_untrusted _ [] _ _ h1 h2

theorem fix_recorded (ip : Str) (s : Sess) : Session.Spec.recorded (fix ip s) = some (some ip) := by
  unfold fix Session.Spec.recorded
  split
  · exact aget_aset_self _ _ _
  · exact aget_aset_self _ _ _
  · rename_i old h
    split
    · rfl
    · rename_i he
      have : old = ip := Classical.byContradiction he
      rw [← this]
      exact h

theorem fix_same (ip : Str) (s : Sess) (h : Session.Spec.recorded s = some (some ip)) : fix ip s = s := by
  unfold fix
  rw [show aget s ipKey = some (some ip) from h]
  exact if_neg (fun hn => hn rfl)

theorem left_recorded (a : App) (q : Hit) (hc : Careful a q) (s : Sess) (hs : q.left a = some s) :
    ∃ ip, q.address a = some ip ∧ Session.Spec.recorded s = some (some ip) := by
  unfold Hit.left Hit.seen at hs
  cases ha : q.address a with
  | none => rw [ha] at hs; cases hs
  | some ip =>
    rw [ha] at hs
    have hs : q.handler (fix ip (q.loaded a).1) = s := Option.some.inj hs
    refine ⟨ip, rfl, ?_⟩
    rw [← hs, hc.1]
    exact fix_recorded ip _

theorem field_cancel (s : SessionFlow.Site) (t : Nat) (x y : Sess) (h : s.field t x = s.field t y) :
    s.signer.sign t x = s.signer.sign t y := by
  unfold SessionFlow.Site.field at h
  simp only [List.append_assoc] at h
  exact List.append_cancel_right (List.append_cancel_left (List.append_cancel_left h))

theorem field_ending (s : SessionFlow.Site) (t : Nat) (x : Sess) : s.field t x ≠ s.ending := by
  intro h
  unfold SessionFlow.Site.field SessionFlow.Site.ending at h
  simp only [List.append_assoc] at h
  have h := List.append_cancel_left h
  have e1 : "=\"".toList = ['=', '"'] := by decide
  have e2 : "=null; path=".toList = '=' :: 'n' :: "ull; path=".toList := by decide
  rw [e1, e2] at h
  injection h with _ h
  injection h with h _
  revert h
  decide

theorem field_own (s : SessionFlow.Site) (t : Nat) (x : Sess) : ∃ v, s.field t x = s.name ++ '=' :: v := by
  unfold SessionFlow.Site.field
  have e1 : "=\"".toList = '=' :: ['"'] := by decide
  rw [e1]
  simp only [List.append_assoc, List.cons_append]
  exact ⟨_, rfl⟩

/-- The session that an answer carries is the one that its handler left. -/
theorem answered (a : App) (q : Hit) (hc : Careful a q) (s' : Sess) (h : a.site.field q.time s' ∈ q.answer a) :
    ∃ s, q.left a = some s ∧ a.site.signer.sign q.time s' = a.site.signer.sign q.time s := by
  unfold Hit.answer at h
  cases hl : q.left a with
  | none => rw [hl] at h; cases h
  | some s =>
    rw [hl] at h
    dsimp only at h
    refine ⟨s, rfl, ?_⟩
    split at h
    · obtain ⟨v, hv⟩ := field_own a.site q.time s'
      have hn : a.site.field q.time s' ∉ q.fields := by
        rw [hv]
        exact hc.2 v
      have hno : ¬ ∃ v, a.site.name ++ '=' :: v ∈ q.fields := fun ⟨v, hv⟩ => hc.2 v hv
      obtain ⟨h1, h2, h3⟩ := (SessionFlow.Props.C142_already a.site q.time (q.loaded a).2 q.fields s).2 hno
      by_cases he : s = []
      · cases hb : (q.loaded a).2 with
        | true => rw [h3 he hb] at h; exact absurd h hn
        | false =>
          rw [h2 he hb] at h
          rcases List.mem_append.mp h with h | h
          · exact absurd h hn
          · exact absurd (List.mem_singleton.mp h) (field_ending _ _ _)
      · rw [h1 he] at h
        rcases List.mem_append.mp h with h | h
        · exact absurd h hn
        · exact field_cancel _ _ _ _ (List.mem_singleton.mp h)
    · cases h

/-- What is loaded is nothing, or what the handler of an earlier request left. -/
theorem loaded_from (a : App) (hr : Reads a.site.signer) (past : List Hit) (h : Hit) (hg : Genuine a past h)
    (hc : ∀ q ∈ past, Careful a q) : (h.loaded a).1 = [] ∨ ∃ q ∈ past, q.left a = some (h.loaded a).1 := by
  unfold Hit.loaded opened load SessionFlow.Site.conf
  dsimp only
  cases hd : aget h.cookies a.site.name with
  | none => exact .inl rfl
  | some d =>
    dsimp only
    cases hu : a.site.signer.unsign h.time d with
    | none => exact .inl rfl
    | some s =>
      right
      obtain ⟨q, hq, s', he, hf⟩ := hg d s hd hu
      obtain ⟨s0, hl, hs⟩ := answered a q (hc q hq) s' hf
      rw [he, hs] at hu
      exact ⟨q, hq, by rw [hl, hr _ _ _ _ hu]⟩

theorem possible_at (a : App) (past : List Hit) (q : Hit) (h : Possible a past) (hq : q ∈ past) :
    ∃ pre post, past = pre ++ q :: post ∧ Possible a (q :: post) := by
  induction past with
  | nil => cases hq
  | cons x past ih =>
    rcases List.mem_cons.mp hq with rfl | hq
    · exact ⟨[], past, rfl, h⟩
    · obtain ⟨pre, post, he, hp⟩ := ih h.2 hq
      exact ⟨x :: pre, post, by rw [he]; rfl, hp⟩

theorem origin (a : App) (hr : Reads a.site.signer) (n : Nat) : ∀ (past : List Hit) (h : Hit), past.length ≤ n →
    Possible a (h :: past) → (∀ q ∈ past, Careful a q) → ∀ ip s, h.address a = some ip → h.seen a = some s →
    ∀ kv ∈ s, kv = (ipKey, some ip) ∨ ∃ q ∈ past, q.address a = some ip ∧ Put a kv q := by
  induction n with
  | zero =>
    intro past h hn hp hc ip s ha hs kv hkv
    have : past = [] := List.eq_nil_of_length_eq_zero (Nat.le_zero.mp hn)
    subst this
    unfold Hit.seen at hs
    rw [ha] at hs
    have hs : fix ip (h.loaded a).1 = s := Option.some.inj hs
    rcases loaded_from a hr [] h hp.1 hc with hl | ⟨q, hq, _⟩
    · rw [hl] at hs
      rw [← hs] at hkv
      exact .inl (List.mem_singleton.mp hkv)
    · cases hq
  | succ n ih =>
    intro past h hn hp hc ip s ha hs kv hkv
    unfold Hit.seen at hs
    rw [ha] at hs
    have hs : fix ip (h.loaded a).1 = s := Option.some.inj hs
    rcases loaded_from a hr past h hp.1 hc with hl | ⟨q, hq, hl⟩
    · rw [hl] at hs
      rw [← hs] at hkv
      exact .inl (List.mem_singleton.mp hkv)
    · obtain ⟨old, hao, hrec⟩ := left_recorded a q (hc q hq) _ hl
      by_cases he : old = ip
      · subst he
        rw [fix_same old _ hrec] at hs
        rw [hs] at hl
        have hseen : q.seen a = some (fix old (q.loaded a).1) := by
          unfold Hit.seen
          rw [hao]
          rfl
        by_cases hm : kv ∈ fix old (q.loaded a).1
        · obtain ⟨pre, post, hsplit, hpq⟩ := possible_at a past q hp.2 hq
          have hlen : post.length ≤ n := by
            rw [hsplit] at hn
            simp only [List.length_append, List.length_cons] at hn
            omega
          have hsub : ∀ x ∈ post, x ∈ past := by
            intro x hx
            rw [hsplit]
            exact List.mem_append_right _ (List.mem_cons_of_mem _ hx)
          rcases ih post q hlen hpq (fun x hx => hc x (hsub x hx)) old _ hao hseen kv hm with h1 | ⟨x, hx, h2⟩
          · exact .inl h1
          · exact .inr ⟨x, hsub x hx, h2⟩
        · exact .inr ⟨q, hq, hao, _, _, hseen, hl, hkv, hm⟩
      · have hf : fix ip (h.loaded a).1 = [(ipKey, some ip)] := by
          unfold fix
          rw [show aget (h.loaded a).1 ipKey = some (some old) from hrec]
          exact if_pos he
        rw [hf] at hs
        rw [← hs] at hkv
        exact .inl (List.mem_singleton.mp hkv)

end Verif.SessionTheft
