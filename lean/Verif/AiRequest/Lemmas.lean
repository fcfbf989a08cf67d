import Verif.AiRequest.Spec

/-!
# Lemmas for C101
-/

namespace Verif.AiRequest

open Verif Verif.AiRequest.Spec

section

variable {α : Type}

theorem aget_notmem {ν : Type} (e : List (Str × ν)) (k : Str) (h : k ∉ e.map (·.1)) : aget e k = none := by
  induction e with
  | nil => rfl
  | cons kv rest ih =>
    obtain ⟨k', v⟩ := kv
    simp only [List.map_cons, List.mem_cons, not_or] at h
    rw [aget, if_neg (fun e => h.1 e.symm), ih h.2]

theorem aget_update {ν : Type} (d e : List (Str × ν)) (k : Str) (h : (e.map (·.1)).Nodup) :
    aget (aupdate d e) k = (aget e k).or (aget d k) := by
  induction e generalizing d with
  | nil => rfl
  | cons kv rest ih =>
    obtain ⟨k', v⟩ := kv
    simp only [List.map_cons, List.nodup_cons] at h
    have : aupdate d ((k', v) :: rest) = aupdate (aset d k' v) rest := rfl
    rw [this, ih _ h.2, aget_aset, aget]
    by_cases hk : k' = k
    · subst hk
      rw [if_pos rfl, if_pos rfl, aget_notmem rest k' h.1]; rfl
    · rw [if_neg hk, if_neg (Ne.symm hk)]

theorem aget_put (p : Payload α) (k k' : Str) (v : Option (Val α)) :
    aget (put p k v) k' = if k' = k then v.or (aget p k') else aget p k' := by
  cases v with
  | none => simp [put]
  | some v => simp only [put]; rw [aget_aset]; rfl

theorem orElse_none (a : Option Str) (t : Str) : orElse a none = some t ↔ Nonblank a t := by
  unfold Nonblank
  match a with
  | none => simp [orElse]
  | some [] => simp [orElse]
  | some (c :: s) =>
    simp only [orElse, Option.some.injEq]
    constructor
    · rintro rfl; simp
    · exact fun h => h.1

theorem orElse_chosen (a b : Option Str) (t : Str) : orElse (orElse a b) none = some t ↔ Chosen a b t := by
  constructor
  · intro h
    match a, h with
    | some (c :: s), h => exact .call _ _ _ ((orElse_none _ _).1 h)
    | some [], h =>
      exact .default _ _ _ (fun u hu => hu.2 (by have := hu.1; simpa using this.symm)) ((orElse_none _ _).1 h)
    | none, h => exact .default _ _ _ (fun u hu => by cases hu.1) ((orElse_none _ _).1 h)
  · intro h
    cases h with
    | call h => rw [h.1]; match t, h.2 with | c :: s, _ => rfl
    | default h h' =>
      have : orElse a b = b := by
        match a, h with
        | some (c :: s), h => exact absurd ⟨rfl, by simp⟩ (h (c :: s))
        | some [], _ => rfl
        | none, _ => rfl
      rw [this]; exact (orElse_none _ _).2 h'

theorem given_iff (a : Option Str) : given a = true ↔ ∃ t, orElse a none = some t := by
  unfold given
  cases h : orElse a none <;> simp

theorem nonEmpty_eq {β : Type} (l : List β) (f : List β → Val α) :
    nonEmpty l f = if l = [] then none else some (f l) := by cases l <;> rfl

theorem role_text (r s : Role) : r.text = s.text ↔ r = s := by
  cases r <;> cases s <;> decide

theorem any_iff {β : Type} (o : Option β) (q : β → Prop) [DecidablePred q] :
    o.any (fun x => decide (q x)) = true ↔ ∃ x, o = some x ∧ q x := by
  cases o <;> simp

theorem valid_iff (r : Request α) (h : r.messages ≠ []) : valid r = true ↔
    ¬((∃ n, r.maxTokens = some n ∧ n ≤ 0) ∨ (∃ t, r.temperature = some t ∧ t < 0) ∨
      ∃ p, r.topP = some p ∧ (p < 0 ∨ 1 < p)) := by
  have hp : ∀ p : Rat, (¬(0 ≤ p ∧ p ≤ 1)) ↔ (p < 0 ∨ 1 < p) := by
    intro p
    rw [Classical.not_and_iff_not_or_not, Rat.not_le, Rat.not_le]
  have h3 : (∃ p, r.topP = some p ∧ (p < 0 ∨ 1 < p)) ↔ ∃ p, r.topP = some p ∧ ¬(0 ≤ p ∧ p ≤ 1) := by
    constructor
    · rintro ⟨p, e, h⟩; exact ⟨p, e, (hp p).2 h⟩
    · rintro ⟨p, e, h⟩; exact ⟨p, e, (hp p).1 h⟩
  rw [h3, ← any_iff r.maxTokens (· ≤ 0), ← any_iff r.temperature (· < 0),
    ← any_iff r.topP (fun p => ¬(0 ≤ p ∧ p ≤ 1))]
  unfold valid
  rw [if_neg h]
  by_cases a : r.maxTokens.any (fun x => decide (x ≤ 0)) = true
  · rw [if_pos a]; simp [a]
  · rw [if_neg a]
    by_cases b : r.temperature.any (fun x => decide (x < 0)) = true
    · rw [if_pos b]; simp [b]
    · rw [if_neg b]
      by_cases c : r.topP.any (fun p => decide (¬(0 ≤ p ∧ p ≤ 1))) = true
      · rw [if_pos c]; exact ⟨fun h => absurd h (by decide), fun h => absurd (.inr (.inr c)) h⟩
      · rw [if_neg c]
        exact ⟨fun _ h => h.elim a fun h => h.elim b c, fun _ => rfl⟩

theorem chat_none_iff (v : Vendor) (c : Client) (stream : Bool) (messages : List Msg) (call : Call α) :
    chat v c stream messages call = none ↔ buildRequest c messages call = none := by
  unfold chat
  cases h : buildRequest c messages call with
  | none => simp
  | some r =>
    simp only [Option.bind_some, reduceCtorEq, iff_false]
    unfold buildRequest at h
    split at h
    · cases h
    · split at h
      · cases h
      · rename_i hg
        have hm : r.model = orElse call.model c.model := by
          dsimp only at h
          split at h
          · cases h; rfl
          · cases h
        have hg' : given (orElse call.model c.model) = true := by simpa using hg
        obtain ⟨t, ht⟩ := (given_iff _).1 hg'
        cases v with
        | openai => simp only [payload, openaiPayload, hm, ht]; simp
        | anthropic m => simp only [payload, anthropicPayload, hm, ht]; simp

/-- The request that is built. -/
theorem build_some (c : Client) (messages : List Msg) (call : Call α) (r : Request α)
    (h : buildRequest c messages call = some r) :
    r = { messages := messages, model := orElse call.model c.model
          systemPrompt := orElse call.systemPrompt c.systemPrompt
          temperature := call.temperature, maxTokens := call.maxTokens, topP := call.topP, stop := call.stop
          metadata := call.metadata, extra := call.extra } ∧ valid r = true ∧
      ∃ t, Chosen call.model c.model t := by
  unfold buildRequest at h
  split at h
  · cases h
  · split at h
    · cases h
    · rename_i hg
      have hg' : given (orElse call.model c.model) = true := by simpa using hg
      obtain ⟨t, ht⟩ := (given_iff _).1 hg'
      dsimp only at h
      split at h
      · rename_i hv
        cases h
        exact ⟨rfl, hv, t, (orElse_chosen _ _ _).1 ht⟩
      · cases h

theorem chain3 (a b c t x p q m : Str) (va vb vc : Val α) (vt vx vp vq vm : Option (Val α))
    (h : [m, q, p, x, t, a, b, c].Nodup) (k : Str) :
    aget (put (put (put (put (put [(a, va), (b, vb), (c, vc)] t vt) x vx) p vp) q vq) m vm) k =
      if k = m then vm else if k = q then vq else if k = p then vp else if k = x then vx else if k = t then vt
      else if k = a then some va else if k = b then some vb else if k = c then some vc else none := by
  have base : ∀ k, aget ([(a, va), (b, vb), (c, vc)] : Payload α) k =
      if k = a then some va else if k = b then some vb else if k = c then some vc else none := by
    intro k; simp only [aget, eq_comm (b := k)]
  simp only [aget_put, base]
  simp only [List.nodup_cons, List.mem_cons, not_or, List.not_mem_nil, not_false_eq_true, and_true] at h
  obtain ⟨⟨m1, m2, m3, m4, m5, m6, m7⟩, ⟨q1, q2, q3, q4, q5, q6⟩, ⟨p1, p2, p3, p4, p5⟩, ⟨x1, x2, x3, x4⟩, ⟨t1, t2, t3⟩,
    _⟩ := h
  by_cases h1 : k = m
  · subst h1; simp [*]
  by_cases h2 : k = q
  · subst h2; simp [*]
  by_cases h3 : k = p
  · subst h3; simp [*]
  by_cases h4 : k = x
  · subst h4; simp [*]
  by_cases h5 : k = t
  · subst h5; simp [*]
  simp [*]

theorem chain4 (a b c d t x p q m : Str) (va vb vc vd : Val α) (vt vx vp vq vm : Option (Val α))
    (h : [m, q, p, x, t, a, b, c, d].Nodup) (k : Str) :
    aget (put (put (put (put (put [(a, va), (b, vb), (c, vc), (d, vd)] t vt) x vx) p vp) q vq) m vm) k =
      if k = m then vm else if k = q then vq else if k = p then vp else if k = x then vx else if k = t then vt
      else if k = a then some va else if k = b then some vb else if k = c then some vc
      else if k = d then some vd else none := by
  have base : ∀ k, aget ([(a, va), (b, vb), (c, vc), (d, vd)] : Payload α) k =
      if k = a then some va else if k = b then some vb else if k = c then some vc
      else if k = d then some vd else none := by
    intro k; simp only [aget, eq_comm (b := k)]
  simp only [aget_put, base]
  simp only [List.nodup_cons, List.mem_cons, not_or, List.not_mem_nil, not_false_eq_true, and_true] at h
  obtain ⟨⟨m1, m2, m3, m4, m5, m6, m7, m8⟩, ⟨q1, q2, q3, q4, q5, q6, q7⟩, ⟨p1, p2, p3, p4, p5, p6⟩,
    ⟨x1, x2, x3, x4, x5⟩, ⟨t1, t2, t3, t4⟩, _⟩ := h
  by_cases h1 : k = m
  · subst h1; simp [*]
  by_cases h2 : k = q
  · subst h2; simp [*]
  by_cases h3 : k = p
  · subst h3; simp [*]
  by_cases h4 : k = x
  · subst h4; simp [*]
  by_cases h5 : k = t
  · subst h5; simp [*]
  simp [*]

/-- The fields of OpenAI, with `extra` over them. -/
theorem openai_fields (r : Request α) (stream : Bool) (t : Str) (k : Str) (hm : orElse r.model none = some t)
    (p : Payload α) (h : openaiPayload r stream = some p) (hd : (r.extra.map (·.1)).Nodup) :
    aget p k = (aget r.extra k).or (
      if k = "metadata".toList then nonEmpty r.metadata .data
      else if k = "stop".toList then nonEmpty r.stop .texts
      else if k = "top_p".toList then r.topP.map .num
      else if k = "max_tokens".toList then r.maxTokens.map .count
      else if k = "temperature".toList then r.temperature.map .num
      else if k = "model".toList then some (.text t)
      else if k = "messages".toList then some (.turns (serialize r.messages r.systemPrompt))
      else if k = "stream".toList then some (.flag stream)
      else none) := by
  unfold openaiPayload at h
  rw [hm] at h
  dsimp only at h
  cases h
  rw [aget_update _ _ _ hd, chain3]
  decide

/-- `request.max_tokens or default`. -/
def limit (r : Request α) (m : Int) : Int :=
  match r.maxTokens with
  | some n => if n = 0 then m else n
  | none => m

/-- The fields of Anthropic, with `extra` over them. -/
theorem anthropic_fields (r : Request α) (m : Int) (stream : Bool) (t : Str) (k : Str)
    (hm : orElse r.model none = some t)
    (p : Payload α) (h : anthropicPayload m r stream = some p) (hd : (r.extra.map (·.1)).Nodup) :
    aget p k = (aget r.extra k).or (
      if k = "metadata".toList then nonEmpty r.metadata .data
      else if k = "stop_sequences".toList then nonEmpty r.stop .texts
      else if k = "top_p".toList then r.topP.map .num
      else if k = "temperature".toList then r.temperature.map .num
      else if k = "system".toList then (systemText (systemParts r.messages r.systemPrompt)).map .text
      else if k = "model".toList then some (.text t)
      else if k = "messages".toList then some (.turns (plainTurns r.messages))
      else if k = "max_tokens".toList then some (.count (limit r m))
      else if k = "stream".toList then some (.flag stream)
      else none) := by
  have e : anthropicPayload m r stream = some (aupdate (put (put (put (put (put
      [("model".toList, .text t), ("messages".toList, .turns (plainTurns r.messages)),
        ("max_tokens".toList, .count (limit r m)), ("stream".toList, .flag stream)]
      "system".toList ((systemText (systemParts r.messages r.systemPrompt)).map .text))
      "temperature".toList (r.temperature.map .num)) "top_p".toList (r.topP.map .num))
      "stop_sequences".toList (nonEmpty r.stop .texts)) "metadata".toList (nonEmpty r.metadata .data)) r.extra) := by
    unfold anthropicPayload
    rw [hm]; rfl
  rw [e] at h
  cases h
  rw [aget_update _ _ _ hd, chain4]
  decide

/-- The instructions among the messages of OpenAI. -/
theorem serialize_system (messages : List Msg) (s : Option Str) :
    ((serialize messages s).filter fun t => t.role = "system".toList).map (·.content) =
      instructionsMeant (orElse s none) messages := by
  unfold serialize instructionsMeant
  rw [List.filter_append, List.map_append]
  congr 1
  · cases orElse s none with
    | none => rfl
    | some x => simp only [Option.toList, List.map_cons, List.map_nil]; rw [List.filter_cons_of_pos (by simp)]; rfl
  · induction messages with
    | nil => rfl
    | cons m ms ih =>
      by_cases hr : m.role = .system
      · rw [List.map_cons, List.filter_cons_of_pos (by simp only [hr]; rfl), List.filter_cons_of_pos (by simp [hr]),
          List.map_cons, List.map_cons, ih]
      · rw [List.map_cons, List.filter_cons_of_neg ?_, List.filter_cons_of_neg (by simp [hr]), ih]
        simp only [decide_eq_true_eq]
        exact fun e => hr ((role_text m.role .system).1 e)

/-- Names that are not empty. -/
def Named (messages : List Msg) : Prop := ∀ m ∈ messages, m.name ≠ some []

theorem orElse_self (a : Option Str) (h : a ≠ some []) : orElse a none = a := by
  match a, h with
  | none, _ => rfl
  | some [], h => exact absurd rfl h
  | some (c :: s), _ => rfl

theorem serialize_rest (messages : List Msg) (s : Option Str) (h : Named messages) :
    ((serialize messages s).filter fun t => t.role ≠ "system".toList).map (fun t => (t.role, t.content, t.name)) =
      meant messages := by
  unfold serialize meant
  rw [List.filter_append, List.map_append]
  have h1 : (((orElse s none).toList.map fun s => ({ role := "system".toList, content := s } : Turn)).filter
      fun t => t.role ≠ "system".toList) = [] := by
    cases orElse s none with
    | none => rfl
    | some x => simp only [Option.toList, List.map_cons, List.map_nil]; rw [List.filter_cons_of_neg (by simp)]; rfl
  rw [h1, List.map_nil, List.nil_append]
  induction messages with
  | nil => rfl
  | cons m ms ih =>
    have ih := ih (fun x hx => h x (List.mem_cons_of_mem _ hx))
    by_cases hr : m.role = .system
    · rw [List.map_cons, List.filter_cons_of_neg (by simp only [hr]; decide),
        List.filter_cons_of_neg (by simp [hr]), ih]
    · rw [List.map_cons, List.filter_cons_of_pos ?_, List.filter_cons_of_pos (by simp [hr]), List.map_cons,
        List.map_cons, ih]
      · simp only [orElse_self m.name (h m (List.mem_cons_self ..))]
      · simp only [ne_eq, decide_not, Bool.not_eq_true', decide_eq_false_iff_not]
        exact fun e => hr ((role_text m.role .system).1 e)

theorem plain_rest (messages : List Msg) (h : Named messages) :
    ((plainTurns messages).filter fun t => t.role ≠ "system".toList).map (fun t => (t.role, t.content, t.name)) =
      meant messages := by
  unfold plainTurns meant
  induction messages with
  | nil => rfl
  | cons m ms ih =>
    have ih := ih (fun x hx => h x (List.mem_cons_of_mem _ hx))
    by_cases hr : m.role = .system
    · rw [List.filter_cons_of_neg (by simp [hr]), ih]
    · rw [List.filter_cons_of_pos (by simp [hr]), List.map_cons, List.filter_cons_of_pos ?_, List.map_cons,
        List.map_cons, ih]
      · simp only [orElse_self m.name (h m (List.mem_cons_self ..))]
      · simp only [ne_eq, decide_not, Bool.not_eq_true', decide_eq_false_iff_not]
        exact fun e => hr ((role_text m.role .system).1 e)

theorem paragraphs_join (parts : List Str) :
    joinWith ['\n', '\n'] (parts.filter fun p => p ≠ []) = paragraphs parts := by
  induction parts with
  | nil => rfl
  | cons p ps ih =>
    match p with
    | [] => rw [List.filter_cons_of_neg (by simp), ih]; rfl
    | c :: s =>
      rw [List.filter_cons_of_pos (by simp), paragraphs, ← ih]
      cases hq : ps.filter fun p => p ≠ [] with
      | nil => simp [joinWith]
      | cons q qs =>
        have hne : q ≠ [] := by
          have : q ∈ ps.filter fun p => p ≠ [] := by rw [hq]; exact List.mem_cons_self ..
          simpa using (List.mem_filter.1 this).2
        have hne' : joinWith ['\n', '\n'] (q :: qs) ≠ [] := by
          cases qs with
          | nil => exact hne
          | cons r rs =>
            match q, hne with
            | d :: q', _ => simp [joinWith]
        rw [if_neg hne']
        simp [joinWith]

theorem systemText_eq (parts : List Str) :
    systemText parts = if paragraphs parts = [] then none else some (paragraphs parts) := by
  unfold systemText
  rw [paragraphs_join]
  cases paragraphs parts <;> simp [orElse]

end

end Verif.AiRequest
