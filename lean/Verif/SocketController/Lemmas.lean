import Verif.SocketController.Spec

namespace Verif.SocketController

open Spec

variable {J : Type}

/-- A message is plain: the text is not empty if there is no encoding, and for an encoding of one kind
the message has that kind. -/
theorem decode_reads {E : Env J} {enc : Enc} {f : Frame} {k : Content} {d : Data J}
    (hk : Carries f k) (hd : Reads E enc k d) (hne : enc = .none → f.text ≠ some (some [])) :
    decode E enc f = .ok d := by
  cases hd with
  | anyText s =>
    cases hk with
    | text _ b h =>
      cases s with
      | nil => exact absurd rfl (hne rfl)
      | cons c s => rfl
  | anyBytes s =>
    cases hk with
    | bytes _ t h => rcases h with h | h <;> subst h <;> rfl
  | text s => cases hk with | text _ b h => rfl
  | bytes s => cases hk with | bytes _ t h => rfl
  | jsonText s j h => cases hk with | text _ b hb => simp only [decode, decodeJson, readJson, h]
  | jsonBytes b s j hu h =>
    cases hk with
    | bytes _ t ht => rcases ht with ht | ht <;> subst ht <;> simp only [decode, decodeJson, readJson, hu, h]

theorem loop_stream {E : Env J} {c : Ctl J} : ∀ {fs : List Frame} {ds : List (Data J)},
    Stream E c.enc fs ds → (∀ f ∈ fs, c.enc = .none → f.text ≠ some (some [])) →
    ∀ (got : List (Data J)) (rest : List In),
    (∀ pre d post, ds = pre ++ d :: post → c.receiveRaises (got ++ pre) d = false) →
    loop E c got (fs.map In.frame ++ rest) =
      (ds.map Event.received ++ (loop E c (got ++ ds) rest).1, (loop E c (got ++ ds) rest).2) := by
  intro fs ds hs
  induction hs with
  | nil => intro _ got rest _; simp
  | cons f fs k d ds hk hd _ ih =>
    intro hne got rest hr
    have e := decode_reads hk hd (hne f List.mem_cons_self)
    have h0 : c.receiveRaises got d = false := by simpa using hr [] d ds rfl
    have h1 := ih (fun x hx => hne x (List.mem_cons_of_mem _ hx)) (got ++ [d]) rest (by
      intro pre d' post he
      have := hr (d :: pre) d' post (by rw [he]; rfl)
      simpa using this)
    rw [List.append_assoc] at h1
    rw [List.map_cons, List.cons_append, loop, e]
    simp only [h0, Bool.false_eq_true, if_false, h1]
    rfl

/-- What was handed over are the decoded first messages, all of them if nothing raised. -/
theorem loop_handed (E : Env J) (c : Ctl J) : ∀ (ms : List In) (got : List (Data J)),
    ∃ n, ((frames ms).take n).map (decode E c.enc) = (handed (loop E c got ms).1).map Decoded.ok ∧
      ((loop E c got ms).2 ≠ .raised → n = (frames ms).length)
  | [], _ => ⟨0, by simp [loop, handed], by simp [frames]⟩
  | .disconnect _ :: _, _ => ⟨0, by simp [loop, handed], by simp [frames]⟩
  | .frame f :: ms, got => by
    rw [loop]
    cases e : decode E c.enc f with
    | error => exact ⟨0, by simp [handed], fun h => absurd rfl h⟩
    | closed n => exact ⟨0, by simp [handed], fun h => absurd rfl h⟩
    | ok d =>
      simp only
      split
      · exact ⟨1, by simp [frames, handed, e], fun h => absurd rfl h⟩
      · obtain ⟨n, h2, h3⟩ := loop_handed E c ms (got ++ [d])
        refine ⟨n + 1, ?_, fun h => ?_⟩
        · simp [frames, handed, e, h2]
        · rw [h3 h]; rfl

theorem loop_told (E : Env J) (c : Ctl J) : ∀ (ms : List In) (got : List (Data J)),
    ((loop E c got ms).2 = .waiting → told (loop E c got ms).1 = []) ∧
    ((loop E c got ms).2 ≠ .waiting →
      ∃ es n, (loop E c got ms).1 = es ++ [.disconnected n] ∧ told es = []) ∧
    ((loop E c got ms).2 = .raised → ∃ es, (loop E c got ms).1 = es ++ [.disconnected 1011])
  | [], _ => ⟨fun _ => rfl, fun h => absurd rfl h, fun h => nomatch h⟩
  | .disconnect code :: _, _ =>
    ⟨fun h => (nomatch h), fun _ => ⟨[], _, rfl, rfl⟩, fun h => nomatch h⟩
  | .frame f :: ms, got => by
    rw [loop]
    cases e : decode E c.enc f with
    | error => exact ⟨fun h => (nomatch h), fun _ => ⟨[], _, rfl, rfl⟩, fun _ => ⟨[], rfl⟩⟩
    | closed n =>
      exact ⟨fun h => (nomatch h), fun _ => ⟨[.closed n], _, rfl, rfl⟩, fun _ => ⟨[.closed n], rfl⟩⟩
    | ok d =>
      simp only
      split
      · exact ⟨fun h => (nomatch h), fun _ => ⟨[.received d], _, rfl, rfl⟩,
          fun _ => ⟨[.received d], rfl⟩⟩
      · obtain ⟨h1, h2, h3⟩ := loop_told E c ms (got ++ [d])
        refine ⟨fun h => h1 h, fun h => ?_, fun h => ?_⟩
        · obtain ⟨es, n, e1, e2⟩ := h2 h
          exact ⟨.received d :: es, n, by rw [e1]; rfl, e2⟩
        · obtain ⟨es, e1⟩ := h3 h
          exact ⟨.received d :: es, by rw [e1]; rfl⟩

theorem handed_map (ds : List (Data J)) (es : List (Event J)) :
    handed (ds.map Event.received ++ es) = ds ++ handed es := by
  induction ds with
  | nil => rfl
  | cons d ds ih => rw [List.map_cons, List.cons_append, handed, ih]; rfl

theorem told_map (ds : List (Data J)) (es : List (Event J)) :
    told (ds.map Event.received ++ es) = told es := by
  induction ds with
  | nil => rfl
  | cons d ds ih => simpa [told] using ih

theorem told_append (es fs : List (Event J)) : told (es ++ fs) = told es ++ told fs := by
  induction es with
  | nil => rfl
  | cons e es ih => cases e <;> simp [told, ih]

end Verif.SocketController
