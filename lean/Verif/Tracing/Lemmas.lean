import Verif.Tracing.Spec

/-!
# Lemmas on traces
-/

namespace Verif.Tracing

open Verif

variable {E C : Type}

theorem says_set (s : Span E C) (k k' : Attr) (v : Value) :
    Spec.says (s.set k v) k' = if k' = k then some v else Spec.says s k' := by
  simp only [Spec.says, Span.set]
  by_cases h : k' = k
  · subst h; simp [aget_aset_self]
  · rw [if_neg h, aget_aset_ne _ _ _ _ h]

theorem observe_code (ms : List Msg) : ∀ (s : Span E C) (c : Int),
    (observe s c ms).2 = (Spec.codes ms).getLastD c := by
  induction ms with
  | nil => intro s c; rfl
  | cons m ms ih =>
    intro s c
    cases m with
    | start st =>
      cases st with
      | none => simp only [observe, Spec.codes, ih, codeOf, List.getLastD_cons]; rfl
      | some n => simp only [observe, Spec.codes, ih, codeOf, List.getLastD_cons]; rfl
    | body d => simp [observe, Spec.codes, ih]

theorem observe_says (ms : List Msg) (k : Attr) (hk : k ≠ .statusCode) : ∀ (s : Span E C) (c : Int),
    Spec.says (observe s c ms).1 k = Spec.says s k := by
  induction ms with
  | nil => intro s c; rfl
  | cons m ms ih =>
    intro s c
    cases m with
    | start st => simp only [observe]; rw [ih, says_set, if_neg hk]
    | body d => simp only [observe]; rw [ih]

theorem observe_says_code (ms : List Msg) : ∀ (s : Span E C) (c : Int),
    Spec.says (observe s c ms).1 .statusCode =
      match (Spec.codes ms).getLast? with
      | some n => some (.num n)
      | none => Spec.says s .statusCode := by
  induction ms with
  | nil => intro s c; rfl
  | cons m ms ih =>
    intro s c
    cases m with
    | start st =>
      simp only [observe]; rw [ih, says_set, if_pos rfl]
      cases st with
      | none => simp only [Spec.codes, List.getLast?_cons]; cases (Spec.codes ms).getLast? <;> rfl
      | some n => simp only [Spec.codes, List.getLast?_cons]; cases (Spec.codes ms).getLast? <;> rfl
    | body d => simp only [observe, Spec.codes]; rw [ih]

/-- Everything of a span but its attributes. -/
def rest (s : Span E C) : Str × Option C × Status × List (Exc E) := (s.name, s.parent, s.status, s.recorded)

theorem rest_set (s : Span E C) (k : Attr) (v : Value) : rest (s.set k v) = rest s := rfl

theorem rest_port (s : Span E C) (p : Option Nat) : rest (s.withPort p) = rest s := by
  unfold Span.withPort; (repeat' split) <;> rfl

theorem rest_client (s : Span E C) (p : Option (Str × Nat)) : rest (s.withClient p) = rest s := by
  unfold Span.withClient; (repeat' split) <;> rfl

theorem rest_route (s : Span E C) (p q : Option Str) : rest (s.withRoute p q) = rest s := by
  unfold Span.withRoute; (repeat' split) <;> rfl

theorem rest_http (s : Span E C) (p : Option Str) : rest (s.withHttpRoute p) = rest s := by
  unfold Span.withHttpRoute; (repeat' split) <;> rfl

theorem rest_path (s : Span E C) (p : Option Str) : rest (s.withPath p) = rest s := by
  unfold Span.withPath; (repeat' split) <;> rfl

theorem opening_rest (s : Span E C) (r : Req) (u : Url) : rest (opening s r u) = rest s := by
  unfold opening
  rw [rest_http, rest_route, rest_client, rest_set, rest_set, rest_port, rest_set]

theorem closing_rest (s : Span E C) (p q : Option Str) : rest (closing s p q) = rest s := by
  unfold closing
  rw [rest_route, rest_path]

theorem observe_rest (ms : List Msg) : ∀ (s : Span E C) (c : Int), rest (observe s c ms).1 = rest s := by
  induction ms with
  | nil => intro s c; rfl
  | cons m ms ih =>
    intro s c
    cases m with
    | start st => simp only [observe]; rw [ih]; rfl
    | body d => simp only [observe]; exact ih _ _

theorem says_port (s : Span E C) (p : Option Nat) (k : Attr) : Spec.says (s.withPort p) k =
    if k = .port then (match p with
      | some n => if n = 0 then Spec.says s .port else some (.num n)
      | none => Spec.says s .port) else Spec.says s k := by
  unfold Span.withPort
  cases p with
  | none => by_cases h : k = .port <;> simp [h]
  | some n =>
    by_cases h : k = .port <;> by_cases h0 : n = 0 <;> simp [h, h0, says_set]

theorem says_client (s : Span E C) (p : Option (Str × Nat)) (k : Attr) : Spec.says (s.withClient p) k =
    match p with
    | some (a, n) => if k = .clientPort then some (.num n) else if k = .clientAddress then some (.text a) else
        Spec.says s k
    | none => Spec.says s k := by
  unfold Span.withClient
  cases p with
  | none => rfl
  | some x => obtain ⟨a, n⟩ := x; dsimp only; rw [says_set, says_set]

theorem says_route (s : Span E C) (p q : Option Str) (k : Attr) : Spec.says (s.withRoute p q) k =
    match p.or q with
    | some t => if k = .lilyaRoute then some (.text t) else Spec.says s k
    | none => Spec.says s k := by
  unfold Span.withRoute
  cases p.or q with
  | none => rfl
  | some x => dsimp only; rw [says_set]

theorem says_http (s : Span E C) (p : Option Str) (k : Attr) : Spec.says (s.withHttpRoute p) k =
    match p with
    | some t => if k = .httpRoute then some (.text t) else Spec.says s k
    | none => Spec.says s k := by
  unfold Span.withHttpRoute
  cases p with
  | none => rfl
  | some x => dsimp only; rw [says_set]

theorem says_path (s : Span E C) (p : Option Str) (k : Attr) : Spec.says (s.withPath p) k =
    match p with
    | some t => if k = .urlPath then some (.text t) else Spec.says s k
    | none => Spec.says s k := by
  unfold Span.withPath
  cases p with
  | none => rfl
  | some x => dsimp only; rw [says_set]

/-- The span of a request whose application ended and whose server is known. -/
theorem serve_span (parent : Option C) (r : Req) (u : Url) (app : Run E) (ms : Int) (h : Str) (hu : r.url = some u)
    (hs : serverHost r.server = some h) (k : Attr) :
    Spec.says (serve parent r app ms).span k = Spec.says (closing ((((observe (opening
      ((⟨"HTTP ".toList ++ r.method, parent, [], .unset, []⟩ : Span E C).set .method (.text r.method)) r u) 500
        app.messages).1.set .duration (.num ms)).set .method (.text r.method)).set .address (.text h)) r.path app.route)
        k := by
  have hc : ∀ (s s' : Span E C) (p q : Option Str), s.attrs = s'.attrs →
      (closing s p q).attrs = (closing s' p q).attrs := by
    intro s s' p q hh
    unfold closing Span.withRoute Span.withPath
    cases p <;> cases q <;> simp [Span.set, hh]
  unfold serve
  dsimp only
  rw [hu]; dsimp only; rw [hs]
  cases app.raised with
  | none => rfl
  | some e => exact congrArg (fun l => aget l k) (hc _ _ _ _ rfl)

theorem failure_iff (c : Int) : Spec.Failure c ↔ 400 ≤ c ∧ c < 600 := by
  constructor
  · rintro ⟨k, rfl | rfl, h1, h2⟩ <;> omega
  · intro h
    by_cases h5 : c < 500
    · exact ⟨4, Or.inl rfl, by omega, by omega⟩
    · exact ⟨5, Or.inr rfl, by omega, by omega⟩

theorem statusOf_error (c : Int) : statusOf c = .error ↔ Spec.Failure c := by
  rw [failure_iff]
  unfold statusOf
  split <;> simp_all

theorem statusOf_ok (c : Int) : statusOf c = .ok ↔ ¬ Spec.Failure c := by
  rw [failure_iff]
  unfold statusOf
  split <;> simp_all

theorem seen_stop (beh : Nat → Router.Behave) : ∀ (rs : List Router.Route) (c : Router.Ctx) (acc : Option Router.Route)
    (had : Bool) (ls : List Router.Leaf) (id : Nat) (ps : List (Str × Path.Val)), Spec.Flat rs →
    Router.runRoutes beh rs c had ls = .stop (.ran id ps) →
    ∃ r, seenRoute beh rs c acc = some r ∧ r ∈ rs ∧ Spec.IsHandler r id := by
  intro rs
  induction rs with
  | nil => intro c acc had ls id ps _ h; simp [Router.runRoutes] at h
  | cons r rs ih =>
    intro c acc had ls id ps hf h
    obtain ⟨l, rfl⟩ := hf r List.mem_cons_self
    have hf' : Spec.Flat rs := fun x hx => hf x (List.mem_cons_of_mem _ hx)
    simp only [Router.runRoutes] at h
    simp only [seenRoute]
    rcases hr : Router.runRoute beh (.leaf l) c with ⟨o, ls', hm, ps'⟩
    rw [hr] at h
    cases o with
    | none =>
      dsimp only at h ⊢
      obtain ⟨r, h1, h2, h3⟩ := ih _ (if fully (.leaf l) c = true then some (.leaf l) else acc) _ _ _ _ hf' h
      exact ⟨r, h1, List.mem_cons_of_mem _ h2, h3⟩
    | some o =>
      dsimp only at h ⊢
      injection h with h; subst h
      refine ⟨.leaf l, ?_, List.mem_cons_self, l, rfl, ?_⟩
      · have : fully (.leaf l) c = true := by
          unfold fully; dsimp only
          unfold Router.runRoute at hr
          cases hs : l.search c <;> rw [hs] at hr <;> simp at hr ⊢
        rw [if_pos this]
      · unfold Router.runRoute at hr
        cases hs : l.search c <;> rw [hs] at hr <;> simp at hr
        cases hb : beh l.id <;> rw [hb] at hr <;> simp at hr
        exact hr.1.1

end Verif.Tracing
