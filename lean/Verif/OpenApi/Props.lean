import Verif.OpenApi.Lemmas

/-!
# C73: the OpenAPI document describes the operations that are served

The document has an entry for a path template and a method exactly if a route that is to be in the
schema serves them, and the entry is that of its handler; the path parameters of the entry are those
of the template.
-/

namespace Verif.OpenApi

open Spec

/-- `Path("/users/{id}", get_user)`. -/
def exUser : Route :=
  .path "/users/{id}".toList (some ["GET".toList, "HEAD".toList]) true (.function 1)
/-- `Path("/items", Items)` with handlers for `GET` and `POST`. -/
def exItems : Route :=
  .path "/items".toList none true (.controller false [("GET".toList, 2), ("POST".toList, 3)])
/-- An application with both behind `/api`. -/
def exApp : List Route := [.mount "/api".toList true [exUser, exItems]]

theorem exNoParameter : ¬ HasParameter "/api".toList := by
  rintro ⟨a, b, e⟩
  have h : '{' ∈ "/api".toList := by rw [e]; simp
  revert h; decide

theorem exApp_simple : AllSimple exApp := by
  simp only [exApp, exUser, exItems, AllSimple, Simple, SimplePath, and_true, true_and]
  exact ⟨exNoParameter, fun _ => ⟨_, rfl⟩, fun _ => by decide⟩

/-- **C73 (partial), soundness and completeness.**  The document is made; every entry is an operation
that is declared for its template and method, and every template and method declared has an entry.

The full statement is for all routes.  Missing: includes with parameters (`C73_parameter_false`) or
outside the schema (`C73_schema_false`), hosts (`C73_host_false`), websockets (`C73_socket_false`),
classes made by `with_init` (`C73_init_false`), objects as applications (`C73_object_false`), and
controllers on paths with methods (`C73_methods_false`). -/
theorem C73_document_partial (rs : List Route) (hs : AllSimple rs) :
    ∃ d, document rs = some d ∧
      (∀ t m i, aget d (t, m) = some i → Declares rs t m i) ∧
      (∀ t m i, Declares rs t m i → ∃ j, aget d (t, m) = some j ∧ Declares rs t m j) := by
  obtain ⟨d, e, g⟩ := addAll_grown (gatherAll [] rs) [] (gatherAll_calm [] rs hs)
  have snd : ∀ t m i, aget d (t, m) = some i → Declares rs t m i := by
    intro t m i h
    rcases g.sound (t, m) i h with a | a
    · cases a
    · obtain ⟨u, hu, hd⟩ := (gatherAll_iff [] m i t rs hs).1 a
      rw [List.nil_append] at hu
      rw [hu]; exact hd
  refine ⟨d, e, snd, ?_⟩
  intro t m i hd
  obtain ⟨j, hj⟩ := g.full (t, m) i ((gatherAll_iff [] m i t rs hs).2 ⟨t, rfl, hd⟩)
  exact ⟨j, hj, snd t m j hj⟩

example : AllSimple exApp ∧ document exApp =
    some [(("/api/users/{id}".toList, "GET".toList), 1), (("/api/items".toList, "GET".toList), 2),
      (("/api/items".toList, "POST".toList), 3)] :=
  ⟨exApp_simple, by decide +kernel⟩

/-- **C73 (partial), exactness.**  If no template and method is declared twice with different
operations, the document says exactly what is declared. -/
theorem C73_exact_partial (rs : List Route) (hs : AllSimple rs)
    (hu : ∀ t m i j, Declares rs t m i → Declares rs t m j → i = j) :
    ∃ d, document rs = some d ∧ ∀ t m i, aget d (t, m) = some i ↔ Declares rs t m i := by
  obtain ⟨d, e, h1, h2⟩ := C73_document_partial rs hs
  refine ⟨d, e, fun t m i => ⟨h1 t m i, fun hd => ?_⟩⟩
  obtain ⟨j, hj, hd'⟩ := h2 t m i hd
  rw [hj, hu t m i j hd hd']

example : AllSimple [exUser] ∧
    (∀ t m i j, Declares [exUser] t m i → Declares [exUser] t m j → i = j) ∧
    Declares [exUser] "/users/{id}".toList "GET".toList 1 := by
  refine ⟨?_, ?_, ?_⟩
  · simp only [exUser, AllSimple, Simple, SimplePath, and_true]
    exact fun _ => ⟨_, rfl⟩
  · have key : ∀ t m i, Declares [exUser] t m i → i = 1 := by
      intro t m i h
      cases h with
      | path hm ho _ =>
        rw [List.mem_singleton, exUser] at hm
        injection hm with _ _ _ a4
        subst a4
        cases ho; rfl
      | mount hm => rw [List.mem_singleton] at hm; cases hm
      | host hm => rw [List.mem_singleton] at hm; cases hm
    intro t m i j h h'
    rw [key t m i h, key t m j h']
  · exact .path (List.mem_singleton.2 rfl) (.function (by decide)) (by decide)

/-- **C73, path parameters.**  The path parameters of an entry are the parameters of its template, in
order. -/
theorem C73_params (ps : List Piece) (h : WellFormed ps) : pathParams (render ps) = names ps :=
  findNames_render ps h

example : WellFormed [.lit "/users/".toList, .param "id".toList, .lit "/p".toList,
      .param "n".toList] ∧
    pathParams "/users/{id}/p{n}".toList = ["id".toList, "n".toList] := by
  refine ⟨?_, by decide +kernel⟩
  intro p hp
  simp only [List.mem_cons, List.not_mem_nil, or_false] at hp
  rcases hp with rfl | rfl | rfl | rfl <;> simp <;> decide

/-- **C73 is false of includes with parameters.**  `Include("/users/{id}", [Path("/posts", …)])` is
described as `/users/posts`, which no route serves; the parameter is lost. -/
theorem C73_parameter_false :
    ∃ (rs : List Route) (t u : Str), Declares rs t "GET".toList 1 ∧
      document rs = some [((u, "GET".toList), 1)] ∧ u ≠ t ∧
      pathParams t = ["id".toList] ∧ pathParams u = [] := by
  refine ⟨[.mount "/users/{id}".toList true
    [.path "/posts".toList (some ["GET".toList]) true (.function 1)]],
    "/users/{id}".toList ++ "/posts".toList, "/users/posts".toList,
    .mount (List.mem_singleton.2 rfl)
      (.path (List.mem_singleton.2 rfl) (.function (by decide)) (by decide)),
    by decide +kernel, by decide, by decide +kernel, by decide +kernel⟩

/-- **C73 is false of hidden includes.**  `include_in_schema=False` on an `Include` hides nothing. -/
theorem C73_schema_false :
    ∃ (rs : List Route) (d : Doc), (∀ t m i, ¬ Declares rs t m i) ∧ document rs = some d ∧ d ≠ [] :=
  ⟨[.mount "/internal".toList false [exUser]], [(("/internal/users/{id}".toList, "GET".toList), 1)],
    fun _ _ _ => hidden_mount, by decide +kernel, fun h => by cases h⟩

/-- **C73 is false of hosts.**  The routes behind a `Host` are not described. -/
theorem C73_host_false :
    ∃ (rs : List Route) (t : Str), Declares rs t "GET".toList 1 ∧ document rs = some [] :=
  ⟨[.host [exUser]], "/users/{id}".toList,
    .host (List.mem_singleton.2 rfl)
      (.path (List.mem_singleton.2 rfl) (.function (by decide)) (by decide)), by decide +kernel⟩

/-- **C73 is false of websockets.**  A websocket route is described as a `GET` operation, at its place
in the application, which is not served. -/
theorem C73_socket_false :
    ∃ rs : List Route, (∀ t m i, ¬ Declares rs t m i) ∧
      document rs = some [(("/chat/ws".toList, "GET".toList), 1)] := by
  have inner : ∀ t m i, ¬ Declares [.socket "/ws".toList true 1] t m i := by
    intro t m i h
    cases h with
    | path hm => rw [List.mem_singleton] at hm; cases hm
    | mount hm => rw [List.mem_singleton] at hm; cases hm
    | host hm => rw [List.mem_singleton] at hm; cases hm
  refine ⟨[.mount "/chat".toList true [.socket "/ws".toList true 1]], ?_, by decide +kernel⟩
  intro t m i h
  cases h with
  | path hm => rw [List.mem_singleton] at hm; cases hm
  | mount hm hd =>
    rw [List.mem_singleton] at hm
    injection hm with _ _ e
    rw [e] at hd
    exact inner _ _ _ hd
  | host hm => rw [List.mem_singleton] at hm; cases hm

/-- **C73 is false of `with_init`.**  The handlers of a controller that was given constructor arguments
are not described. -/
theorem C73_init_false :
    ∃ (rs : List Route) (t : Str), Declares rs t "GET".toList 2 ∧ document rs = some [] :=
  ⟨[.path "/items".toList none true (.initialised [("GET".toList, 2)])], "/items".toList,
    .path (List.mem_singleton.2 rfl)
      (.initialised (List.mem_singleton.2 rfl) (fun _ h => by cases h)) (by decide),
    by decide +kernel⟩

/-- **C73 is false of objects.**  One path with an ASGI object as handler, and there is no document at
all: `get_openapi` raises. -/
theorem C73_object_false :
    ∃ (rs : List Route) (t : Str), Declares rs t "GET".toList 1 ∧ document rs = none :=
  ⟨[exUser, .path "/legacy".toList none true .object], "/users/{id}".toList,
    .path (List.mem_cons_self ..) (.function (by decide)) (by decide), by decide +kernel⟩

/-- **C73 is false of controllers on paths with methods.**  `Path("/items", Items, methods=["GET"])`
refuses `POST`, which the document describes. -/
theorem C73_methods_false :
    ∃ (rs : List Route) (d : Doc) (t : Str), document rs = some d ∧
      aget d (t, "POST".toList) = some 3 ∧ ∀ i, ¬ Declares rs t "POST".toList i := by
  refine ⟨[.path "/items".toList (some ["GET".toList, "HEAD".toList]) true
      (.controller false [("GET".toList, 2), ("POST".toList, 3)])],
    [(("/items".toList, "GET".toList), 2), (("/items".toList, "POST".toList), 3)], "/items".toList,
    by decide +kernel, by decide +kernel, ?_⟩
  intro i h
  have := declares_methods h
  revert this
  decide

/-- **C73 is false of repeated declarations.**  Of two routes with one template and method the first
answers requests (`C04`), and the document describes the second. -/
theorem C73_twice_false :
    ∃ (rs : List Route) (t : Str), rs[0]? = some (.path t (some ["GET".toList]) true (.function 1)) ∧
      rs[1]? = some (.path t (some ["GET".toList]) true (.function 2)) ∧
      document rs = some [((t, "GET".toList), 2)] :=
  ⟨[.path "/a".toList (some ["GET".toList]) true (.function 1),
    .path "/a".toList (some ["GET".toList]) true (.function 2)], "/a".toList, rfl, rfl,
    by decide +kernel⟩

/-- **C73 is false of objects, always.**  Whatever else is declared, a path in the schema with an ASGI object as
handler, with no methods given or with any method but `HEAD`, and there is no document. -/
theorem C73_objects_false (before after : List Route) (t : Str) (ms : Option (List Str))
    (hm : ms = none ∨ ∃ l m, ms = some l ∧ m ∈ l ∧ m ≠ "HEAD".toList) :
    document (before ++ .path t ms true .object :: after) = none := by
  have leaf : ∀ (u : Str) (d : Doc), addLeaf u ⟨ms, true, .object⟩ d = none := by
    intro u d
    unfold addLeaf
    rw [if_neg (by simp), if_neg (by simp [excluded])]
    rcases hm with rfl | ⟨l, m, rfl, hml, hne⟩
    · rfl
    · show addMethods u .object l d = none
      induction l generalizing d with
      | nil => cases hml
      | cons a l ih =>
        rw [addMethods]
        by_cases ha : a = "HEAD".toList
        · rw [if_pos ha]
          rcases List.mem_cons.1 hml with e | e
          · exact absurd (e.trans ha) hne
          · exact ih d e
        · rw [if_neg ha]; rfl
  have gather : ∀ (b : Str) (rs : List Route), gatherAll b (rs ++ .path t ms true .object :: after) =
      gatherAll b rs ++ (b ++ t, ⟨ms, true, .object⟩) :: gatherAll b after := by
    intro b rs
    induction rs with
    | nil => rfl
    | cons r rs ih => rw [List.cons_append, gatherAll, ih, gatherAll, List.append_assoc]
  have all : ∀ (l r : List (Str × Leaf)) (u : Str) (d : Doc),
      addAll (l ++ (u, ⟨ms, true, .object⟩) :: r) d = none := by
    intro l
    induction l with
    | nil => intro r u d; rw [List.nil_append, addAll, leaf]
    | cons x l ih =>
      intro r u d
      rw [List.cons_append, addAll]
      cases addLeaf x.1 x.2 d with
      | none => rfl
      | some d' => exact ih r u d'
  unfold document
  rw [gather]
  exact all _ _ _ _

example : document [exUser, .path "/legacy".toList (some ["HEAD".toList, "GET".toList]) true .object, exUser] = none :=
  C73_objects_false [exUser] [exUser] _ _ (.inr ⟨_, "GET".toList, rfl, by decide, by decide⟩)


end Verif.OpenApi
