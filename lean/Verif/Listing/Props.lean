import Verif.Listing.Lemmas
import Verif.Router.Model

/-!
# C122: the table of URLs
-/

namespace Verif.Listing.Props

open Verif Path Path.Spec Spec

/-! ## Examples -/

/-- `Path("/{id:int}", …)`. -/
def item : Leaf := ⟨"/{id:int}".toList, [("id".toList, "int".toList)], "item".toList, .async,
  some ["PUT".toList, "GET".toList, "HEAD".toList]⟩

/-- `Path("/", …)`. -/
def home : Leaf := ⟨"/".toList, [], "home".toList, .plain, some ["GET".toList, "HEAD".toList]⟩

/-- An application with an include. -/
def app : List Route :=
  [.path home, .socket "/ws".toList, .incl "/api".toList [.incl "/".toList [.path item], .path home]]

theorem app_ordinary : OrdinaryAll app :=
  .cons _ _ (.path _ ⟨[], rfl⟩ (by decide)) (.cons _ _ (.socket _) (.cons _ _ (.incl _ _ ⟨_, rfl⟩
    (.cons _ _ (.incl _ _ ⟨_, rfl⟩ (.cons _ _ (.path _ ⟨_, rfl⟩ (by decide)) .nil))
      (.cons _ _ (.path _ ⟨_, rfl⟩ (by decide)) .nil))) .nil))

/-! ## The table -/

/-- **C122 (partial).**  There is one row for every `Path` of the application and of what it includes, in order, with
the whole path, the parameters and methods in alphabetical order, the name and the kind of the handler; those of the
documentation are left out.  Missing: hosts, objects of controllers, websockets, the parameters of includes, and user
routes whose paths look like those of the documentation. -/
theorem C122_rows_partial (rs : List Route) (h : OrdinaryAll rs) :
    ∃ rows, table rs = .ok rows ∧ ShowAll rows (leaves [] rs) :=
  all_shows [] none [] segments_nil rs h

example : OrdinaryAll app := app_ordinary

example : (table app).toOption = some
    [⟨"/".toList, [], "home".toList, "sync".toList, "GET, HEAD".toList⟩,
     ⟨"/api/{id:int}".toList, "id:int".toList, "item".toList, "async".toList, "GET, HEAD, PUT".toList⟩,
     ⟨"/api".toList, [], "home".toList, "sync".toList, "GET, HEAD".toList⟩] := by decide +kernel

/-- **C122**, nothing else is shown: with no documentation among the routes, there are as many rows as routes. -/
theorem C122_count (rs : List Route) (h : OrdinaryAll rs) (hd : ∀ x ∈ leaves [] rs, ¬ Docs (full x.1)) :
    ∃ rows, table rs = .ok rows ∧ rows.map (·.path) = (leaves [] rs).map (fun x => full x.1) ∧
      rows.map (·.handler) = (leaves [] rs).map (fun x => x.2.name) := by
  obtain ⟨rows, ht, hs⟩ := C122_rows_partial rs h
  refine ⟨rows, ht, ?_⟩
  clear ht
  generalize leaves [] rs = xs at hs hd
  induction hs with
  | nil => exact ⟨rfl, rfl⟩
  | shown r x rs xs h1 _ _ ih =>
    obtain ⟨i1, i2⟩ := ih fun y hy => hd y (List.mem_cons_of_mem _ hy)
    exact ⟨by rw [List.map_cons, List.map_cons, i1, h1.path], by rw [List.map_cons, List.map_cons, i2, h1.handler]⟩
  | docs x rs xs h1 => exact absurd h1 (hd x List.mem_cons_self)

example : ∀ x ∈ leaves [] app, ¬ Docs (full x.1) := by
  have : ∀ x ∈ leaves [] app, hidden (full x.1) = false := by decide +kernel
  intro x hx hd
  exact absurd ((hidden_iff _).mpr hd) (by rw [this x hx]; decide)

/-! ## What is missing -/

/-- **C122 is false of hosts**: with a `Host` among the routes, after ordinary ones, there is no table at all. -/
theorem C122_host_false (rs more inner : List Route) (name : Str) (h : OrdinaryAll rs) :
    table (rs ++ .host name inner :: more) = .error .attribute := by
  have key : ∀ (rs : List Route) (pre : Str) (old : Option Str) (above : List Str),
      segments pre = above.flatMap segments → OrdinaryAll rs →
      all pre old (rs ++ .host name inner :: more) = .error .attribute := by
    intro rs
    induction rs with
    | nil => intro pre old above _ _; rw [List.nil_append, all, one]
    | cons r rs ih =>
      intro pre old above hp ho
      cases ho with
      | cons _ _ h1 h2 =>
        obtain ⟨rows, new, hr, _⟩ := one_shows pre old above hp r h1
        rw [List.cons_append, all, hr]
        dsimp only
        rw [ih pre new above hp h2]
  exact key rs [] none [] segments_nil h

example : OrdinaryAll [.path home] := .cons _ _ (.path _ ⟨[], rfl⟩ (by decide)) .nil

/-- **C122 is false of websockets**, which are never shown. -/
theorem C122_socket_false (rs more : List Route) (p : Str) : table (rs ++ .socket p :: more) = table (rs ++ more) := by
  have key : ∀ (rs : List Route) (pre : Str) (old : Option Str),
      all pre old (rs ++ .socket p :: more) = all pre old (rs ++ more) := by
    intro rs
    induction rs with
    | nil =>
      intro pre old
      rw [List.nil_append, List.nil_append, all, one]
      dsimp only
      cases all pre old more <;> rfl
    | cons r rs ih =>
      intro pre old
      rw [List.cons_append, List.cons_append, all, all]
      cases one pre old r with
      | error e => rfl
      | ok x =>
        obtain ⟨rows, new⟩ := x
        dsimp only
        rw [ih pre new]
  exact key rs [] none

/-- **C122 is false of routes whose path looks like the documentation**: `/redocument` of the user is not shown, nor is
anything under an include like `/elements-of-style`. -/
theorem C122_hidden_false (l : Leaf) (inner : List Route) (s : Str) :
    (l.path = "/redoc".toList ++ s → table [.path l] = .ok []) ∧
    table [.incl ("/elements".toList ++ s) inner] = .ok [] := by
  have key : ∀ d ∈ docsElements, (∃ t, d = '/' :: t ∧ '/' ∉ t ∧ t ≠ []) →
      hidden (cleanPath ([] ++ (d ++ s))) = true := by
    rintro d hd ⟨t, rfl, ht, hne⟩
    rw [List.nil_append, cleanPath_eq]
    rw [List.cons_append, segments_slash]
    obtain ⟨rest, hr⟩ := segments_start t s ht hne
    rw [hr]
    exact List.any_eq_true.mpr ⟨_, hd, (contains_iff _ _).mpr ⟨[], rest, rfl⟩⟩
  constructor
  · intro hl
    unfold table
    rw [all, one, hl, if_pos (key _ (by decide +kernel) ⟨"redoc".toList, by decide +kernel⟩)]
    rfl
  · unfold table
    rw [all, one, if_pos (key _ (by decide +kernel) ⟨"elements".toList, by decide +kernel⟩)]
    rfl

/-- **C122 is false of objects of controllers**: the first route of a list fails, and a later one is shown as what the
one before it is. -/
theorem C122_object_false (l k : Leaf) (more : List Route) (hl : l.kind = .object)
    (hh : ¬ Docs (cleanPath l.path)) :
    table (.path l :: more) = .error .unbound ∧
    (k.kind = .async → ¬ Docs (cleanPath k.path) → ∃ a b, table [.path k, .path l] = .ok [a, b] ∧
      a.type = "async".toList ∧ b.type = "async".toList) := by
  have h1 : hidden (cleanPath ([] ++ l.path)) ≠ true := fun h => hh ((hidden_iff _).mp h)
  constructor
  · unfold table
    rw [all, one, if_neg h1, hl]
    rfl
  · intro hk hd
    have h2 : hidden (cleanPath ([] ++ k.path)) ≠ true := fun h => hd ((hidden_iff _).mp h)
    unfold table
    rw [all, one, if_neg h2, hk]
    dsimp only [fnType]
    rw [all, one, if_neg h1, hl]
    exact ⟨_, _, rfl, rfl, rfl⟩

example : ¬ Docs (cleanPath home.path) := by
  intro h
  exact absurd ((hidden_iff _).mpr h) (by decide +kernel)

/-- **C122 is false of the parameters of includes**, which are part of the path and not among the parameters. -/
theorem C122_parameters_false :
    (table [.incl "/{tenant}".toList [.path item]]).toOption.map (·.map fun r => (r.path, r.parameters)) =
      some [("/{tenant}/{id:int}".toList, "id:int".toList)] := by decide +kernel

/-- **C122 is false of the first path of an include**: `Path("/")` under `Include("/api")` is shown as `/api`, and where
slashes are not redirected only `/api/` leads to it. -/
theorem C122_slash_false :
    let routes := [Router.Route.incl ⟨"/api/".toList, [⟨"path".toList, .path, []⟩]⟩ true
      [.leaf ⟨7, ⟨"/".toList, []⟩, []⟩]]
    (table [.incl "/api".toList [.path home]]).toOption.map (·.map (·.path)) = some ["/api".toList] ∧
    Router.dispatch (fun _ => .respond) false routes ⟨[], "/api".toList, "GET".toList, []⟩ = .notFound ∧
    Router.dispatch (fun _ => .respond) false routes ⟨[], "/api/".toList, "GET".toList, []⟩ = .ran 7 [] := by
  decide +kernel

/-- **C122**, a route that serves every method, as one to a controller does, is shown without methods. -/
theorem C122_controller_false (l : Leaf) (rows : List Row) (hm : l.methods = none) (h : table [.path l] = .ok rows) :
    ∀ r ∈ rows, r.methods = [] := by
  unfold table at h
  rw [all, one] at h
  by_cases hh : hidden (cleanPath ([] ++ l.path)) = true
  · rw [if_pos hh] at h
    cases h
    exact fun r hr => nomatch hr
  · rw [if_neg hh] at h
    cases hk : fnType none l.kind with
    | none => rw [hk] at h; cases h
    | some t =>
      rw [hk] at h
      cases h
      intro r hr
      rw [List.mem_singleton.mp hr]
      unfold row
      rw [hm]
      rfl

end Verif.Listing.Props
