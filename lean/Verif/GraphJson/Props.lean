import Verif.GraphJson.Lemmas

/-!
# C138: the export of the graph of an application

The export of a graph is deterministic, names every node and every edge in order, and its text reads back as the
dictionary.
-/

namespace Verif.GraphJson.Props

open Verif Verif.Json Verif.GraphJson Verif.GraphJson.Spec

/-- The nodes of an application that the builder makes, with what is random in their identifiers. -/
def built (parts : List (Part × Str)) : List Node := parts.map fun p => p.1.node p.2

/-- An application for the examples. -/
def exParts : List (Part × Str) :=
  [(.app false, "a1".toList), (.router, "b2".toList), (.route "/users".toList ["GET".toList, "HEAD".toList],
      "c3".toList)]

/-- Its edges. -/
def exEdges : List Edge :=
  [⟨"app:a1".toList, "router:b2".toList, "dispatches_to".toList⟩,
   ⟨"router:b2".toList, "route:c3".toList, "dispatches_to".toList⟩]

/-- The text of an export reads back as the dictionary, with any indentation, for every graph with metadata that JSON
can
be made of. -/
theorem C138_roundtrip (g : Graph) (h : FriendlyGraph g) (indent : Option Nat) :
    ∃ d text, g.toDict = some d ∧ g.toJson indent false = some text ∧ loads text = some d :=
  export_friendly g h indent

/-- What the builder makes is of this sort: every graph of an application can be exported, and reads back. -/
theorem C138_built (parts : List (Part × Str)) (edges : List Edge) (indent : Option Nat) :
    ∃ d text, (Graph.make (built parts) edges).toDict = some d ∧
      (Graph.make (built parts) edges).toJson indent false = some text ∧ loads text = some d := by
  refine export_friendly _ ?_ indent
  intro n hn
  rcases mem_placed (built parts) [] n hn with h | h
  · cases h
  · obtain ⟨p, -, rfl⟩ := List.mem_map.mp h
    exact part_friendly p.1

example : (Graph.make (built [(.app true, "x".toList)]) []).toJson (some 2) false =
    some ("{\n  \"nodes\":[\n    {\n      \"id\":\"app:x\",\n      \"kind\":\"application\",\n".toList ++
      "      \"metadata\":{\n        \"debug\":true\n      }\n    }\n  ],\n  \"edges\":[]\n}".toList) := by
  decide +kernel

/-- What an export says of a node and of an edge. -/
theorem C138_fields (n : Node) (e : Edge) (v : Val) (h : nodeVal n = some v) :
    field "id".toList v = some (.scalar (.str n.id)) ∧ field "kind".toList v = some (.scalar (.str n.kind)) ∧
    field "metadata".toList v = safe (.map n.metadata) ∧
    field "source".toList (edgeVal e) = some (.scalar (.str e.source)) ∧
    field "target".toList (edgeVal e) = some (.scalar (.str e.target)) ∧
    field "kind".toList (edgeVal e) = some (.scalar (.str e.kind)) := by
  refine ⟨nodeVal_id h, ?_, ?_, rfl, rfl, rfl⟩
  · unfold nodeVal at h
    cases hm : safeItems n.metadata with
    | none => rw [hm] at h; cases h
    | some m => rw [hm] at h; injection h with h; subst h; rfl
  · unfold nodeVal at h
    rw [safe]
    cases hm : safeItems n.metadata with
    | none => rw [hm] at h; cases h
    | some m => rw [hm] at h; injection h with h; subst h; rfl

example : (nodeVal ((Part.app true).node "x".toList)).isSome = true := by decide +kernel

/-- What the builder says of the parts of an application. -/
theorem C138_parts (debug : Bool) (cls path : Str) (methods : List Str) (name r : Str) :
    ((Part.app debug).node r).kind = "application".toList ∧
    find "debug".toList ((Part.app debug).node r).metadata = some (.scalar (.bool debug)) ∧
    ((Part.middleware cls).node r).kind = "middleware".toList ∧
    find "class".toList ((Part.middleware cls).node r).metadata = some (.scalar (.str cls)) ∧
    (Part.router.node r).kind = "router".toList ∧
    ((Part.route path methods).node r).kind = "route".toList ∧
    find "path".toList ((Part.route path methods).node r).metadata = some (.scalar (.str path)) ∧
    (elements (find "methods".toList ((Part.route path methods).node r).metadata)) =
      methods.map (fun m => .scalar (.str m)) ∧
    ((Part.permission cls).node r).kind = "permission".toList ∧
    find "class".toList ((Part.permission cls).node r).metadata = some (.scalar (.str cls)) ∧
    ((Part.incl path (some name)).node r).kind = "include".toList ∧
    find "path".toList ((Part.incl path (some name)).node r).metadata = some (.scalar (.str path)) ∧
    find "name".toList ((Part.incl path (some name)).node r).metadata = some (.scalar (.str name)) ∧
    find "name".toList ((Part.incl path none).node r).metadata = some (.scalar .null) := by
  refine ⟨rfl, rfl, rfl, rfl, rfl, rfl, rfl, ?_, rfl, rfl, rfl, rfl, rfl, rfl⟩
  show listed (texts methods) = _
  induction methods with
  | nil => rfl
  | cons m l ih => rw [texts, listed, ih]; rfl

/-- The identifiers begin with the sort of the part, and end with what is random. -/
theorem C138_identifiers (p : Part) (r : Str) : ∃ tag ∈ ["app".toList, "middleware".toList, "router".toList,
    "route".toList, "permission".toList, "include".toList], (p.node r).id = tag ++ ":".toList ++ r ∧
    (tag = p.kind ∨ ∃ d, p = .app d ∧ tag = "app".toList) := by
  have h : ∀ q : Str, q ++ ':' :: r = q ++ ":".toList ++ r := by
    intro q
    show q ++ ':' :: r = q ++ [':'] ++ r
    simp
  cases p with
  | app d => exact ⟨"app".toList, by decide, h _, Or.inr ⟨d, rfl, rfl⟩⟩
  | middleware c => exact ⟨"middleware".toList, by decide, h _, Or.inl rfl⟩
  | router => exact ⟨"router".toList, by decide, h _, Or.inl rfl⟩
  | route a b => exact ⟨"route".toList, by decide, h _, Or.inl rfl⟩
  | permission c => exact ⟨"permission".toList, by decide, h _, Or.inl rfl⟩
  | incl a b => exact ⟨"include".toList, by decide, h _, Or.inl rfl⟩

/-- With distinct identifiers the export names every node and every edge once and in order. -/
theorem C138_complete (nodes : List Node) (edges : List Edge) (hn : (nodes.map (·.id)).Nodup) (d : Val)
    (h : (Graph.make nodes edges).toDict = some d) :
    nodeIds d = nodes.map (fun n => some (.scalar (.str n.id))) ∧
    edgeEnds d = edges.map (fun e => (some (.scalar (.str e.source)), some (.scalar (.str e.target)))) := by
  obtain ⟨h1, h2⟩ := toDict_ids h
  rw [make_nodes nodes edges hn] at h1
  exact ⟨h1, h2⟩

example : ((built exParts).map (·.id)).Nodup := by decide +kernel

/-- Sets: the order in which they are iterated, which differs from run to run, makes no difference, at any depth. -/
theorem C138_stable (v w : Val) (h : Same v w) : safe v = safe w := safe_same h

example : Same (.seq (.cons (.set [.plain (.str "b".toList), .plain (.str "a".toList)]) .nil))
    (.seq (.cons (.set [.plain (.str "a".toList), .plain (.str "b".toList)]) .nil)) := by
  refine .seq (.cons (.set (.swap _ _ []) ?_) .nil)
  intro a ha b hb n h1 h2
  simp only [List.map_cons, List.map_nil, Elem.norm, List.mem_cons, List.not_mem_nil, or_false] at ha
  rcases ha with rfl | rfl <;> cases h1

/-- The text of a whole graph does not depend on the order of sets either. -/
theorem C138_stable_text (g g' : Graph) (indent : Option Nat) (sorted : Bool)
    (he : g.edges = g'.edges) (hn : g.nodes.length = g'.nodes.length)
    (h : ∀ i (h1 : i < g.nodes.length) (h2 : i < g'.nodes.length), g.nodes[i].id = g'.nodes[i].id ∧
      g.nodes[i].kind = g'.nodes[i].kind ∧ SameItems g.nodes[i].metadata g'.nodes[i].metadata) :
    g.toJson indent sorted = g'.toJson indent sorted := by
  have key : ∀ (l m : List Node), l.length = m.length →
      (∀ i (h1 : i < l.length) (h2 : i < m.length), l[i].id = m[i].id ∧ l[i].kind = m[i].kind ∧
        SameItems l[i].metadata m[i].metadata) → nodeVals l = nodeVals m := by
    intro l
    induction l with
    | nil =>
      intro m hl _
      cases m with
      | nil => rfl
      | cons x m => cases hl
    | cons x l ih =>
      intro m hl h
      cases m with
      | nil => cases hl
      | cons y m =>
        have h0 := h 0 (Nat.zero_lt_succ _) (Nat.zero_lt_succ _)
        have hr := ih m (Nat.succ.inj hl) (fun i h1 h2 => h (i + 1) (Nat.succ_lt_succ h1) (Nat.succ_lt_succ h2))
        have hx : nodeVal x = nodeVal y := by
          unfold nodeVal
          rw [safeItems_same (i := x.metadata) (j := y.metadata) h0.2.2,
            show x.id = y.id from h0.1, show x.kind = y.kind from h0.2.1]
        rw [nodeVals, nodeVals, hx, hr]
  unfold Graph.toJson Graph.toDict
  rw [key g.nodes g'.nodes hn h, he]

/-- With sorted keys the text does not depend on the order of the members of any object; and it is a text for the same
value, but for that order. -/
theorem C138_sorted (v w : Json) (indent : Option Nat) :
    (Alike v w → dumps indent true v = dumps indent true w) ∧
    (Distinct v → ∃ u, Alike v u ∧ loads (dumps indent true v) = some (loaded u)) := by
  have he : ∀ u : Json, dumps indent true u = dumps indent false (sortKeys u) := fun _ => rfl
  constructor
  · intro h
    rw [he, he, sortKeys_alike h]
  · intro h
    exact ⟨sortKeys v, alike_sorted v h, by rw [he, loads_dumps]⟩

example : dumps none true (.obj (.cons "b".toList (.int 1) (.cons "a".toList (.int 2) .nil))) =
    "{\"a\":2,\"b\":1}".toList := by decide +kernel

/-- The identifiers are random, so that two exports of the same application are never the same text: the diff of two
exports shows every node and every edge. -/
theorem C138_ids_false (parts : List (Part × Str)) (edges : List Edge) (nodes' : List Node) (edges' : List Edge)
    (indent : Option Nat) (hn : ((built parts).map (·.id)).Nodup) (hn' : (nodes'.map (·.id)).Nodup)
    (h : (built parts).map (·.id) ≠ nodes'.map (·.id))
    (hf : ∀ n ∈ nodes', FriendlyItems n.metadata) :
    (Graph.make (built parts) edges).toJson indent false ≠ (Graph.make nodes' edges').toJson indent false := by
  intro he
  obtain ⟨d, t, h1, h2, h3⟩ := C138_built parts edges indent
  obtain ⟨d', t', h1', h2', h3'⟩ := export_friendly (Graph.make nodes' edges') (by
    intro n hm
    rcases mem_placed nodes' [] n hm with h | h
    · cases h
    · exact hf n h) indent
  rw [h2, h2'] at he
  injection he with he
  rw [he, h3'] at h3
  injection h3 with h3
  have e1 := (C138_complete _ _ hn d h1).1
  have e2 := (C138_complete _ _ hn' d' h1').1
  rw [← h3, e2] at e1
  apply h
  have := congrArg (List.map (fun v : Option Val => match v with | some (.scalar (.str s)) => s | _ => [])) e1
  rw [List.map_map, List.map_map] at this
  exact this.symm

example : (built [(.app false, "a1".toList)]).map (·.id) ≠ (built [(.app false, "a2".toList)]).map (·.id) := by
  decide +kernel

/-- Edges of nodes that are not there are left out when the graph is walked, but not when it is exported. -/
theorem C138_dangling_false : ∃ d, (Graph.make [] exEdges).toDict = some d ∧ nodeIds d = [] ∧
    edgeEnds d = exEdges.map (fun e => (some (.scalar (.str e.source)), some (.scalar (.str e.target)))) := by
  refine ⟨_, rfl, ?_⟩
  have := toDict_ids (g := Graph.make [] exEdges) rfl
  exact this

/-- One node with these metadata. -/
def oneNode (v : Val) : Graph := Graph.make [⟨"n".toList, "route".toList, .cons (.text "x".toList) v .nil⟩] []

/-- Frozen sets are left as they are, which JSON has not; so are the values of enumerations, be they sets, say; and sets
of texts and `None` cannot be sorted.  The export raises `TypeError`. -/
theorem C138_friendly_false :
    ((oneNode (.frozen [.plain (.str "a".toList)])).toDict.isSome = true ∧
      (oneNode (.frozen [.plain (.str "a".toList)])).toJson none false = none) ∧
    ((oneNode (.enum (.set [.plain (.str "a".toList)]))).toDict.isSome = true ∧
      (oneNode (.enum (.set [.plain (.str "a".toList)]))).toJson none false = none) ∧
    ((oneNode (.set [.plain (.str "a".toList), .plain .null])).toDict.isSome = false) := by
  refine ⟨⟨?_, ?_⟩, ⟨?_, ?_⟩, ?_⟩ <;> decide +kernel

/-- Keys are kept, so that numbers read back as texts. -/
theorem C138_keys_false : ∃ d text, (oneNode (.map (.cons (.number 1) (.scalar .null) .nil))).toDict = some d ∧
    (oneNode (.map (.cons (.number 1) (.scalar .null) .nil))).toJson none false = some text ∧
    ∃ d', loads text = some d' ∧ d' ≠ d := by
  have hd : (oneNode (.map (.cons (.number 1) (.scalar .null) .nil))).toDict = some (.map
      (.cons (.text "nodes".toList) (.seq (.cons (.map (.cons (.text "id".toList) (textVal "n".toList)
        (.cons (.text "kind".toList) (textVal "route".toList) (.cons (.text "metadata".toList)
          (.map (.cons (.text "x".toList) (.map (.cons (.number 1) (.scalar .null) .nil)) .nil)) .nil)))) .nil))
      (.cons (.text "edges".toList) (.seq .nil) .nil))) := rfl
  have hj : (oneNode (.map (.cons (.number 1) (.scalar .null) .nil))).toJson none false =
      some (dumps none false (.obj (.cons "nodes".toList (.arr (.cons (.obj (.cons "id".toList (.str "n".toList)
        (.cons "kind".toList (.str "route".toList) (.cons "metadata".toList
          (.obj (.cons "x".toList (.obj (.cons "1".toList .null .nil)) .nil)) .nil)))) .nil))
      (.cons "edges".toList (.arr .nil) .nil)))) := by
    unfold Graph.toJson
    rw [hd]
    rfl
  refine ⟨_, _, hd, hj, _, loads_dumps none _, ?_⟩
  intro h
  injection h with h
  injection h with _ h _
  injection h with h
  injection h with h _
  injection h with h
  injection h with _ _ h
  injection h with _ _ h
  injection h with _ h _
  injection h with h
  injection h with _ h _
  injection h with h
  injection h with h _ _
  cases h

/-- Two elements that become equal, `True` of an enumeration and `1`, keep the order in which the set was iterated. -/
theorem C138_equal_false :
    safe (.set [.member (.bool true), .plain (.int 1)]) =
      some (.seq (.cons (.scalar (.bool true)) (.cons (.scalar (.int 1)) .nil))) ∧
    safe (.set [.plain (.int 1), .member (.bool true)]) =
      some (.seq (.cons (.scalar (.int 1)) (.cons (.scalar (.bool true)) .nil))) := ⟨rfl, rfl⟩

end Verif.GraphJson.Props
