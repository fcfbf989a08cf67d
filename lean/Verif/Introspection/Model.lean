/-!
# The structural graph of an application

`app.graph` describes an application by nodes and edges, for audits and tools: which middlewares
surround it, which routes it has, and which middlewares and permissions surround each of them
(`/repo/lilya/introspection/__builder.py` and `/repo/lilya/introspection/_graph.py`).
-/

namespace Verif.Introspection

/-- Class names and paths. -/
abbrev Name := List Char

/-! ### What is described -/

/-- A `Path` or `WebSocketPath`.  `middleware` is its attribute of that name, to which the
middlewares of a controller have been added; `permissions` is its attribute of that name, to which
those of a controller have not (`controller` here; `/repo/lilya/routing/path.py` lines 117-139 and
184-198). -/
structure RouteDecl where
  path : Name
  middleware : List Name
  permissions : List Name
  controller : List Name
  deriving DecidableEq, Repr

/-- An entry of a router's list: a route, or an `Include` with its own layers over something with
routes.  `app` is the identity of the `Lilya` or `ChildLilya` that was given to the include, and
`none` if it was given anything else: a list of routes, a namespace or a router
(`/repo/lilya/routing/include.py` lines 117-158). -/
inductive Entry where
  | route (r : RouteDecl)
  | incl (path : Name) (middleware permissions : List Name) (app : Option Nat)
      (routes : List Entry)

/-- An application: `custom_middleware`, the permissions of its router, and its routes. -/
structure AppDecl where
  middleware : List Name
  permissions : List Name
  routes : List Entry

/-! ### The graph -/

/-- `NodeKind` (`/repo/lilya/introspection/_types.py` lines 9-18), as far as the builder uses it. -/
inductive Kind where
  | application | middleware | router | route | permission | incl
  deriving DecidableEq, Repr

/-- `GraphNode` (`/repo/lilya/introspection/_types.py` lines 26-39).  The identifier is a fresh
random one (`_make_node_id`, `/repo/lilya/introspection/__builder.py` lines 16-25); here it is the
number of nodes made before.  `label` is the class name or the path of the metadata. -/
structure Node where
  id : Nat
  kind : Kind
  label : Name
  deriving DecidableEq, Repr

/-- `GraphEdge`; `wraps` tells the two kinds of edges apart
(`/repo/lilya/introspection/_types.py` lines 21-23 and 42-50). -/
structure Edge where
  source : Nat
  target : Nat
  wraps : Bool
  deriving DecidableEq, Repr

/-- The state of the builder: nodes, edges, and the applications already visited
(`/repo/lilya/introspection/__builder.py` lines 98-102). -/
structure Graph where
  nodes : List Node
  edges : List Edge
  seen : List Nat
  deriving DecidableEq, Repr

/-- A new node, which gets the next identifier (`_add_application` and the like,
`/repo/lilya/introspection/__builder.py` lines 158-246). -/
def Graph.add (g : Graph) (kind : Kind) (label : Name) : Graph :=
  { g with nodes := g.nodes ++ [{ id := g.nodes.length, kind, label }] }

/-- `_add_edge` (`/repo/lilya/introspection/__builder.py` lines 353-361). -/
def Graph.link (g : Graph) (source target : Nat) (wraps : Bool) : Graph :=
  { g with edges := g.edges ++ [{ source, target, wraps }] }

/-- The layers of an include or a route in the order in which they are attached: middlewares, then
permissions. -/
def tagged (middleware permissions : List Name) : List (Kind × Name) :=
  middleware.map (fun c => (.middleware, c)) ++ permissions.map (fun c => (.permission, c))

/-- A chain of layers, each wrapped by the one before, starting from a node.  The result also tells
the last node of the chain.  The code has one loop for the middlewares and one for the permissions,
which share the variable `last_wrapped_node`; this is both of them
(`/repo/lilya/introspection/__builder.py` lines 121-127, 276-291, 336-351). -/
def Graph.chain (g : Graph) (last : Nat) : List (Kind × Name) → Graph × Nat
  | [] => (g, last)
  | c :: cs =>
    ((g.add c.1 c.2).link last g.nodes.length true).chain g.nodes.length cs

/-- A node below `parent` with its middlewares and then its permissions
(`/repo/lilya/introspection/__builder.py` lines 272-291 for an include, 321-351 for a route). -/
def Graph.block (g : Graph) (parent : Nat) (kind : Kind) (label : Name)
    (middleware permissions : List Name) : Graph × Nat :=
  ((g.add kind label).link parent g.nodes.length false).chain g.nodes.length
    (tagged middleware permissions)

/-- A router node below `parent` (`/repo/lilya/introspection/__builder.py` lines 129-133 and
300-306). -/
def Graph.router (g : Graph) (parent : Nat) : Graph :=
  (g.add .router []).link parent g.nodes.length false

/-- Whether the builder descends into an include: `route_entry.app` must be an application that was
not visited before (`/repo/lilya/introspection/__builder.py` lines 293-298).  The attribute `app` of
an include that has a middleware or a permission is not the application but the stack around it
(`/repo/lilya/routing/include.py` lines 157-158 and `/repo/lilya/_internal/_middleware.py` lines
109-112); it is never `None`, so that the branch for raw routes (lines 308-316) is never taken. -/
def descends (seen : List Nat) (middleware permissions : List Name) (app : Option Nat) :
    Option Nat :=
  if middleware.isEmpty && permissions.isEmpty then app.filter (fun a => !seen.contains a)
  else none

mutual

/-- One entry of `_traverse_router` (`/repo/lilya/introspection/__builder.py` lines 270-323). -/
def visit (router : Nat) : Entry → Graph → Graph
  | .route r, g => (g.block router .route r.path r.middleware r.permissions).1
  | .incl path middleware permissions app routes, g =>
    let b := g.block router .incl path middleware permissions
    match descends g.seen middleware permissions app with
    | none => b.1
    | some a =>
      visitAll b.1.nodes.length routes
        ({ b.1 with seen := a :: b.1.seen } |>.router b.2)

/-- `_traverse_router` (`/repo/lilya/introspection/__builder.py` lines 248-323). -/
def visitAll (router : Nat) : List Entry → Graph → Graph
  | [], g => g
  | e :: es, g => visitAll router es (visit router e g)

end

/-- `GraphBuilder.build` (`/repo/lilya/introspection/__builder.py` lines 104-135). -/
def build (a : AppDecl) : Graph :=
  let g0 : Graph := { nodes := [{ id := 0, kind := .application, label := [] }], edges := [],
                      seen := [] }
  let c := g0.chain 0 (tagged a.middleware [])
  visitAll c.1.nodes.length a.routes (c.1.router c.2)

/-! ### Questions to the graph -/

/-- A node by its identifier (`_nodes_by_id`, `/repo/lilya/introspection/_graph.py` line 72). -/
def Graph.node (g : Graph) (i : Nat) : Option Node := g.nodes.find? (fun n => n.id == i)

/-- The target of the first `WRAPS` edge from a node; edges without both ends are ignored
(`/repo/lilya/introspection/_graph.py` lines 86-98 and 151-156). -/
def Graph.next (g : Graph) (i : Nat) : Option Node :=
  ((g.edges.filter (fun e => e.wraps && e.source == i)).filterMap
    (fun e => if (g.node e.source).isSome then g.node e.target else none)).head?

/-- The loop that follows `WRAPS` edges as long as the nodes are of one kind
(`/repo/lilya/introspection/_graph.py` lines 148-160, 202-214, 283-295).  The loop has no bound in
the code; here it makes at most `fuel` steps. -/
def Graph.follow (g : Graph) (kind : Kind) : Nat → Nat → List Node
  | 0, _ => []
  | fuel + 1, i =>
    match g.next i with
    | none => []
    | some n => if n.kind = kind then n :: g.follow kind fuel n.id else []

/-- The loop of `include_layers` (`/repo/lilya/introspection/_graph.py` lines 322-337), which
collects middlewares and permissions. -/
def Graph.layers (g : Graph) : Nat → Nat → List Node × List Node
  | 0, _ => ([], [])
  | fuel + 1, i =>
    match g.next i with
    | none => ([], [])
    | some n =>
      if n.kind = .middleware then
        (n :: (g.layers fuel n.id).1, (g.layers fuel n.id).2)
      else if n.kind = .permission then
        ((g.layers fuel n.id).1, n :: (g.layers fuel n.id).2)
      else ([], [])

/-- `by_kind` (`/repo/lilya/introspection/_graph.py` lines 77-83 and 111-120). -/
def Graph.byKind (g : Graph) (kind : Kind) : List Node := g.nodes.filter (fun n => n.kind == kind)

/-- `middlewares` (`/repo/lilya/introspection/_graph.py` lines 122-162), as class names.  Without an
application node, or with several, the code raises. -/
def Graph.middlewares (g : Graph) : Option (List Name) :=
  match g.byKind .application with
  | [a] => some ((g.follow .middleware g.nodes.length a.id).map Node.label)
  | _ => none

/-- `route_middlewares` (`/repo/lilya/introspection/_graph.py` lines 265-297), as class names. -/
def Graph.routeMiddlewares (g : Graph) (n : Node) : List Name :=
  (g.follow .middleware g.nodes.length n.id).map Node.label

/-- `permissions_for` (`/repo/lilya/introspection/_graph.py` lines 184-216), as class names. -/
def Graph.permissionsFor (g : Graph) (n : Node) : List Name :=
  (g.follow .permission g.nodes.length n.id).map Node.label

/-- `include_layers` (`/repo/lilya/introspection/_graph.py` lines 299-339), as class names. -/
def Graph.includeLayers (g : Graph) (n : Node) : List Name × List Name :=
  (((g.layers g.nodes.length n.id).1).map Node.label,
    ((g.layers g.nodes.length n.id).2).map Node.label)

/-- `route_by_path` (`/repo/lilya/introspection/_graph.py` lines 168-182). -/
def Graph.routeByPath (g : Graph) (path : Name) : Option Node :=
  (g.byKind .route).find? (fun n => n.label == path)

/-- The middlewares and permissions that `explain` tells for a path
(`/repo/lilya/introspection/_graph.py` lines 218-259); `none` stands for the exception. -/
def Graph.explain (g : Graph) (path : Name) : Option (List Name × List Name) :=
  match g.routeByPath path, g.middlewares with
  | some r, some m => some (m, g.permissionsFor r)
  | _, _ => none

end Verif.Introspection
