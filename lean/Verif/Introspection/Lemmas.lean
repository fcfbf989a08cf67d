import Verif.Introspection.Spec

/-! Helper lemmas for the structural graph. -/

namespace Verif.Introspection

open Spec

/-- Identifiers are positions, and edges join existing nodes. -/
structure WF (g : Graph) : Prop where
  ids : ∀ (i : Nat) (n : Node), g.nodes[i]? = some n → n.id = i
  ends : ∀ e ∈ g.edges, e.source < g.nodes.length ∧ e.target < g.nodes.length

theorem node_eq {g : Graph} (h : ∀ (i : Nat) (n : Node), g.nodes[i]? = some n → n.id = i) (i : Nat) :
    g.node i = g.nodes[i]? := by
  unfold Graph.node
  have hid : ∀ j (hj : j < g.nodes.length), (g.nodes[j]).id = j :=
    fun j hj => h j _ (List.getElem?_eq_getElem hj)
  by_cases hi : i < g.nodes.length
  · rw [List.getElem?_eq_getElem hi]
    rw [List.find?_eq_some_iff_getElem]
    refine ⟨by simpa using hid i hi, i, hi, rfl, ?_⟩
    intro j hj
    have := hid j (by omega)
    simp only [this, Bool.not_eq_true', beq_eq_false_iff_ne]
    omega
  · rw [List.getElem?_eq_none (by omega), List.find?_eq_none]
    intro n hn
    obtain ⟨j, hj, rfl⟩ := List.mem_iff_getElem.mp hn
    rw [hid j hj]
    simp only [beq_iff_eq]
    omega

theorem filterMap_congr' {α β : Type} {f f' : α → Option β} {l : List α}
    (h : ∀ a ∈ l, f a = f' a) : l.filterMap f = l.filterMap f' := by
  induction l with
  | nil => rfl
  | cons a t ih =>
    rw [List.filterMap_cons, List.filterMap_cons, h a (List.mem_cons_self ..),
      ih (fun x hx => h x (List.mem_cons_of_mem _ hx))]

/-- `g'` grew out of `g`, and no `WRAPS` edge was added to an old node. -/
def Ext (g g' : Graph) : Prop :=
  ∃ ns es, g'.nodes = g.nodes ++ ns ∧ g'.edges = g.edges ++ es ∧
    ∀ e ∈ es, e.wraps = true → g.nodes.length ≤ e.source

theorem Ext.refl (g : Graph) : Ext g g :=
  ⟨[], [], by rw [List.append_nil], by rw [List.append_nil], fun e he => by cases he⟩

theorem Ext.len {g g' : Graph} (h : Ext g g') : g.nodes.length ≤ g'.nodes.length := by
  obtain ⟨ns, es, h1, _⟩ := h
  rw [h1, List.length_append]; omega

theorem Ext.trans {a b c : Graph} (h : Ext a b) (h' : Ext b c) : Ext a c := by
  have hl := h.len
  obtain ⟨ns, es, h1, h2, h3⟩ := h
  obtain ⟨ns', es', h1', h2', h3'⟩ := h'
  refine ⟨ns ++ ns', es ++ es', by rw [h1', h1, List.append_assoc],
    by rw [h2', h2, List.append_assoc], ?_⟩
  intro e he hw
  rcases List.mem_append.mp he with he | he
  · exact h3 e he hw
  · have := h3' e he hw
    omega

theorem Ext.next {g g' : Graph} (hx : Ext g g') (hg : WF g) (hg' : WF g') {i : Nat}
    (hi : i < g.nodes.length) : g'.next i = g.next i := by
  obtain ⟨ns, es, h1, h2, h3⟩ := hx
  unfold Graph.next
  have hf : g'.edges.filter (fun e => e.wraps && e.source == i)
      = g.edges.filter (fun e => e.wraps && e.source == i) := by
    rw [h2, List.filter_append]
    have : es.filter (fun e => e.wraps && e.source == i) = [] := by
      rw [List.filter_eq_nil_iff]
      intro e he hc
      simp only [Bool.and_eq_true, beq_iff_eq] at hc
      have := h3 e he hc.1
      omega
    rw [this, List.append_nil]
  rw [hf]
  congr 1
  refine filterMap_congr' ?_
  intro e he
  obtain ⟨e1, e2⟩ := hg.ends e (List.mem_filter.mp he).1
  rw [node_eq hg.ids, node_eq hg.ids, node_eq hg'.ids, node_eq hg'.ids, h1,
    List.getElem?_append_left e1, List.getElem?_append_left e2]

/-- From node `i` the `WRAPS` edges lead through exactly these layers. -/
def Chain (g : Graph) : Nat → List (Kind × Name) → Prop
  | i, [] => i < g.nodes.length ∧ g.next i = none
  | i, c :: cs => ∃ n, g.next i = some n ∧ n.kind = c.1 ∧ n.label = c.2 ∧ i < n.id ∧ Chain g n.id cs

theorem Chain.bound {g : Graph} : ∀ {i cs}, Chain g i cs → i + cs.length < g.nodes.length
  | _, [], h => h.1
  | _, _ :: _, ⟨n, _, _, _, hlt, hc⟩ => by
    have := hc.bound
    simp only [List.length_cons]
    omega

theorem Chain.ext {g g' : Graph} (hx : Ext g g') (hg : WF g) (hg' : WF g') :
    ∀ {i cs}, Chain g i cs → Chain g' i cs
  | i, [], h => ⟨Nat.lt_of_lt_of_le h.1 hx.len, by rw [hx.next hg hg' h.1]; exact h.2⟩
  | i, c :: cs, h => by
    have hb := h.bound
    obtain ⟨n, h1, h2, h3, h4, h5⟩ := h
    have hi : i < g.nodes.length := by omega
    exact ⟨n, by rw [hx.next hg hg' hi]; exact h1, h2, h3, h4, Chain.ext hx hg hg' h5⟩

theorem follow_chain {g : Graph} (k : Kind) : ∀ {cs i fuel}, Chain g i cs → cs.length < fuel →
    (g.follow k fuel i).map Node.label
      = (cs.takeWhile (fun c => c.1 == k)).map Prod.snd
  | [], i, fuel, h, hf => by
    cases fuel with
    | zero => cases hf
    | succ f =>
      unfold Graph.follow
      rw [h.2]
      rfl
  | c :: cs, i, fuel, h, hf => by
    cases fuel with
    | zero => cases hf
    | succ f =>
      obtain ⟨n, h1, h2, h3, _, h5⟩ := h
      unfold Graph.follow
      rw [h1]
      show (if n.kind = k then n :: g.follow k f n.id else []).map Node.label = _
      rw [List.takeWhile_cons, h2]
      by_cases hk : c.1 = k
      · rw [if_pos hk, if_pos (by simpa using hk), List.map_cons, List.map_cons, h3,
          follow_chain k h5 (by simp only [List.length_cons] at hf; omega)]
      · rw [if_neg hk, if_neg (by simpa using hk)]
        rfl

theorem layers_chain {g : Graph} : ∀ {cs i fuel}, Chain g i cs → cs.length < fuel →
    (∀ c ∈ cs, c.1 = .middleware ∨ c.1 = .permission) →
    ((g.layers fuel i).1.map Node.label, (g.layers fuel i).2.map Node.label)
      = ((cs.filter (fun c => c.1 == .middleware)).map Prod.snd,
        (cs.filter (fun c => c.1 == .permission)).map Prod.snd)
  | [], i, fuel, h, hf, _ => by
    cases fuel with
    | zero => cases hf
    | succ f =>
      unfold Graph.layers
      rw [h.2]
      rfl
  | c :: cs, i, fuel, h, hf, hk => by
    cases fuel with
    | zero => cases hf
    | succ f =>
      obtain ⟨n, h1, h2, h3, _, h5⟩ := h
      have ih := layers_chain h5 (fuel := f) (by simp only [List.length_cons] at hf; omega)
        (fun x hx => hk x (List.mem_cons_of_mem _ hx))
      obtain ⟨ih1, ih2⟩ := Prod.mk.inj ih
      unfold Graph.layers
      rw [h1]
      rcases hk c (List.mem_cons_self ..) with hc | hc
      · have hn : n.kind = .middleware := h2.trans hc
        simp only [hn, if_true, List.map_cons, ih1, ih2, h3, List.filter_cons, hc]
        rfl
      · have hn : n.kind = .permission := h2.trans hc
        have hne : ¬ n.kind = .middleware := by rw [hn]; decide
        simp only [if_neg hne, if_pos hn, List.map_cons, ih1, ih2, h3, List.filter_cons, hc]
        rfl

/-! ### Building -/

theorem wf_add {g : Graph} (h : WF g) (k : Kind) (l : Name) : WF (g.add k l) := by
  constructor
  · intro i n hn
    have hn' : (g.nodes ++ [{ id := g.nodes.length, kind := k, label := l }])[i]? = some n := hn
    by_cases hlt : i < g.nodes.length
    · rw [List.getElem?_append_left hlt] at hn'
      exact h.ids i n hn'
    · rw [List.getElem?_append_right (by omega)] at hn'
      have hi : i - g.nodes.length = 0 := by
        cases hk : i - g.nodes.length with
        | zero => rfl
        | succ m =>
          rw [hk] at hn'
          cases hn'
      rw [hi] at hn'
      have := Option.some.inj hn'
      subst this
      show g.nodes.length = i
      omega
  · intro e he
    obtain ⟨h1, h2⟩ := h.ends e he
    have : (g.add k l).nodes.length = g.nodes.length + 1 := by simp [Graph.add]
    omega

theorem add_len (g : Graph) (k : Kind) (l : Name) :
    (g.add k l).nodes.length = g.nodes.length + 1 := by
  simp [Graph.add]

theorem wf_link {g : Graph} (h : WF g) {a b : Nat} (w : Bool) (ha : a < g.nodes.length)
    (hb : b < g.nodes.length) : WF (g.link a b w) := by
  constructor
  · exact h.ids
  · intro e he
    rcases List.mem_append.mp he with he | he
    · exact h.ends e he
    · have := List.mem_singleton.mp he
      subst this
      exact ⟨ha, hb⟩

theorem next_none_of {g : Graph} {i : Nat} (h : ∀ e ∈ g.edges, e.wraps = true → e.source ≠ i) :
    g.next i = none := by
  unfold Graph.next
  have : g.edges.filter (fun e => e.wraps && e.source == i) = [] := by
    rw [List.filter_eq_nil_iff]
    intro e he hc
    simp only [Bool.and_eq_true, beq_iff_eq] at hc
    exact h e he hc.1 hc.2
  rw [this]
  rfl

/-- The state of the builder after a chain of layers has been hung onto a node that wraps nothing. -/
theorem chain_spec : ∀ (cs : List (Kind × Name)) {g : Graph} {last : Nat}, WF g →
    last < g.nodes.length → (∀ e ∈ g.edges, e.wraps = true → e.source ≠ last) →
    WF (g.chain last cs).1 ∧ Chain (g.chain last cs).1 last cs ∧
    (g.chain last cs).2 < (g.chain last cs).1.nodes.length ∧
    (g.chain last cs).1.seen = g.seen ∧
    ∃ ns es, (g.chain last cs).1.nodes = g.nodes ++ ns ∧ (g.chain last cs).1.edges = g.edges ++ es ∧
      ns.map Node.kind = cs.map Prod.fst ∧
      ∀ e ∈ es, e.source = last ∨ g.nodes.length ≤ e.source
  | [], g, last, hg, hl, hn => by
    refine ⟨hg, ⟨hl, next_none_of hn⟩, hl, rfl, [], [], ?_, ?_, rfl, fun e he => by cases he⟩
    · exact (List.append_nil _).symm
    · exact (List.append_nil _).symm
  | c :: cs, g, last, hg, hl, hn => by
    have hadd := wf_add hg c.1 c.2
    have hlen := add_len g c.1 c.2
    have hg1 : WF ((g.add c.1 c.2).link last g.nodes.length true) :=
      wf_link hadd true (by omega) (by omega)
    have hlen1 : ((g.add c.1 c.2).link last g.nodes.length true).nodes.length
        = g.nodes.length + 1 := hlen
    have hfresh : ∀ e ∈ ((g.add c.1 c.2).link last g.nodes.length true).edges,
        e.wraps = true → e.source ≠ g.nodes.length := by
      intro e he hw
      rcases List.mem_append.mp he with he | he
      · have := (hg.ends e he).1
        omega
      · have := List.mem_singleton.mp he
        subst this
        show last ≠ _
        omega
    obtain ⟨h1, h2, h3, h4, ns, es, h5, h6, h7, h8⟩ :=
      chain_spec cs hg1 (last := g.nodes.length) (by omega) hfresh
    have hstep : g.chain last (c :: cs)
      = ((g.add c.1 c.2).link last g.nodes.length true).chain g.nodes.length cs := rfl
    rw [hstep]
    refine ⟨h1, ?_, h3, h4, { id := g.nodes.length, kind := c.1, label := c.2 } :: ns,
      { source := last, target := g.nodes.length, wraps := true } :: es, ?_, ?_, ?_, ?_⟩
    · -- the first step of the chain
      refine ⟨{ id := g.nodes.length, kind := c.1, label := c.2 }, ?_, rfl, rfl, hl, h2⟩
      unfold Graph.next
      have hfilter : (((g.add c.1 c.2).link last g.nodes.length true).chain
            g.nodes.length cs).1.edges.filter (fun e => e.wraps && e.source == last)
          = [{ source := last, target := g.nodes.length, wraps := true }] := by
        rw [h6]
        show (g.edges ++ [_] ++ es).filter _ = _
        rw [List.filter_append, List.filter_append]
        have e1 : g.edges.filter (fun e => e.wraps && e.source == last) = [] := by
          rw [List.filter_eq_nil_iff]
          intro e he hc
          simp only [Bool.and_eq_true, beq_iff_eq] at hc
          exact hn e he hc.1 hc.2
        have e2 : es.filter (fun e => e.wraps && e.source == last) = [] := by
          rw [List.filter_eq_nil_iff]
          intro e he hc
          simp only [Bool.and_eq_true, beq_iff_eq] at hc
          rcases h8 e he with h8 | h8
          · omega
          · rw [hlen1] at h8; omega
        rw [e1, e2, List.filter_cons]
        simp
      rw [hfilter]
      have hnodes : (((g.add c.1 c.2).link last g.nodes.length true).chain
            g.nodes.length cs).1.nodes
          = g.nodes ++ ({ id := g.nodes.length, kind := c.1, label := c.2 } :: ns) := by
        rw [h5]
        show g.nodes ++ [_] ++ ns = _
        rw [List.append_assoc]
        rfl
      have ht : (((g.add c.1 c.2).link last g.nodes.length true).chain
            g.nodes.length cs).1.node g.nodes.length
          = some { id := g.nodes.length, kind := c.1, label := c.2 } := by
        rw [node_eq h1.ids, hnodes, List.getElem?_append_right (Nat.le_refl _), Nat.sub_self]
        rfl
      have hs : ((((g.add c.1 c.2).link last g.nodes.length true).chain
            g.nodes.length cs).1.node last).isSome = true := by
        rw [node_eq h1.ids, hnodes, List.getElem?_append_left hl, List.getElem?_eq_getElem hl]
        rfl
      simp only [List.filterMap_cons, List.filterMap_nil, hs, if_true, ht, List.head?_cons]
    · rw [h5]
      show g.nodes ++ [_] ++ ns = _
      rw [List.append_assoc]
      rfl
    · rw [h6]
      show g.edges ++ [_] ++ es = _
      rw [List.append_assoc]
      rfl
    · rw [List.map_cons, List.map_cons, h7]
    · intro e he
      rcases List.mem_cons.mp he with rfl | he
      · exact .inl rfl
      · rcases h8 e he with h8 | h8
        · exact .inr (by omega)
        · rw [hlen1] at h8
          exact .inr (by omega)

/-- Two lists whose members are related one by one. -/
inductive Pairs {α β : Type} (R : α → β → Prop) : List α → List β → Prop where
  | nil : Pairs R [] []
  | cons {a : α} {b : β} {l : List α} {l' : List β} : R a b → Pairs R l l' →
      Pairs R (a :: l) (b :: l')

/-- Nodes that begin a block. -/
def isHead (n : Node) : Bool := n.kind == .route || n.kind == .incl

/-- What a block in the graph should stand for. -/
structure Head where
  kind : Kind
  label : Name
  middleware : List Name
  permissions : List Name

/-- A node of the graph is the head of such a block. -/
structure IsBlock (g : Graph) (n : Node) (h : Head) : Prop where
  kind : n.kind = h.kind
  label : n.label = h.label
  chain : Chain g n.id (tagged h.middleware h.permissions)

theorem IsBlock.ext {g g' : Graph} (hx : Ext g g') (hg : WF g) (hg' : WF g') {n : Node} {h : Head}
    (hb : IsBlock g n h) : IsBlock g' n h :=
  ⟨hb.kind, hb.label, hb.chain.ext hx hg hg'⟩

/-- The graph `g'` arose from `g` by adding blocks for exactly these heads. -/
structure Grown (g g' : Graph) (hs : List Head) : Prop where
  wf : WF g'
  ext : Ext g g'
  heads : ∃ ns, g'.nodes.filter isHead = g.nodes.filter isHead ++ ns ∧
    Pairs (IsBlock g') ns hs
  apps : g'.byKind .application = g.byKind .application

theorem forall₂_imp {α β : Type} {R S : α → β → Prop} (h : ∀ a b, R a b → S a b) :
    ∀ {l l'}, Pairs R l l' → Pairs S l l'
  | _, _, .nil => .nil
  | _, _, .cons h1 h2 => .cons (h _ _ h1) (forall₂_imp h h2)

theorem forall₂_append {α β : Type} {R : α → β → Prop} :
    ∀ {a b c d}, Pairs R a b → Pairs R c d → Pairs R (a ++ c) (b ++ d)
  | _, _, _, _, .nil, h => h
  | _, _, _, _, .cons h1 h2, h => .cons h1 (forall₂_append h2 h)

theorem Grown.refl {g : Graph} (h : WF g) : Grown g g [] :=
  ⟨h, Ext.refl g, ⟨[], by rw [List.append_nil], .nil⟩, rfl⟩

theorem Grown.trans {a b c : Graph} {hs hs' : List Head} (h : Grown a b hs) (h' : Grown b c hs') :
    Grown a c (hs ++ hs') := by
  obtain ⟨ns, h1, h2⟩ := h.heads
  obtain ⟨ns', h1', h2'⟩ := h'.heads
  refine ⟨h'.wf, h.ext.trans h'.ext, ⟨ns ++ ns', by rw [h1', h1, List.append_assoc], ?_⟩,
    by rw [h'.apps, h.apps]⟩
  exact forall₂_append (forall₂_imp (fun _ _ hb => hb.ext h'.ext h.wf h'.wf) h2) h2'

theorem tagged_kinds {m p : List Name} {c : Kind × Name} (h : c ∈ tagged m p) :
    c.1 = .middleware ∨ c.1 = .permission := by
  rcases List.mem_append.mp h with h | h
  · obtain ⟨x, _, rfl⟩ := List.mem_map.mp h
    exact .inl rfl
  · obtain ⟨x, _, rfl⟩ := List.mem_map.mp h
    exact .inr rfl

theorem layer_nodes {ns : List Node} {m p : List Name}
    (h : ns.map Node.kind = (tagged m p).map Prod.fst) :
    ∀ n ∈ ns, n.kind = .middleware ∨ n.kind = .permission := by
  intro n hn
  have h1 : n.kind ∈ ns.map Node.kind := List.mem_map.mpr ⟨n, hn, rfl⟩
  rw [h] at h1
  obtain ⟨c, hc, hck⟩ := List.mem_map.mp h1
  rw [← hck]
  exact tagged_kinds hc

theorem filter_layers {ns : List Node} (P : Node → Bool)
    (h : ∀ n ∈ ns, n.kind = .middleware ∨ n.kind = .permission)
    (hP : ∀ n, n.kind = .middleware ∨ n.kind = .permission → P n = false) : ns.filter P = [] := by
  rw [List.filter_eq_nil_iff]
  intro n hn hc
  rw [hP n (h n hn)] at hc
  cases hc

theorem not_head {n : Node} (h : n.kind = .middleware ∨ n.kind = .permission) :
    isHead n = false := by
  unfold isHead
  rcases h with h | h <;> rw [h] <;> rfl

theorem not_app {n : Node} (h : n.kind = .middleware ∨ n.kind = .permission) :
    (n.kind == .application) = false := by
  rcases h with h | h <;> rw [h] <;> rfl

theorem block_grown {g : Graph} (hg : WF g) {parent : Nat} (hp : parent < g.nodes.length)
    (kind : Kind) (hk : kind = .route ∨ kind = .incl) (label : Name) (m p : List Name) :
    Grown g (g.block parent kind label m p).1 [⟨kind, label, m, p⟩] ∧
    (g.block parent kind label m p).2 < (g.block parent kind label m p).1.nodes.length ∧
    (g.block parent kind label m p).1.seen = g.seen := by
  have hlen := add_len g kind label
  have hg1 : WF ((g.add kind label).link parent g.nodes.length false) :=
    wf_link (wf_add hg kind label) false (by omega) (by omega)
  have hlen1 : ((g.add kind label).link parent g.nodes.length false).nodes.length
      = g.nodes.length + 1 := hlen
  have hfresh : ∀ e ∈ ((g.add kind label).link parent g.nodes.length false).edges,
      e.wraps = true → e.source ≠ g.nodes.length := by
    intro e he hw
    rcases List.mem_append.mp he with he | he
    · have := (hg.ends e he).1
      omega
    · have := List.mem_singleton.mp he
      subst this
      cases hw
  obtain ⟨h1, h2, h3, h4, ns, es, h5, h6, h7, h8⟩ :=
    chain_spec (tagged m p) hg1 (last := g.nodes.length) (by omega) hfresh
  have hnodes : (g.block parent kind label m p).1.nodes
      = g.nodes ++ ({ id := g.nodes.length, kind := kind, label := label } :: ns) := by
    show (Graph.chain _ _ _).1.nodes = _
    rw [h5]
    show g.nodes ++ [_] ++ ns = _
    rw [List.append_assoc]
    rfl
  have hl := layer_nodes h7
  refine ⟨⟨h1, ⟨_, { source := parent, target := g.nodes.length, wraps := false } :: es, hnodes,
    ?_, ?_⟩, ⟨[{ id := g.nodes.length, kind := kind, label := label }], ?_, ?_⟩, ?_⟩, h3, h4⟩
  · show (Graph.chain _ _ _).1.edges = _
    rw [h6]
    show g.edges ++ [_] ++ es = _
    rw [List.append_assoc]
    rfl
  · intro e he hw
    rcases List.mem_cons.mp he with rfl | he
    · cases hw
    · rcases h8 e he with h8 | h8
      · omega
      · rw [hlen1] at h8; omega
  · rw [hnodes, List.filter_append, List.filter_cons, filter_layers isHead hl (fun _ => not_head)]
    rcases hk with rfl | rfl <;> rfl
  · exact .cons ⟨rfl, rfl, h2⟩ .nil
  · unfold Graph.byKind
    rw [hnodes, List.filter_append, List.filter_cons, filter_layers _ hl (fun _ => not_app)]
    rcases hk with rfl | rfl <;> exact List.append_nil _

theorem router_grown {g : Graph} (hg : WF g) {parent : Nat} (hp : parent < g.nodes.length)
    (seen : List Nat) :
    Grown g (({ g with seen := seen } : Graph).router parent) [] ∧
    (({ g with seen := seen } : Graph).router parent).nodes.length = g.nodes.length + 1 := by
  have hg0 : WF ({ g with seen := seen } : Graph) := ⟨hg.ids, hg.ends⟩
  have hlen := add_len ({ g with seen := seen } : Graph) .router []
  have hlen' : (({ g with seen := seen } : Graph).add .router []).nodes.length
      = g.nodes.length + 1 := hlen
  refine ⟨⟨wf_link (wf_add hg0 .router []) false ?_ ?_,
    ⟨_, [{ source := parent, target := g.nodes.length, wraps := false }], rfl, rfl, ?_⟩,
    ⟨[], ?_, .nil⟩, ?_⟩, hlen⟩
  · omega
  · show g.nodes.length < _
    omega
  · intro e he hw
    have := List.mem_singleton.mp he
    subst this
    cases hw
  · show (g.nodes ++ [_]).filter isHead = _
    rw [List.filter_append]
    rfl
  · unfold Graph.byKind
    show (g.nodes ++ [_]).filter _ = _
    rw [List.filter_append]
    exact List.append_nil _

mutual

/-- The blocks that a walk over an entry adds, and the applications visited afterwards. -/
def shown : Entry → List Nat → List Head × List Nat
  | .route r, seen => ([⟨.route, r.path, r.middleware, r.permissions⟩], seen)
  | .incl path m p app routes, seen =>
    match descends seen m p app with
    | none => ([⟨.incl, path, m, p⟩], seen)
    | some a =>
      (⟨.incl, path, m, p⟩ :: (shownAll routes (a :: seen)).1, (shownAll routes (a :: seen)).2)

/-- The same for a list of entries. -/
def shownAll : List Entry → List Nat → List Head × List Nat
  | [], seen => ([], seen)
  | e :: es, seen =>
    ((shown e seen).1 ++ (shownAll es (shown e seen).2).1, (shownAll es (shown e seen).2).2)

end

mutual

theorem visit_grown : (e : Entry) → ∀ (g : Graph) (router : Nat), WF g →
    router < g.nodes.length →
    Grown g (visit router e g) (shown e g.seen).1 ∧ (visit router e g).seen = (shown e g.seen).2
  | .route r => by
    intro g router hg hr
    unfold visit shown
    obtain ⟨h1, _, h3⟩ := block_grown hg hr .route (.inl rfl) r.path r.middleware r.permissions
    exact ⟨h1, h3⟩
  | .incl path m p app routes => by
    intro g router hg hr
    unfold visit shown
    obtain ⟨h1, h2, h3⟩ := block_grown hg hr .incl (.inr rfl) path m p
    cases hd : descends g.seen m p app with
    | none => exact ⟨h1, h3⟩
    | some a =>
      obtain ⟨r1, r2⟩ := router_grown h1.wf h2 (a :: (g.block router .incl path m p).1.seen)
      have hw := r1.wf
      obtain ⟨v1, v2⟩ := visitAll_grown routes _ (g.block router .incl path m p).1.nodes.length hw
        (by omega)
      have hseen : (({ (g.block router .incl path m p).1 with
          seen := a :: (g.block router .incl path m p).1.seen } : Graph).router
            (g.block router .incl path m p).2).seen = a :: g.seen := by
        show a :: (g.block router .incl path m p).1.seen = _
        rw [h3]
      rw [hseen] at v1 v2
      exact ⟨(h1.trans r1).trans v1, v2⟩

theorem visitAll_grown : (es : List Entry) → ∀ (g : Graph) (router : Nat), WF g →
    router < g.nodes.length →
    Grown g (visitAll router es g) (shownAll es g.seen).1 ∧
      (visitAll router es g).seen = (shownAll es g.seen).2
  | [] => by
    intro g router hg _
    unfold visitAll shownAll
    exact ⟨Grown.refl hg, rfl⟩
  | e :: es => by
    intro g router hg hr
    unfold visitAll shownAll
    obtain ⟨h1, h2⟩ := visit_grown e g router hg hr
    obtain ⟨h3, h4⟩ := visitAll_grown es _ router h1.wf (Nat.lt_of_lt_of_le hr h1.ext.len)
    rw [h2] at h3 h4
    exact ⟨h1.trans h3, h4⟩

end

/-! ### The whole graph -/

/-- The graph with the application node only. -/
def start : Graph :=
  { nodes := [{ id := 0, kind := .application, label := [] }], edges := [], seen := [] }

theorem wf_start : WF start := by
  constructor
  · intro i n hn
    cases i with
    | zero =>
      have := Option.some.inj hn
      subst this
      rfl
    | succ i => cases hn
  · intro e he
    cases he

theorem build_eq (a : AppDecl) :
    build a = visitAll (start.chain 0 (tagged a.middleware [])).1.nodes.length a.routes
      ((start.chain 0 (tagged a.middleware [])).1.router
        (start.chain 0 (tagged a.middleware [])).2) := rfl

/-- Everything about the built graph. -/
theorem build_spec (a : AppDecl) :
    WF (build a) ∧ Chain (build a) 0 (tagged a.middleware []) ∧
    (build a).byKind .application = [{ id := 0, kind := .application, label := [] }] ∧
    Pairs (IsBlock (build a)) ((build a).nodes.filter isHead) (shownAll a.routes []).1 := by
  obtain ⟨h1, h2, h3, h4, ns, es, h5, h6, h7, h8⟩ :=
    chain_spec (tagged a.middleware []) wf_start (last := 0) (Nat.zero_lt_one)
      (fun e he => by cases he)
  have hl := layer_nodes h7
  have hself : ({ (start.chain 0 (tagged a.middleware [])).1 with
      seen := (start.chain 0 (tagged a.middleware [])).1.seen } : Graph)
      = (start.chain 0 (tagged a.middleware [])).1 := rfl
  obtain ⟨r1, r2⟩ := router_grown h1 h3 (start.chain 0 (tagged a.middleware [])).1.seen
  rw [hself] at r1 r2
  obtain ⟨v1, v2⟩ := visitAll_grown a.routes _
    (start.chain 0 (tagged a.middleware [])).1.nodes.length r1.wf (by omega)
  have hseen : ((start.chain 0 (tagged a.middleware [])).1.router
      (start.chain 0 (tagged a.middleware [])).2).seen = [] := h4
  rw [hseen] at v1
  have hgrown := r1.trans v1
  rw [← build_eq] at hgrown
  refine ⟨hgrown.wf, h2.ext hgrown.ext h1 hgrown.wf, ?_, ?_⟩
  · rw [hgrown.apps]
    unfold Graph.byKind
    rw [h5, List.filter_append, filter_layers _ hl (fun _ => not_app)]
    rfl
  · obtain ⟨hs, e1, e2⟩ := hgrown.heads
    have : (start.chain 0 (tagged a.middleware [])).1.nodes.filter isHead = [] := by
      rw [h5, List.filter_append, filter_layers _ hl (fun _ => not_head)]
      rfl
    rw [this, List.nil_append] at e1
    rw [e1]
    exact e2

/-! ### What the questions answer -/

theorem take_mw (m p : List Name) :
    ((tagged m p).takeWhile (fun c => c.1 == .middleware)).map Prod.snd = m := by
  unfold tagged
  induction m with
  | nil =>
    cases p with
    | nil => rfl
    | cons x t => rfl
  | cons x t ih =>
    show (((Kind.middleware, x) :: (t.map _ ++ _)).takeWhile _).map Prod.snd = _
    rw [List.takeWhile_cons]
    exact congrArg (x :: ·) ih

theorem take_perm (m p : List Name) :
    ((tagged m p).takeWhile (fun c => c.1 == .permission)).map Prod.snd
      = if m = [] then p else [] := by
  cases m with
  | nil =>
    rw [if_pos rfl]
    unfold tagged
    induction p with
    | nil => rfl
    | cons x t ih =>
      show (((Kind.permission, x) :: (t.map _)).takeWhile _).map Prod.snd = _
      rw [List.takeWhile_cons]
      exact congrArg (x :: ·) ih
  | cons x t => rfl

theorem filter_mw (m p : List Name) :
    ((tagged m p).filter (fun c => c.1 == .middleware)).map Prod.snd = m := by
  unfold tagged
  rw [List.filter_append, List.map_append]
  have h1 : (p.map (fun c => (Kind.permission, c))).filter (fun c => c.1 == .middleware) = [] := by
    rw [List.filter_eq_nil_iff]
    intro c hc
    obtain ⟨x, _, rfl⟩ := List.mem_map.mp hc
    exact fun h => by cases h
  have h2 : (m.map (fun c => (Kind.middleware, c))).filter (fun c => c.1 == .middleware)
      = m.map (fun c => (Kind.middleware, c)) := by
    rw [List.filter_eq_self]
    intro c hc
    obtain ⟨x, _, rfl⟩ := List.mem_map.mp hc
    rfl
  rw [h1, h2, List.map_map, List.map_nil, List.append_nil]
  exact List.map_id m

theorem filter_perm (m p : List Name) :
    ((tagged m p).filter (fun c => c.1 == .permission)).map Prod.snd = p := by
  unfold tagged
  rw [List.filter_append, List.map_append]
  have h1 : (m.map (fun c => (Kind.middleware, c))).filter (fun c => c.1 == .permission) = [] := by
    rw [List.filter_eq_nil_iff]
    intro c hc
    obtain ⟨x, _, rfl⟩ := List.mem_map.mp hc
    exact fun h => by cases h
  have h2 : (p.map (fun c => (Kind.permission, c))).filter (fun c => c.1 == .permission)
      = p.map (fun c => (Kind.permission, c)) := by
    rw [List.filter_eq_self]
    intro c hc
    obtain ⟨x, _, rfl⟩ := List.mem_map.mp hc
    rfl
  rw [h1, h2, List.map_map, List.map_nil, List.nil_append]
  exact List.map_id p

theorem block_answers {g : Graph} {n : Node} {h : Head} (hb : IsBlock g n h) :
    g.routeMiddlewares n = h.middleware ∧
    g.permissionsFor n = (if h.middleware = [] then h.permissions else []) ∧
    g.includeLayers n = (h.middleware, h.permissions) := by
  have hlen : (tagged h.middleware h.permissions).length < g.nodes.length := by
    have := hb.chain.bound
    omega
  refine ⟨?_, ?_, ?_⟩
  · unfold Graph.routeMiddlewares
    rw [follow_chain .middleware hb.chain hlen, take_mw]
  · unfold Graph.permissionsFor
    rw [follow_chain .permission hb.chain hlen, take_perm]
  · unfold Graph.includeLayers
    rw [layers_chain hb.chain hlen (fun c hc => tagged_kinds hc), filter_mw, filter_perm]

theorem byKind_heads (g : Graph) (k : Kind) (hk : k = .route ∨ k = .incl) :
    g.byKind k = (g.nodes.filter isHead).filter (fun n => n.kind == k) := by
  unfold Graph.byKind
  rw [List.filter_filter]
  apply List.filter_congr
  intro n _
  unfold isHead
  rcases hk with rfl | rfl <;> cases n.kind <;> rfl

theorem forall₂_filter {R : Node → Head → Prop} {k : Kind}
    (hR : ∀ n h, R n h → n.kind = h.kind) :
    ∀ {ns hs}, Pairs R ns hs →
      Pairs R (ns.filter (fun n => n.kind == k)) (hs.filter (fun h => h.kind == k))
  | _, _, .nil => .nil
  | _, _, .cons (a := a) (b := b) h1 h2 => by
    rw [List.filter_cons, List.filter_cons, hR _ _ h1]
    split
    · exact .cons h1 (forall₂_filter hR h2)
    · exact forall₂_filter hR h2

theorem forall₂_map {α β γ : Type} {R : α → β → Prop} {f : α → γ} {f' : β → γ}
    (h : ∀ a b, R a b → f a = f' b) : ∀ {l l'}, Pairs R l l' → l.map f = l'.map f'
  | _, _, .nil => rfl
  | _, _, .cons h1 h2 => by rw [List.map_cons, List.map_cons, h _ _ h1, forall₂_map h h2]

/-- The routes of the graph with what it tells of them. -/
theorem routes_told (a : AppDecl) :
    ((build a).byKind .route).map
        (fun n => (n.label, (build a).routeMiddlewares n, (build a).permissionsFor n))
      = ((shownAll a.routes []).1.filter (fun h => h.kind == .route)).map
        (fun h => (h.label, h.middleware, if h.middleware = [] then h.permissions else [])) := by
  obtain ⟨_, _, _, h⟩ := build_spec a
  rw [byKind_heads _ _ (.inl rfl)]
  refine forall₂_map ?_ (forall₂_filter (fun _ _ h => h.kind) h)
  intro n hd hb
  obtain ⟨e1, e2, _⟩ := block_answers hb
  show (n.label, _, _) = _
  rw [hb.label, e1, e2]

theorem includes_told (a : AppDecl) :
    ((build a).byKind .incl).map (fun n => (n.label, (build a).includeLayers n))
      = ((shownAll a.routes []).1.filter (fun h => h.kind == .incl)).map
        (fun h => (h.label, h.middleware, h.permissions)) := by
  obtain ⟨_, _, _, h⟩ := build_spec a
  rw [byKind_heads _ _ (.inr rfl)]
  refine forall₂_map ?_ (forall₂_filter (fun _ _ h => h.kind) h)
  intro n hd hb
  obtain ⟨_, _, e3⟩ := block_answers hb
  show (n.label, _) = _
  rw [hb.label, e3]

/-! ### Shown and declared -/

/-- The head of a route. -/
def RouteDecl.head (r : RouteDecl) : Head := ⟨.route, r.path, r.middleware, r.permissions⟩

/-- The head of an include. -/
def inclHead (i : Name × List Name × List Name) : Head := ⟨.incl, i.1, i.2.1, i.2.2⟩

mutual

theorem shown_sub : (e : Entry) → ∀ seen, ∀ h ∈ (shown e seen).1,
    (∃ r ∈ routesOf e, h = r.head) ∨ ∃ i ∈ includesOf e, h = inclHead i
  | .route r => by
    intro seen h hh
    unfold shown at hh
    exact .inl ⟨r, by unfold routesOf; exact List.mem_singleton.mpr rfl,
      List.mem_singleton.mp hh⟩
  | .incl path m p app routes => by
    intro seen h hh
    unfold shown at hh
    unfold routesOf includesOf
    cases hd : descends seen m p app with
    | none =>
      rw [hd] at hh
      exact .inr ⟨(path, m, p), List.mem_cons_self .., List.mem_singleton.mp hh⟩
    | some a =>
      rw [hd] at hh
      rcases List.mem_cons.mp hh with hh | hh
      · exact .inr ⟨(path, m, p), List.mem_cons_self .., hh⟩
      · rcases shownAll_sub routes _ h hh with ⟨r, h1, h2⟩ | ⟨i, h1, h2⟩
        · exact .inl ⟨r, h1, h2⟩
        · exact .inr ⟨i, List.mem_cons_of_mem _ h1, h2⟩

theorem shownAll_sub : (es : List Entry) → ∀ seen, ∀ h ∈ (shownAll es seen).1,
    (∃ r ∈ routesOfAll es, h = r.head) ∨ ∃ i ∈ includesOfAll es, h = inclHead i
  | [] => by
    intro seen h hh
    unfold shownAll at hh
    cases hh
  | e :: es => by
    intro seen h hh
    unfold shownAll at hh
    unfold routesOfAll includesOfAll
    rcases List.mem_append.mp hh with hh | hh
    · rcases shown_sub e _ h hh with ⟨r, h1, h2⟩ | ⟨i, h1, h2⟩
      · exact .inl ⟨r, List.mem_append_left _ h1, h2⟩
      · exact .inr ⟨i, List.mem_append_left _ h1, h2⟩
    · rcases shownAll_sub es _ h hh with ⟨r, h1, h2⟩ | ⟨i, h1, h2⟩
      · exact .inl ⟨r, List.mem_append_right _ h1, h2⟩
      · exact .inr ⟨i, List.mem_append_right _ h1, h2⟩

end

/-- The routes among the heads. -/
def onlyRoutes (hs : List Head) : List Head := hs.filter (fun h => h.kind == .route)

mutual

theorem shown_open : (e : Entry) → ∀ seen, Open e → (appsOf e).Nodup →
    (∀ a ∈ appsOf e, a ∉ seen) →
    onlyRoutes (shown e seen).1 = (routesOf e).map RouteDecl.head ∧
    (∀ x ∈ (shown e seen).2, x ∈ seen ∨ x ∈ appsOf e)
  | .route r => by
    intro seen _ _ _
    unfold shown routesOf
    exact ⟨rfl, fun x hx => .inl hx⟩
  | .incl path m p app routes => by
    intro seen ho hn hs
    unfold Open at ho
    obtain ⟨rfl, rfl, ha, ho⟩ := ho
    obtain ⟨a, rfl⟩ := Option.isSome_iff_exists.mp ha
    unfold appsOf at hn hs
    have hn' : (a :: appsOfAll routes).Nodup := hn
    have hs' : ∀ x ∈ a :: appsOfAll routes, x ∉ seen := hs
    obtain ⟨hna, hnr⟩ := List.nodup_cons.mp hn'
    have hd : descends seen [] [] (some a) = some a := by
      unfold descends
      show Option.filter (fun x => !seen.contains x) (some a) = some a
      rw [Option.filter_some, if_pos]
      have := hs' a (List.mem_cons_self ..)
      simpa using this
    unfold shown routesOf
    rw [hd]
    obtain ⟨h1, h2⟩ := shownAll_open routes (a :: seen) ho hnr (by
      intro x hx hc
      rcases List.mem_cons.mp hc with rfl | hc
      · exact hna hx
      · exact hs' x (List.mem_cons_of_mem _ hx) hc)
    refine ⟨?_, ?_⟩
    · show onlyRoutes (_ :: _) = _
      unfold onlyRoutes
      rw [List.filter_cons]
      exact h1
    · intro x hx
      unfold appsOf
      rcases h2 x hx with h | h
      · rcases List.mem_cons.mp h with rfl | h
        · exact .inr (List.mem_append_left _ (List.mem_singleton.mpr rfl))
        · exact .inl h
      · exact .inr (List.mem_append_right _ h)

theorem shownAll_open : (es : List Entry) → ∀ seen, OpenAll es → (appsOfAll es).Nodup →
    (∀ a ∈ appsOfAll es, a ∉ seen) →
    onlyRoutes (shownAll es seen).1 = (routesOfAll es).map RouteDecl.head ∧
    (∀ x ∈ (shownAll es seen).2, x ∈ seen ∨ x ∈ appsOfAll es)
  | [] => by
    intro seen _ _ _
    unfold shownAll routesOfAll
    exact ⟨rfl, fun x hx => .inl hx⟩
  | e :: es => by
    intro seen ho hn hs
    unfold OpenAll at ho
    unfold appsOfAll at hn hs
    obtain ⟨n1, n2, n3⟩ := List.nodup_append.mp hn
    obtain ⟨h1, h2⟩ := shown_open e seen ho.1 n1 (fun a ha => hs a (List.mem_append_left _ ha))
    obtain ⟨h3, h4⟩ := shownAll_open es (shown e seen).2 ho.2 n2 (by
      intro a ha hc
      rcases h2 a hc with h | h
      · exact hs a (List.mem_append_right _ ha) h
      · exact n3 a h a ha rfl)
    unfold shownAll routesOfAll appsOfAll
    refine ⟨?_, ?_⟩
    · show onlyRoutes (_ ++ _) = _
      unfold onlyRoutes
      rw [List.filter_append, List.map_append, ← h1, ← h3]
      rfl
    · intro x hx
      rcases h4 x hx with h | h
      · rcases h2 x h with h | h
        · exact .inl h
        · exact .inr (List.mem_append_left _ h)
      · exact .inr (List.mem_append_right _ h)

end

end Verif.Introspection
