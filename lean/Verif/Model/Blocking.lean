import Verif.Model.Dict
import Mathlib.Data.Finset.Basic
import Mathlib.Data.Finset.Fold
import Mathlib.Data.Finite.Defs
import Mathlib.Data.Set.Finite.Basic

/-! Model of `rainbow/simulators/proximal_contact/blocking.py`.  networkx graphs are a node count and an edge list; the
order in which networkx or a Python set enumerates nodes is either immaterial or a parameter. -/

namespace Verif.Blocking

/-- `nx.Graph` on the nodes 0..n-1 (blocking.py:17-19). -/
structure Graph where
  n : ℕ
  edges : List (ℕ × ℕ)

/-- `u in G[v]`. -/
def Graph.adj (G : Graph) (u v : ℕ) : Bool :=
  G.edges.any fun e => (e.1 == u && e.2 == v) || (e.1 == v && e.2 == u)

/-- `G.neighbors(v)` (the enumeration order is immaterial below). -/
def Graph.neighbors (G : Graph) (v : ℕ) : List ℕ := (List.range G.n).filter fun u => G.adj v u

/-- A rigid-body contact: the body indices `cp.bodyA.idx`, `cp.bodyB.idx`. -/
structure RigidContact where
  bodyA : ℕ
  bodyB : ℕ

/-- A soft-body contact: the rows `bodyA.T[idx_tetA]`, `bodyB.T[idx_tetB]` and the node offsets of the two bodies. -/
structure SoftContact where
  tetA : List ℕ
  offsetA : ℕ
  tetB : List ℕ
  offsetB : ℕ

/-- blocking.py:26: the four comparisons. -/
def shareBody (c1 c2 : RigidContact) : Bool :=
  c1.bodyA == c2.bodyA || c1.bodyA == c2.bodyB || c1.bodyB == c2.bodyA || c1.bodyB == c2.bodyB

/-- blocking.py:29-31: `set1`. -/
def nodeSet (c : SoftContact) : Finset ℕ :=
  ((c.tetA.map (· + c.offsetA)) ++ (c.tetB.map (· + c.offsetB))).toFinset

/-- blocking.py:37: `len(set1.intersection(set2)) > 0`. -/
def shareNode (c1 c2 : SoftContact) : Bool := decide (0 < (nodeSet c1 ∩ nodeSet c2).card)

/-- blocking.py:17-43: nodes 0..K-1 and, for k < i, an edge when the test holds. -/
def buildGraph {γ : Type} (share : γ → γ → Bool) (cps : List γ) : Graph where
  n := cps.length
  edges := (List.range cps.length).flatMap fun k =>
    ((List.range cps.length).filter fun i => k < i).filterMap fun i =>
      match cps[k]?, cps[i]? with
      | some c1, some c2 => if share c1 c2 then some (k, i) else none
      | _, _ => none

/-- blocking.py:6-43 `build_contact_graph(contact_points, "rigid_body")`. -/
def build_contact_graph_rigid (cps : List RigidContact) : Graph := buildGraph shareBody cps

/-- blocking.py:6-43 `build_contact_graph(contact_points, "soft_body")`. -/
def build_contact_graph_soft (cps : List SoftContact) : Graph := buildGraph shareNode cps

/-- blocking.py:39-40: any other type raises ValueError, once there is a contact. -/
def build_contact_graph_other {γ : Type} (cps : List γ) : Except PyErr Graph :=
  if cps.isEmpty then .ok ⟨0, []⟩ else .error .valueError

/-- networkx greedy_color: `for color in itertools.count(): if color not in neighbour_colors: break`.  The search ends
within the first `len(neighbour_colors) + 1` colours. -/
def firstFree (used : List ℕ) : ℕ := ((List.range (used.length + 1)).find? fun c => decide (c ∉ used)).getD 0

/-- networkx `greedy_color` for a given node order: each node gets the first colour none of its already coloured
neighbours has. -/
def greedy_color (G : Graph) (order : List ℕ) : Dict ℕ ℕ :=
  order.foldl (fun C u => C.setItem u (firstFree ((G.neighbors u).filterMap C.get?))) Dict.empty

/-- networkx's default order `largest_first`: `sorted(G, key=G.degree, reverse=True)`. -/
def largest_first (G : Graph) : List ℕ :=
  (List.range G.n).mergeSort fun a b => decide ((G.neighbors b).length ≤ (G.neighbors a).length)

/-- blocking.py:52-58, 106-109: collect the items with the same colour (a `defaultdict(list)`). -/
def groupByColor {γ : Type} (L : List (ℕ × γ)) : Dict ℕ (List γ) :=
  L.foldl (fun d e => d.setItem e.1 ((d.get? e.1).getD [] ++ [e.2])) Dict.empty

/-- blocking.py:46-58 `greedy_graph_coloring`. -/
def greedy_graph_coloring (G : Graph) : Dict ℕ (List (ℕ × ℕ)) :=
  let C := greedy_color G (largest_first G)
  let sorted_C := C.entries.mergeSort fun a b => decide (a.1 ≤ b.1)
  groupByColor (sorted_C.map fun e => (e.2, (4 * e.1, 4 * e.1 + 4)))

/-! ### random_graph_coloring -/

/-- The variables of `random_graph_coloring` (blocking.py:70-75). -/
structure RState where
  C : ℕ → Option ℕ
  U : List ℕ
  palette : ℕ → Finset ℕ

/-- What is not determined by the code: the outcome of `np.random.choice` in round i for node v, and the order in which
round i enumerates a set. -/
structure Oracle where
  choose : ℕ → ℕ → Finset ℕ → ℕ
  order : ℕ → List ℕ → List ℕ

/-- `max(C.values(), default=-1) + 1` over the nodes. -/
def nextColor (n : ℕ) (C : ℕ → Option ℕ) : ℕ := ((List.range n).filterMap C).foldl (fun m c => max m (c + 1)) 0

/-- blocking.py:78-80, and the default value 0 that reading `C[v]` at 84-85 stores (`defaultdict(int)`). -/
def chooseColors (o : Oracle) (i : ℕ) (s : RState) : ℕ → Option ℕ := fun v =>
  if v ∈ s.U then
    if s.palette v ≠ ∅ then some (o.choose i v (s.palette v)) else some ((s.C v).getD 0)
  else s.C v

/-- blocking.py:83-86: the nodes whose colour no uncoloured neighbour has. -/
def accepted (G : Graph) (s : RState) (col : ℕ → Option ℕ) : List ℕ :=
  s.U.filter fun v => decide (∀ u ∈ G.neighbors v, u ∈ s.U → (col u).getD 0 ≠ (col v).getD 0)

/-- blocking.py:87-89: accepted colours leave the palettes of the uncoloured neighbours. -/
def discardColors (G : Graph) (s : RState) (col : ℕ → Option ℕ) (I : List ℕ) : ℕ → Finset ℕ := fun u =>
  (s.palette u).filter fun c => ¬ (u ∈ s.U ∧ ∃ v ∈ I, u ∈ G.neighbors v ∧ (col v).getD 0 = c)

/-- blocking.py:92-95: exhausted palettes get a fresh colour. -/
def refill (start : ℕ) (vs : List ℕ) (palette : ℕ → Finset ℕ) : ℕ × (ℕ → Finset ℕ) :=
  vs.foldl (fun s v => if s.2 v = ∅ then (s.1 + 1, Function.update s.2 v {s.1}) else s) (start, palette)

/-- blocking.py:77-97: one round. -/
def round (G : Graph) (o : Oracle) (i : ℕ) (s : RState) : RState :=
  let col := chooseColors o i s
  let I := accepted G s col
  let palette := discardColors G s col I
  let U := s.U.filter fun v => v ∉ I
  { C := col, U := U, palette := (refill (nextColor G.n col) (o.order i U) palette).2 }

/-- blocking.py:76-97: `while len(U) > 0 and iter_count < max_iter`; the first argument counts the remaining rounds. -/
def rounds (G : Graph) (o : Oracle) : ℕ → ℕ → RState → RState
  | 0, _, s => s
  | n + 1, i, s => if s.U = [] then s else rounds G o n (i + 1) (round G o i s)

/-- blocking.py:99-103: left-over nodes get fresh, pairwise different colours. -/
def finish (G : Graph) (o : Oracle) (last : ℕ) (s : RState) : ℕ → Option ℕ :=
  ((o.order last s.U).foldl (fun (st : ℕ × (ℕ → Option ℕ)) v => (st.1 + 1, Function.update st.2 v (some st.1)))
    (nextColor G.n s.C, s.C)).2

/-- blocking.py:60-111 `random_graph_coloring`. -/
def random_graph_coloring (G : Graph) (o : Oracle) (max_iter : ℕ) : Dict ℕ (List ℕ) :=
  let s0 : RState :=
    { C := fun _ => none, U := List.range G.n, palette := fun v => Finset.range (G.neighbors v).length }
  let C := finish G o max_iter (rounds G o max_iter 0 s0)
  groupByColor ((List.range G.n).filterMap fun v => (C v).map fun c => (c, v))

end Verif.Blocking
