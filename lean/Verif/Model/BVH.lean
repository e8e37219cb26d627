import Verif.Model.KDOP
import Verif.Model.While

/-! Model of `rainbow/geometry/kdop_bvh.py`. -/

namespace Verif.BVH

/-- kdop_bvh.py:6-17 `Node`. UNDEFINED is -1. -/
structure Node where
  volume : Option KDOP
  parent : ℤ
  start : ℤ
  «end» : ℤ

/-- kdop_bvh.py:13-17 `Node.__init__`. -/
def Node.init : Node := ⟨none, -1, -1, -1⟩

/-- kdop_bvh.py:20-23 `SubTree`: a list of `size` nodes, as a function on indices (entries at
indices ≥ size do not exist; every access below checks the bound). The code stores the pair
(height, next free index) in `height`. -/
structure SubTree where
  size : ℕ
  nodes : ℕ → Node
  height : ℕ × ℕ

/-- kdop_bvh.py:21-23 `SubTree.__init__`. -/
def SubTree.init (size : ℕ) : SubTree := ⟨size, fun _ => Node.init, (0, 0)⟩

/-- kdop_bvh.py:26-29 `Tree`. -/
structure Tree where
  root : Option KDOP
  chunks : List SubTree

/-- kdop_bvh.py:40-41 `_is_leaf`. -/
def is_leaf (n : Node) : Bool := decide (n.start ≠ -1 ∧ n.start = n.end)

/-- kdop_bvh.py:44-49 `_is_undefined`. -/
def is_undefined (n : Node) : Bool := decide (n.parent = -1 ∧ n.start = -1 ∧ n.end = -1)

/-- Assigning attributes of `sub_tree.nodes[i]`: IndexError beyond the list. -/
def SubTree.modify (st : SubTree) (i : ℕ) (f : Node → Node) : Except PyErr SubTree :=
  if i < st.size then .ok { st with nodes := Function.update st.nodes i (f (st.nodes i)) }
  else .error .indexError

/-- `sub_tree.nodes[i]` for a Python int i: IndexError beyond the list (negative i, which Python
would wrap, does not occur for defined nodes and is reported as IndexError). -/
def SubTree.get (st : SubTree) (i : ℤ) : Except PyErr Node :=
  if 0 ≤ i ∧ i < st.size then .ok (st.nodes i.toNat) else .error .indexError

/-- `V[i]`: IndexError when out of range. -/
def lookup (X : List V3) (i : ℕ) : Except PyErr V3 :=
  match X[i]? with
  | none => .error .indexError
  | some p => .ok p

/-- `V[T[e]]`: the coordinates of the corners of element e; IndexError when out of range. -/
def gather (X : List V3) (T : List (List ℕ)) (e : ℤ) : Except PyErr (List V3) :=
  match (if 0 ≤ e then T[e.toNat]? else none) with
  | none => .error .indexError
  | some idx => idx.mapM (lookup X)

/-- kdop_bvh.py:63-72, the loop body of `_refit_sub_tree` for node i. -/
noncomputable def refitNode (V : List V3) (T : List (List ℕ)) (K : ℕ) (envelope : ℝ)
    (st : SubTree) (i : ℕ) : Except PyErr SubTree :=
  let node := st.nodes i
  if is_undefined node then .ok st
  else if is_leaf node then do
    let vertices ← gather V T node.start
    let vol ← KDOP.make K vertices envelope
    st.modify i (fun n => { n with volume := some vol })
  else do
    let left_child ← st.get node.start
    let right_child ← st.get node.end
    match left_child.volume, right_child.volume with
    | some a, some b => do
      let u ← KDOP.union a b
      st.modify i (fun n => { n with volume := some u })
    | _, _ => .error .attributeError

/-- kdop_bvh.py:52-72 `_refit_sub_tree`: nodes in reversed order. -/
noncomputable def refit_sub_tree (V : List V3) (T : List (List ℕ)) (st : SubTree) (K : ℕ)
    (envelope : ℝ) : Except PyErr SubTree :=
  (List.range st.size).reverse.foldlM (refitNode V T K envelope) st

/-- kdop_bvh.py:75-127 `_make_sub_tree`; returns ((height, free_idx), sub_tree). `N > 1` is
`first < last`; `math.floor((first + last) / 2.0)` is integer division. -/
def make_sub_tree (parent_idx free_idx first last : ℕ) (st : SubTree) :
    Except PyErr ((ℕ × ℕ) × SubTree) :=
  if first < last then do
    let left_idx := free_idx
    let right_idx := free_idx + 1
    let free_idx := free_idx + 2
    let st ← st.modify parent_idx (fun n => { n with start := left_idx })
    let st ← st.modify parent_idx (fun n => { n with «end» := right_idx })
    let st ← st.modify left_idx (fun n => { n with parent := parent_idx })
    let st ← st.modify right_idx (fun n => { n with parent := parent_idx })
    let mid_idx := (first + last) / 2
    let ((left_height, free_idx), st) ← make_sub_tree left_idx free_idx first mid_idx st
    let ((right_height, free_idx), st) ← make_sub_tree right_idx free_idx (mid_idx + 1) last st
    .ok ((max left_height right_height + 1, free_idx), st)
  else do
    let st ← st.modify parent_idx (fun n => { n with start := first })
    let st ← st.modify parent_idx (fun n => { n with «end» := first })
    .ok ((0, free_idx), st)
termination_by last - first
decreasing_by all_goals omega

/-- kdop_bvh.py:228-231: the root volume grows by the volume of node 0 of a chunk. -/
noncomputable def rootStep (root : KDOP) (st : SubTree) : Except PyErr KDOP := do
  let node ← st.get 0
  match node.volume with
  | some v => KDOP.union root v
  | none => .error .attributeError

/-- kdop_bvh.py:213-232 `refit_bvh`. -/
noncomputable def refit_bvh (V : List V3) (T : List (List ℕ)) (tree : Tree) (K : ℕ)
    (envelope : ℝ := 0) : Except PyErr Tree := do
  let chunks ← tree.chunks.mapM (fun st => refit_sub_tree V T st K envelope)
  let root ← chunks.foldlM rootStep (KDOP.init K)
  .ok ⟨some root, chunks⟩

/-- kdop_bvh.py:190-206: the sub-tree of chunk c. -/
def make_chunk (N L M c : ℕ) : Except PyErr SubTree := do
  let sub_tree := SubTree.init N
  let first := c * L
  let last := min (first + L - 1) (M - 1)
  let (h, st) ← make_sub_tree 0 1 first last sub_tree
  .ok { st with height := h }

/-- kdop_bvh.py:176-210 `make_bvh`. `int((N + 1) / 2)` and `math.ceil(M / L)` are exact; L = 0 raises
ZeroDivisionError. -/
noncomputable def make_bvh (X : List V3) (T : List (List ℕ)) (K N : ℕ) (envelope : ℝ := 0) :
    Except PyErr Tree := do
  let L := (N + 1) / 2
  let M := T.length
  if L = 0 then .error .zeroDivision
  let C := (M + L - 1) / L
  let chunks ← (List.range C).mapM (make_chunk N L M)
  refit_bvh X T ⟨none, chunks⟩ K envelope

/-- `range(node.start, node.end + 1)`. -/
def childRange (n : Node) : List ℤ :=
  (List.range (n.end + 1 - n.start).toNat).map fun (i : ℕ) => n.start + i

/-- State of the traversal loop: the queue (the code appends and pops A and B nodes alternately, so
the deque is a list of pairs; nodes are references, here indices) and the result list. -/
abbrev TravState := List (ℤ × ℤ) × List (ℤ × ℤ)

/-- kdop_bvh.py:146-173 the loop of `_iterative_sub_tree_traversal`, one trip. -/
noncomputable def travStep (A B : SubTree) : LoopStep TravState := fun s =>
  match s with
  | ([], _) => .ok none
  | ((ia, ib) :: Q, results) => do
    let node_A ← A.get ia
    let node_B ← B.get ib
    match node_A.volume, node_B.volume with
    | some va, some vb => do
      let o ← KDOP.overlap va vb
      if ¬ o then .ok (some (Q, results))
      else if is_leaf node_A ∧ is_leaf node_B then
        .ok (some (Q, results ++ [(node_A.start, node_B.start)]))
      else if ¬ is_leaf node_A ∧ ¬ is_leaf node_B then
        .ok (some (Q ++ (childRange node_A).flatMap (fun i => (childRange node_B).map fun j => (i, j)),
          results))
      else if ¬ is_leaf node_A then
        .ok (some (Q ++ (childRange node_A).map (fun i => (i, ib)), results))
      else
        .ok (some (Q ++ (childRange node_B).map (fun j => (ia, j)), results))
    | _, _ => .error .attributeError

/-- kdop_bvh.py:130-173 `_iterative_sub_tree_traversal`. -/
noncomputable def iterative_sub_tree_traversal (A B : SubTree) (results : List (ℤ × ℤ)) :
    Except PyErr (List (ℤ × ℤ)) := do
  let s ← whileLoop (travStep A B) ([(0, 0)], results)
  .ok s.2

/-- kdop_bvh.py:235-251 `traversal`. -/
noncomputable def traversal (tree_A tree_B : Tree) : Except PyErr (List (ℤ × ℤ)) := do
  match tree_A.root, tree_B.root with
  | some ra, some rb => do
    let o ← KDOP.overlap ra rb
    if ¬ o then .ok []
    else tree_A.chunks.foldlM (fun results sub_A =>
      tree_B.chunks.foldlM (fun results sub_B =>
        iterative_sub_tree_traversal sub_A sub_B results) results) []
  | _, _ => .error .attributeError

end Verif.BVH
