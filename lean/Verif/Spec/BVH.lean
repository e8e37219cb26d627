import Verif.Model.BVH

/-! The abstract binary tree behind the node array of a BVH chunk. -/

namespace Verif

/-- A binary tree whose nodes carry their array index and whose leaves carry a mesh element. -/
inductive BT
  | leaf (i e : ℕ)
  | node (i : ℕ) (l r : BT)

namespace BT

/-- array index of the top node -/
def idx : BT → ℕ
  | leaf i _ => i
  | node i _ _ => i

/-- mesh elements of the leaves, left to right -/
def leaves : BT → List ℕ
  | leaf _ e => [e]
  | node _ l r => l.leaves ++ r.leaves

/-- all array indices used -/
def indices : BT → List ℕ
  | leaf i _ => [i]
  | node i l r => i :: (l.indices ++ r.indices)

/-- edges on the longest path down -/
def height : BT → ℕ
  | leaf _ _ => 0
  | node _ l r => max l.height r.height + 1

/-- number of nodes -/
def count : BT → ℕ
  | leaf _ _ => 1
  | node _ l r => l.count + r.count + 1

/-- all sub-trees, itself included -/
def subtrees : BT → List BT
  | leaf i e => [leaf i e]
  | node i l r => node i l r :: (l.subtrees ++ r.subtrees)

end BT

/-- The node array `st` stores the tree `t`: a leaf has start = end = its element; an internal node's
start and end are the indices of its two children, which are adjacent, stored after it, and have it
as parent. -/
def Stores (st : BVH.SubTree) : BT → Prop
  | .leaf i e => i < st.size ∧ (st.nodes i).start = e ∧ (st.nodes i).end = e
  | .node i l r => i < st.size ∧ (st.nodes i).start = l.idx ∧ (st.nodes i).end = r.idx ∧
      r.idx = l.idx + 1 ∧ i < l.idx ∧
      (st.nodes l.idx).parent = i ∧ (st.nodes r.idx).parent = i ∧ Stores st l ∧ Stores st r

/-- A chunk is well formed: it stores a tree rooted at index 0 without a parent, no array slot is
used twice, and slots outside the tree are untouched. -/
def ChunkOK (st : BVH.SubTree) (t : BT) : Prop :=
  Stores st t ∧ t.idx = 0 ∧ (st.nodes 0).parent = -1 ∧ t.indices.Nodup ∧
  ∀ i, i ∉ t.indices → BVH.is_undefined (st.nodes i) = true

end Verif
