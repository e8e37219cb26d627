import Verif.Model.VolumeMesh
import Verif.Model.Quaternion

/-! Vocabulary for statements about scenes. -/

namespace Verif

open VMesh (Tri)

/-- The triangles of a mesh as triples of points. -/
def trianglesOf (V : List V3) (T : List Tri) : List (V3 × V3 × V3) :=
  T.map fun t => (V.getD t.a 0, V.getD t.b 0, V.getD t.c 0)

/-- A point lies in the convex hull of the points A: every half space that contains A contains it. -/
def InHull (A : List V3) (x : V3) : Prop := ∀ (n : V3) (c : ℝ), (∀ a ∈ A, V3.dot n a ≤ c) → V3.dot n x ≤ c

/-- A and B are on different sides of a plane (they may touch it). -/
def PlaneApart (A B : List V3) : Prop :=
  ∃ (n : V3) (c : ℝ), n ≠ 0 ∧ (∀ a ∈ A, V3.dot n a ≤ c) ∧ ∀ b ∈ B, c ≤ V3.dot n b

/-- The solids with corner points A and B overlap: some ball lies in both. -/
def Overlap (A B : List V3) : Prop :=
  ∃ (p : V3) (ε : ℝ), 0 < ε ∧ ∀ x : V3, V3.dot (x - p) (x - p) ≤ ε ^ 2 → InHull A x ∧ InHull B x

/-- A solid (vertices and triangles in its own frame) placed in the world: the point v goes to r + q·v. -/
structure Brick where
  V : List V3
  T : List Tri
  r : V3
  q : Quat

/-- The world position of the point v of the brick. -/
def Brick.at (b : Brick) (v : V3) : V3 := b.r + Quat.rotate b.q v

/-- The corners of the brick in the world. -/
def Brick.world (b : Brick) : List V3 := b.V.map b.at

end Verif
