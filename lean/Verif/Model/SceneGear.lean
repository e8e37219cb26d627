import Verif.Model.SceneChain

/-! Model of `rainbow/simulators/prox_rigid_bodies/scenes/create_gear_train.py`. -/

namespace Verif.Gear

open VMesh (Tri)

/-- `np.linspace(a, b, n)` for n ≥ 2. -/
noncomputable def linspace (a b : ℝ) (n : ℕ) : List ℝ := (List.range n).map fun (k : ℕ) => a + (k : ℝ) * ((b - a) / ((n : ℝ) - 1))

/-- create_gear_train.py:19-29 `GearFactory._roll_angle`. -/
noncomputable def roll_angle (r_base r_top : ℝ) : ℝ := Real.sqrt ((r_top / r_base) ^ 2 - 1)

/-- create_gear_train.py:31-43 `GearFactory._span_angle`. -/
noncomputable def span_angle (roll : ℝ) : ℝ :=
  let x := Real.cos roll + roll * Real.sin roll
  let y := Real.sin roll - roll * Real.cos roll
  atan2 y x

/-- create_gear_train.py:80-81: a point of the involute curve. -/
noncomputable def involute (r_base shift theta : ℝ) : ℝ × ℝ :=
  (r_base * (Real.cos (theta + shift) + theta * Real.sin (theta + shift)), r_base * (Real.sin (theta + shift) - theta * Real.cos (theta + shift)))

/-- create_gear_train.py:45-82 `GearFactory._make_involute_curve`; the pair of arrays is a list of pairs. -/
noncomputable def make_involute_curve (r_base r_top shift : ℝ) (reverse : Bool) : List (ℝ × ℝ) :=
  let theta := linspace 0 (roll_angle r_base r_top) 12
  let theta := if reverse then theta.reverse.map (fun t => -t) else theta
  theta.map (involute r_base shift)

/-- create_gear_train.py:137-139, 145-147: points of a circular arc. -/
noncomputable def arc (r start stop : ℝ) (n : ℕ) : List (ℝ × ℝ) := (linspace start stop n).map fun t => (r * Real.cos t, r * Real.sin t)

/-- create_gear_train.py:163-178: the dictionary with the specification of a gear. -/
structure Specs where
  pitch_radius : ℝ
  top_radius : ℝ
  base_radius : ℝ
  root_radius : ℝ
  tooth_thickness : ℝ
  pitch : ℝ
  tooth_height : ℝ
  module : ℝ
  number_of_teeth : ℕ
  pressure_angle : ℝ
  beta : ℝ
  gamma : ℝ
  delta : ℝ
  xy : List (ℝ × ℝ)
  corners : List (ℤ × ℤ)

/-- create_gear_train.py:129-150: the points of tooth z. -/
noncomputable def tooth (R_b R_t R_r beta gamma delta : ℝ) (z : ℕ) : List (ℝ × ℝ) :=
  let shift := (z : ℝ) * beta * 2
  let forward_shift := shift - delta
  let reverse_shift := shift + delta + beta
  let forward := make_involute_curve R_b R_t forward_shift false
  let top := arc R_t (shift + gamma) (shift + beta - gamma) 6
  let rev := make_involute_curve R_b R_t reverse_shift true
  let root := arc R_r (shift + beta + delta) (shift + 2 * beta - delta) 6
  forward ++ top.tail.dropLast ++ rev ++ root

/-- create_gear_train.py:125-157: the loop over the teeth; the root arc of every tooth has 6 points. -/
noncomputable def teeth (t : ℕ → List (ℝ × ℝ)) : ℕ → List (ℝ × ℝ) × List (ℤ × ℤ)
  | 0 => ([], [])
  | z + 1 =>
    let (xy, corners) := teeth t z
    (xy ++ t z, corners ++ [((xy.length : ℤ) - 1, (xy.length : ℤ) + (t z).length - 6)])

/-- create_gear_train.py:84-179 `GearFactory.make_gear_specs`. -/
noncomputable def make_gear_specs (m : ℝ) (Z : ℕ) (alpha : ℝ) : Specs :=
  let rad := Real.pi * alpha / 180.0
  let h_a := m
  let h_d := 1.25 * m
  let h := 2.25 * m
  let p := Real.pi * m
  let s := p / 2
  let R_p := m * (Z : ℝ) / 2.0
  let R_r := R_p - h_d
  let R_t := R_p + h_a
  let R_b := R_p * Real.cos rad
  let pitch_roll := roll_angle R_b R_p
  let top_roll := roll_angle R_b R_t
  let delta := span_angle pitch_roll
  let beta := Real.pi / (Z : ℝ)
  let gamma := span_angle top_roll - delta
  let c := teeth (tooth R_b R_t R_r beta gamma delta) Z
  { pitch_radius := R_p, top_radius := R_t, base_radius := R_b, root_radius := R_r, tooth_thickness := s, pitch := p, tooth_height := h,
    module := m, number_of_teeth := Z, pressure_angle := alpha, beta := beta, gamma := gamma, delta := delta, xy := c.1, corners := c.2 }

/-- create_gear_train.py:181-254 `GearFactory.make_gears_assembly`. -/
noncomputable def make_gears_assembly (drive_gear driven_gear : Specs) (cx cy theta omega : ℝ) : Except PyErr (ℝ × ℝ × ℝ) := do
  let PR1 := drive_gear.pitch_radius
  let PR2 := driven_gear.pitch_radius
  if drive_gear.module ≠ driven_gear.module then throw .valueError
  if drive_gear.pressure_angle ≠ driven_gear.pressure_angle then throw .valueError
  let R := PR1 + PR2
  let tx := Real.cos omega * R + cx
  let ty := Real.sin omega * R + cy
  let ratio := (drive_gear.number_of_teeth : ℝ) / (driven_gear.number_of_teeth : ℝ)
  let phi := Real.pi - ratio * (theta - omega) + omega
  return (tx, ty, phi)

/-- `indices[indices < 0] += N`, and create_gear_train.py:321-322, 330-333. -/
def wrap (N : ℕ) (i : ℤ) : ℕ := if i < 0 then (i + N).toNat else i.toNat

/-- create_gear_train.py:265-274: the vertices on the two faces. -/
noncomputable def faceV (xy : List (ℝ × ℝ)) (z : ℝ) : List V3 := (xy.map fun p => ⟨p.1, p.2, -z⟩) ++ xy.map fun p => ⟨p.1, p.2, z⟩

/-- create_gear_train.py:276-284: the triangles between the faces. -/
def wallT (N : ℕ) : List Tri := (List.range N).flatMap fun (i : ℕ) =>
  [⟨i, (i + 1) % N, N + (i + 1) % N⟩, ⟨i, N + (i + 1) % N, N + i⟩]

/-- create_gear_train.py:297-300, 308-311: the triangles around the centre of a tooth, edge by edge. -/
def fan (center : ℕ) (indices : List ℕ) (down : Bool) : List Tri := (List.range indices.length).map fun (m : ℕ) =>
  let j := indices.getD m 0
  let k := indices.getD ((m + 1) % indices.length) 0
  if down then ⟨center, k, j⟩ else ⟨center, j, k⟩

/-- `np.mean(P, axis=0)`. -/
noncomputable def mean (P : List V3) : V3 := V3.divs P.sum P.length

/-- create_gear_train.py:288-311: one turn of the loop that covers the teeth. -/
noncomputable def toothCaps (N : ℕ) (VT : List V3 × List Tri) (c : ℤ × ℤ) : List V3 × List Tri :=
  let indices := (List.range (c.2 + 1 - c.1).toNat).map fun (n : ℕ) => wrap N (c.1 + n)
  let V := VT.1 ++ [mean (indices.map fun i => VT.1.getD i 0)]
  let T := VT.2 ++ fan (V.length - 1) indices true
  let indices := indices.map (· + N)
  let V' := V ++ [mean (indices.map fun i => V.getD i 0)]
  let T' := T ++ fan (V'.length - 1) indices false
  (V', T')

/-- create_gear_train.py:320-324: the triangles from the chords of the teeth to the middle of the faces. -/
def chordT (N idx_bot idx_top : ℕ) (C : List (ℤ × ℤ)) : List Tri := C.flatMap fun c =>
  [⟨idx_bot, wrap N c.2, wrap N c.1⟩, ⟨idx_top, wrap N c.1 + N, wrap N c.2 + N⟩]

/-- create_gear_train.py:326-339: the triangles from the arcs between the teeth to the middle of the faces. -/
def rootT (N idx_bot idx_top : ℕ) (C : List (ℤ × ℤ)) : List Tri := (List.range C.length).flatMap fun (k : ℕ) =>
  let start := wrap N (C.getD k (0, 0)).2
  let stop := wrap N (C.getD ((k + 1) % C.length) (0, 0)).1
  ((List.range (stop - start)).map fun (n : ℕ) => ⟨idx_bot, start + n + 1, start + n⟩) ++
  ((List.range (stop - start)).map fun (n : ℕ) => ⟨idx_top, start + n + N, start + n + 1 + N⟩)

/-- create_gear_train.py:256-341 `GearFactory.make_gear_mesh`.  `wrap` is also applied to the second index of a corner in the chord triangles,
where the code leaves it alone: it is never negative. -/
noncomputable def make_gear_mesh (gear : Specs) (face_width : ℝ) : List V3 × List Tri :=
  let N := gear.xy.length
  let VT := gear.corners.foldl (toothCaps N) (faceV gear.xy (face_width / 2), wallT N)
  let cx := (gear.xy.map Prod.fst).sum / (N : ℝ)
  let cy := (gear.xy.map Prod.snd).sum / (N : ℝ)
  let V := VT.1 ++ [⟨cx, cy, -face_width / 2⟩, ⟨cx, cy, face_width / 2⟩]
  let idx_top := V.length - 1
  let idx_bot := V.length - 2
  (V, VT.2 ++ chordT N idx_bot idx_top gear.corners ++ rootT N idx_bot idx_top gear.corners)

end Verif.Gear

namespace Verif.Rigid.SceneM

open Gear

/-- create_gear_train.py:365: change from z up to y up. -/
noncomputable def gearFrame : Quat := Quat.Rx (-Real.pi / 2)

/-- create_gear_train.py:374-399: one gear, at the origin.  The names of the shape and the body are both generated before the mesh is made;
as the generator takes no notice of the engine the order makes no difference beyond the numbers in the names. -/
noncomputable def newGear (eig : Eig) (face_width density : ℝ) (material_name : String) (specs : Specs) : SceneM String := do
  let shape_name ← newShape eig "shape" (make_gear_mesh specs face_width)
  let body_name ← newBody "body" shape_name (Quat.rotate gearFrame 0) (Quat.prod gearFrame Quat.identity)
  setup "free" material_name density body_name
  return body_name

/-- create_gear_train.py:401-417: the loop that pairs every gear with the one before it. -/
noncomputable def placeGears (face_width : ℝ) (omega : ℕ → ℝ) : ℕ → List (Specs × String) → ℝ → ℝ → ℝ → ℝ → SceneM Unit
  | i, a :: b :: rest, cx, cy, cz, theta => do
    match make_gears_assembly a.1 b.1 cx cy theta (omega i) with
    | .error e => raise e
    | .ok (cx, cy, theta) =>
      let cz := cz + face_width / 2
      let r_w := Quat.rotate gearFrame ⟨cx, cy, cz⟩
      let q_w := Quat.prod gearFrame (Quat.Rz theta)
      api fun e => e.set_position b.2 r_w true
      api fun e => e.set_orientation b.2 q_w true
      placeGears face_width omega (i + 1) (b :: rest) cx cy cz theta
  | _, _, _, _, _, _ => pure ()

/-- create_gear_train.py:444-456: the hinge of one gear. -/
noncomputable def gearHinge (face_width : ℝ) (parent_name child_name : String) : SceneM Unit := do
  let hinge_name := parent_name ++ "_" ++ child_name
  api fun e => e.create_hinge hinge_name
  let r ← query fun e => e.get_position child_name
  let origin := r - ⟨0.0, face_width / 2.0, 0.0⟩
  api fun e => e.set_hinge hinge_name parent_name child_name origin V3.k .world

/-- create_gear_train.py:344-458 `create_gear_train`.  `Z` and `omega` are the draws of `np.random.choice` (`numbers` has four entries) and
`np.random.uniform`. -/
noncomputable def create_gear_train (eig : Eig) (Z : ℕ → Fin 4) (omega : ℕ → ℝ) (N : ℕ) (density : ℝ) (material_name : String) :
    SceneM (List String) := do
  let m := 1.0
  let numbers := [7, 12, 15, 28]
  let alpha := 20
  let face_width := 10.0
  let gear_specs := (List.range N).map fun (i : ℕ) => make_gear_specs m (numbers.getD (Z i) 0) alpha
  let body_names ← gear_specs.mapM (newGear eig face_width density material_name)
  placeGears face_width omega 0 (gear_specs.zip body_names) 0 0 0 0
  let shape_name ← newShape eig "ground_shape" (SMesh.create_box 200.0 1.0 200.0)
  let body_name ← newBody "ground_body" shape_name ⟨0.0, -0.5 - face_width, 0.0⟩ Quat.identity
  setup "fixed" material_name density body_name
  let body_names' := body_names ++ [body_name]
  body_names.forM (gearHinge face_width body_name)
  return body_names'

end Verif.Rigid.SceneM
