import Verif.Model.Scenes
import Verif.Model.While

/-! Model of `rainbow/simulators/prox_rigid_bodies/scenes/read_urdf.py`.

`float`, `str.split`, `os.path` and `igl.read_triangle_mesh` are parameters (`Sys`): nothing is assumed about them.  An XML file
is its element tree. -/

namespace Verif.Rigid

open SMesh (Mesh)
open VMesh (Tri)

namespace Urdf

/-- `xml.etree.ElementTree.Element`: tag, attributes, children (text is never read). -/
inductive Element
  | mk (tag : String) (attrib : Dict String String) (children : List Element)

namespace Element
/-- `element.tag`. -/
def tag : Element → String | mk t _ _ => t
/-- `element.attrib`. -/
def attrib : Element → Dict String String | mk _ a _ => a
/-- `list(element)`. -/
def children : Element → List Element | mk _ _ c => c
/-- `element.find(tag)`: the first child with that tag. -/
def find (e : Element) (t : String) : Option Element := e.children.find? fun c => c.tag == t
/-- `element.findall(tag)`. -/
def findall (e : Element) (t : String) : List Element := e.children.filter fun c => c.tag == t
end Element

/-- What the reader asks of Python and of the file system. -/
structure Sys where
  /-- `float(s)` -/
  float : String → Except PyErr ℝ
  /-- `s.split()` -/
  split : String → List String
  /-- `os.path.join` -/
  join : String → String → String
  /-- `os.path.splitext(s)[1].lower()` -/
  ext : String → String
  /-- `igl.read_triangle_mesh` -/
  read : String → Except PyErr (List V3 × List Tri)

/-- A triangle mesh with its frame: the dictionary returned by `_parse_geometry_tag`. -/
structure Geometry where
  origin : CoordSys
  filename : String
  scale : List ℝ
  V : List V3
  T : List Tri

/-- The list [ixx, iyy, izz, ixy, ixz, iyz]. -/
structure Inertia where
  ixx : ℝ
  iyy : ℝ
  izz : ℝ
  ixy : ℝ
  ixz : ℝ
  iyz : ℝ

/-- The dictionary returned by `_parse_inertial_tag`. -/
structure Inertial where
  origin : CoordSys
  mass : ℝ
  inertia : Inertia

/-- `link_info`, read_urdf.py:156-161. -/
structure Link where
  name : String
  visual : Option Geometry
  collision : Option Geometry
  inertial : Option Inertial

/-- `joint_info`, read_urdf.py:175-183 (the limits are never used). -/
structure Joint where
  name : String
  type : String
  parent : String
  child : String
  origin : CoordSys
  axis : V3

/-- read_urdf.py:22-29 `_read_numbers_from_string`. -/
def read_numbers (sys : Sys) (s : String) : Except PyErr (List ℝ) := (sys.split s).mapM sys.float

/-- `numbers[i]`. -/
def item (l : List ℝ) (i : ℕ) : Except PyErr ℝ :=
  match l[i]? with
  | some x => .ok x
  | none => .error .indexError

/-- read_urdf.py:33-38: the numbers of an attribute, zeros if it is missing. -/
noncomputable def triple (sys : Sys) (frame : Dict String String) (key : String) : Except PyErr (List ℝ) :=
  match frame.get? key with
  | some s => read_numbers sys s
  | none => .ok [0.0, 0.0, 0.0]

/-- read_urdf.py:32-47 `_convert_frame`. -/
noncomputable def convert_frame (sys : Sys) (frame : Dict String String) : Except PyErr CoordSys := do
  let rpy ← triple sys frame "rpy"
  let xyz ← triple sys frame "xyz"
  let Qx := Quat.Rx (← item rpy 0)
  let Qy := Quat.Ry (← item rpy 1)
  let Qz := Quat.Rz (← item rpy 2)
  let Qtot := Quat.prod Qz (Quat.prod Qy Qx)
  let x ← item xyz 0
  let y ← item xyz 1
  let z ← item xyz 2
  return ⟨Qtot, ⟨x, y, z⟩⟩

/-- `float(d[key]) if key in d else 0.0`. -/
noncomputable def number (sys : Sys) (d : Dict String String) (key : String) : Except PyErr ℝ :=
  match d.get? key with
  | some s => sys.float s
  | none => .ok 0.0

/-- read_urdf.py:57-76 `_convert_inertia_tensor`. -/
noncomputable def convert_inertia_tensor (sys : Sys) (inertia : Dict String String) : Except PyErr Inertia := do
  let ixx ← number sys inertia "ixx"
  let iyy ← number sys inertia "iyy"
  let izz ← number sys inertia "izz"
  let ixy ← number sys inertia "ixy"
  let ixz ← number sys inertia "ixz"
  let iyz ← number sys inertia "iyz"
  return ⟨ixx, iyy, izz, ixy, ixz, iyz⟩

/-- `tag.find(name).attrib if tag.find(name) is not None else default`. -/
def attribOf (e : Element) (name : String) (default : Dict String String) : Dict String String :=
  match e.find name with
  | some c => c.attrib
  | none => default

/-- Python's `s.replace(pat, "")` for a nonempty `pat`, as used at read_urdf.py:100: read from the left, every occurrence is left out; the number is
how many characters of the present occurrence are still to be skipped. -/
def dropAll (pat : List Char) : ℕ → List Char → List Char
  | _, [] => []
  | k + 1, _ :: cs => dropAll pat k cs
  | 0, c :: cs => if pat.isPrefixOf (c :: cs) then dropAll pat (pat.length - 1) cs else c :: dropAll pat 0 cs

/-- read_urdf.py:96-100: the name of the mesh file. -/
def meshFile (sys : Sys) (package_folder file_url : String) : String :=
  if "package://".toList.isPrefixOf file_url.toList then
    sys.join package_folder (String.ofList (dropAll "package://".toList 0 file_url.toList)) else file_url

/-- read_urdf.py:79-121 `_parse_geometry_tag`. -/
noncomputable def parse_geometry_tag (sys : Sys) (package_folder : String) (element_tag : Option Element) :
    Except PyErr (Option Geometry) :=
  match element_tag with
  | none => .ok none
  | some element_tag =>
    match element_tag.find "geometry" with
    | none => .ok none
    | some geometry_tag =>
      match geometry_tag.children with
      | [] => .error .indexError
      | shape_element :: _ =>
        if shape_element.tag ≠ "mesh" then .ok none
        else do
          let origin_frame ← convert_frame sys (attribOf element_tag "origin" Dict.empty)
          let scale ← read_numbers sys ((shape_element.attrib.get? "scale").getD "1 1 1")
          let filename := meshFile sys package_folder ((shape_element.attrib.get? "filename").getD "")
          if sys.ext filename ∉ [".stl", ".obj", ".ply"] then return none
          else
            let VT ← sys.read filename
            return some ⟨origin_frame, filename, scale, VT.1, VT.2⟩

/-- read_urdf.py:124-137 `_parse_inertial_tag` (with `_convert_mass`, 50-54). -/
noncomputable def parse_inertial_tag (sys : Sys) (inertial_tag : Option Element) : Except PyErr (Option Inertial) :=
  match inertial_tag with
  | none => .ok none
  | some tag => do
    let origin_frame ← convert_frame sys (attribOf tag "origin" Dict.empty)
    let mass ← number sys (attribOf tag "mass" Dict.empty) "value"
    let inertia ← convert_inertia_tensor sys (attribOf tag "inertia" Dict.empty)
    return some ⟨origin_frame, mass, inertia⟩

/-- `element.attrib[key]`. -/
def required (e : Element) (key : String) : Except PyErr String := e.attrib.getItem key

/-- read_urdf.py:150-162: one link. -/
noncomputable def parse_link (sys : Sys) (package_folder : String) (link_tag : Element) : Except PyErr Link := do
  let link_name ← required link_tag "name"
  let visual ← parse_geometry_tag sys package_folder (link_tag.find "visual")
  let collision ← parse_geometry_tag sys package_folder (link_tag.find "collision")
  let inertial ← parse_inertial_tag sys (link_tag.find "inertial")
  return ⟨link_name, visual, collision, inertial⟩

/-- `joint_tag.find(name).attrib['link']`. -/
def linkOf (joint_tag : Element) (name : String) : Except PyErr String :=
  match joint_tag.find name with
  | none => .error .attributeError
  | some c => required c "link"

/-- read_urdf.py:163-184: one joint. -/
noncomputable def parse_joint (sys : Sys) (joint_tag : Element) : Except PyErr Joint := do
  let joint_name ← required joint_tag "name"
  let joint_type ← required joint_tag "type"
  let parent ← linkOf joint_tag "parent"
  let child ← linkOf joint_tag "child"
  let origin_dict := attribOf joint_tag "origin" Dict.empty
  let axis_dict := attribOf joint_tag "axis" (Dict.empty.setItem "xyz" "1 0 0")
  let origin_frame ← convert_frame sys origin_dict
  let axis_frame ← convert_frame sys axis_dict
  return ⟨joint_name, joint_type, parent, child, origin_frame, V3.unit axis_frame.r⟩

/-- read_urdf.py:140-185 `parse_urdf_file`, from the root element of the file. -/
noncomputable def parse_urdf (sys : Sys) (package_folder : String) (root : Element) :
    Except PyErr (List Link × List Joint) := do
  let links ← (root.findall "link").mapM (parse_link sys package_folder)
  let joints ← (root.findall "joint").mapM (parse_joint sys)
  return (links, joints)

/-- read_urdf.py:188-195 `LinkBody`; `parent.children` and `parent.joints` grow together (307-310), here as one list of
(child name, joint name, joint frame, axis). -/
structure LinkBody where
  name : String
  X_b2r : CoordSys
  children : List (String × String × CoordSys × V3)
  parent : Option String

/-- The dictionary `robot`. -/
abbrev Robot := Dict String LinkBody

open Classical in
/-- read_urdf.py:236-243: the vertices in body space. -/
noncomputable def bodyVertices (X_c2b : CoordSys) (V : List V3) : List V3 :=
  if ¬ X_c2b.r = V3.zero ∨ ¬ X_c2b.q = Quat.identity then V.map (CoordSys.xform_point X_c2b) else V

/-- read_urdf.py:216-280: one link. -/
noncomputable def addLink (eig : Eig) (robot : Robot) (link : Link) : SceneM Robot :=
  match link.collision with
  | none => pure robot
  | some col =>
    match link.inertial with
    | none => SceneM.raise .typeError
    | some ine => do
      let X_c2r := CoordSys.make col.origin.r col.origin.q
      let X_b2r := CoordSys.make ine.origin.r ine.origin.q
      let X_c2b := CoordSys.make_coordsys_from_to X_c2r X_b2r
      let V := bodyVertices X_c2b col.V
      let shape_name := link.name ++ "shape"
      (fun s => do
        let mesh ← create_mesh eig V col.T
        let s ← s.create_shape eig shape_name mesh false
        return ((), s) : SceneM Unit)
      SceneM.api fun e => e.create_rigid_body link.name
      SceneM.api fun e => e.connect_shape link.name shape_name
      SceneM.api fun e => e.updateBody link.name fun b =>
        { b with mass := ine.mass, inertia := ⟨ine.inertia.ixx, ine.inertia.iyy, ine.inertia.izz⟩ }
      return robot.setItem link.name ⟨link.name, X_b2r, [], none⟩

/-- `robot[name]` on the left of an assignment to the object's fields. -/
def changeLink (robot : Robot) (name : String) (f : LinkBody → LinkBody) : Except PyErr Robot := do
  let l ← robot.getItem name
  return robot.setItem name (f l)

/-- read_urdf.py:282-310: one joint. -/
def addJoint (robot : Robot) (joint : Joint) : SceneM Robot :=
  if joint.type ≠ "revolute" then pure robot
  else do
    SceneM.api fun e => e.create_hinge joint.name
    let X_j2r := CoordSys.make joint.origin.r joint.origin.q
    fun s => do
      let robot ← changeLink robot joint.parent fun l =>
        { l with children := l.children ++ [(joint.child, joint.name, X_j2r, joint.axis)] }
      let robot ← changeLink robot joint.child fun l => { l with parent := some joint.parent }
      return (robot, s)

/-- read_urdf.py:313-323: the last link without a parent. -/
def findRoot (robot : Robot) : Option LinkBody :=
  robot.values.foldl (fun root link => if link.parent.isNone then some link else root) none

/-- read_urdf.py:352-405: one child of the link taken from the stack; `stack` has its top first. -/
noncomputable def placeChild (parent_name : String) (X_r2w : CoordSys) (st : List String × Robot × Scene)
    (c : String × String × CoordSys × V3) : Except PyErr (List String × Robot × Scene) := do
  let (stack, robot, s) := st
  let (child_name, joint_name, X_j2r, axis) := c
  let child ← robot.getItem child_name
  let X_b2j := child.X_b2r
  let X_j2w := CoordSys.concat X_r2w X_j2r
  let X_b2w := CoordSys.concat X_j2w X_b2j
  let robot := robot.setItem child_name { child with X_b2r := X_j2w }
  let o_w := CoordSys.xform_point X_j2w V3.zero
  let s_w := CoordSys.xform_vector X_j2w axis
  let e ← s.eng.set_position child_name X_b2w.r false
  let e ← e.set_orientation child_name X_b2w.q false
  let e ← e.set_hinge joint_name parent_name child_name o_w s_w .world
  return (child_name :: stack, robot, { s with eng := e })

/-- read_urdf.py:346-405: one trip of `while stack`. -/
noncomputable def visit : LoopStep (List String × Robot × Scene) := fun st =>
  match st with
  | ([], _, _) => .ok none
  | (parent_name :: stack, robot, s) => do
    let parent ← robot.getItem parent_name
    let st ← parent.children.foldlM (placeChild parent_name parent.X_b2r) (stack, robot, s)
    return some st

/-- read_urdf.py:198-405 `read_urdf`, after parsing. -/
noncomputable def build (eig : Eig) (links : List Link) (joints : List Joint) : SceneM Unit := do
  let robot ← links.foldlM (addLink eig) Dict.empty
  let robot ← joints.foldlM addJoint robot
  match findRoot robot with
  | none => SceneM.raise .attributeError
  | some root =>
    SceneM.api fun e => e.set_position root.name root.X_b2r.r false
    SceneM.api fun e => e.set_orientation root.name root.X_b2r.q false
    fun s => do
      let st ← whileLoop visit ([root.name], robot, s)
      return ((), st.2.2)

/-- read_urdf.py:198-405 `read_urdf`. -/
noncomputable def read_urdf (sys : Sys) (eig : Eig) (package_folder : String) (root : Element) : SceneM Unit := fun s => do
  let (links, joints) ← parse_urdf sys package_folder root
  build eig links joints s

end Urdf

end Verif.Rigid
