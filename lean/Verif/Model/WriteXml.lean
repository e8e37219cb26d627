import Verif.Model.Shapes

/-! Model of `rainbow/simulators/prox_rigid_bodies/scenes/write_xml.py` and of the part of `xml.etree.ElementTree` that writes attributes. -/

namespace Verif.Rigid.Xml

open VMesh (Tri)
open SMesh (Mesh)

/-- What is given to `Element.set` as the value of an attribute, before it is turned into text: a string, or a number or an array that goes through
`str` or `np.array2string` (which keeps eight decimals), or (line 76) a pair of strings. -/
inductive Val
  | str (s : String)
  | int (n : ℕ)
  | num (x : ℝ)
  | bool (b : Bool)
  | vec (v : V3)
  | quat (q : Quat)
  | row (t : Tri)
  | pair (a b : String)

/-- `xml.etree.ElementTree.Element`: tag, attributes in the order of `set`, children. -/
inductive Elem
  | mk (tag : String) (attrib : List (String × Val)) (children : List Elem)

namespace Elem
/-- `element.tag` -/
def tag : Elem → String | mk t _ _ => t
/-- `element.attrib` -/
def attrib : Elem → List (String × Val) | mk _ a _ => a
/-- `list(element)` -/
def children : Elem → List Elem | mk _ _ c => c
/-- `element.get(key)` -/
def get (e : Elem) (key : String) : Option Val := e.attrib.lookup key
/-- `element.find(tag)` -/
def find (e : Elem) (t : String) : Option Elem := e.children.find? fun c => c.tag == t
end Elem

/-- write_xml.py:38-40: the children of a body. -/
def applyNode (f : Force) : Elem := .mk "apply" [("name", .str f.name)] []

/-- write_xml.py:25-40: a body.  A body without shape raises AttributeError (`None.name`). -/
def bodyNode (b : BodyObj) : Except PyErr Elem :=
  match b.body.shape with
  | none => .error .attributeError
  | some sh => .ok (.mk "body"
      [("name", .str b.body.name), ("idx", .int b.idx), ("shape", .str sh.name), ("pos", .vec b.body.r), ("rot", .quat b.body.q),
       ("vel", .vec b.body.v), ("spin", .vec b.body.w), ("mass", .num b.body.mass), ("inertia", .vec b.body.inertia),
       ("is_fixed", .bool b.body.is_fixed), ("material", .str b.body.material)]
      (b.body.forces.map applyNode))

/-- write_xml.py:42-55: a force. -/
def forceNode (f : Force) : Elem :=
  match f.kind with
  | .gravity g up => .mk "gravity" [("name", .str f.name), ("g", .num g), ("up", .vec up)] []
  | .damping alpha beta => .mk "damping" [("name", .str f.name), ("alpha", .num alpha), ("beta", .num beta)] []

/-- write_xml.py:63-66: a vertex. -/
def vertexNode (v : V3 × ℕ) : Elem := .mk "v" [("idx", .int v.2), ("p", .vec v.1)] []
/-- write_xml.py:69-72: a triangle. -/
def triangleNode (t : Tri × ℕ) : Elem := .mk "t" [("idx", .int t.2), ("labels", .row t.1)] []

/-- write_xml.py:58-72: a shape with its mesh. -/
def shapeNode (meshes : Dict String Mesh) (sh : Shape) : Except PyErr Elem := do
  let mesh ← meshes.getItem sh.name
  return .mk "shape" [("name", .str sh.name)]
    [.mk "vertices" [("count", .int mesh.V.length)] (mesh.V.zipIdx.map vertexNode),
     .mk "triangles" [("count", .int mesh.T.length)] (mesh.T.zipIdx.map triangleNode)]

/-- write_xml.py:75-79: an interaction; the value of "materials" is the key of the dictionary, a pair of strings. -/
def interactionNode (kv : (String × String) × SurfacesInteraction) : Elem :=
  .mk "interaction" [("materials", .pair kv.1.1 kv.1.2), ("friction", .vec kv.2.mu), ("restitution", .num kv.2.epsilon)] []

/-- An attribute of an object that is None raises AttributeError. -/
def some? {α : Type} : Option α → Except PyErr α
  | none => .error .attributeError
  | some a => .ok a

/-- write_xml.py:82-95: a hinge.  A hinge whose sockets were never set raises AttributeError (`None.name`). -/
def hingeNode (bodies : Dict String BodyObj) (h : HingeObj × ℕ) : Except PyErr Elem := do
  let parent_name ← some? h.1.parent
  let parent ← bodies.getItem parent_name
  let child_name ← some? h.1.child
  let child ← bodies.getItem child_name
  let arm_p ← some? h.1.arm_p
  let axis_p ← some? h.1.axis_p
  let o_world := Quat.rotate parent.body.q arm_p + parent.body.r
  let s_world := Quat.rotate parent.body.q axis_p
  return .mk "hinge"
    [("name", .str h.1.name), ("idx", .int h.2), ("parent", .str parent.body.name), ("parent-idx", .int parent.idx),
     ("child", .str child.body.name), ("child-idx", .int child.idx), ("origin", .vec o_world), ("axis", .vec s_world), ("mode", .str "world")] []

/-- write_xml.py:101-106: a parameter (without the attribute "type"). -/
def paramNode (p : String × Val) : Elem := .mk "param" [("name", .str p.1), ("value", p.2)] []

/-- write_xml.py:98-100: `dir(engine.params)`, which is sorted; the parameters outside the model of `Parameters` are left out. -/
def settings (p : Params) : List (String × Val) :=
  [("absolute_tolerance", .num p.absolute_tolerance), ("gap_reduction", .num p.gap_reduction), ("max_gap_value", .num p.max_gap_value),
   ("max_iterations", .int p.max_iterations), ("min_gap_value", .num p.min_gap_value), ("nu_increase", .num p.nu_increase),
   ("nu_reduce", .num p.nu_reduce), ("relative_tolerance", .num p.relative_tolerance), ("time_step", .num p.time_step),
   ("too_small_merit_change", .num p.too_small_merit_change), ("use_bounce", .bool p.use_bounce),
   ("use_post_stabilization", .bool p.use_post_stabilization), ("use_pre_stabilization", .bool p.use_pre_stabilization)]

/-- write_xml.py:12-106 `write_xml`: the document. -/
def document (s : Scene) : Except PyErr Elem := do
  let bodies ← s.eng.bodies.values.mapM bodyNode
  let shapes ← s.eng.shapes.values.mapM (shapeNode s.meshes)
  let hinges ← s.eng.hinges.values.zipIdx.mapM (hingeNode s.eng.bodies)
  return .mk "scene" []
    [.mk "bodies" [] bodies, .mk "forces" [] (s.eng.forces.values.map forceNode), .mk "shapes" [] shapes,
     .mk "materials" [] (s.eng.surfaces_interactions.storage.entries.map interactionNode), .mk "hinges" [] hinges,
     .mk "params" [] ((settings s.eng.params).map paramNode)]

/-! ### The text of the file -/

/-- xml/etree/ElementTree.py `_escape_attrib` on a string: the successive calls of `replace`, of which the first replaces "&". -/
def escape (s : List Char) : List Char := s.flatMap fun c =>
  if c = '&' then "&amp;".toList else if c = '<' then "&lt;".toList else if c = '>' then "&gt;".toList
  else if c = '"' then "&quot;".toList else if c = '\r' then "&#13;".toList else if c = '\n' then "&#10;".toList
  else if c = '\t' then "&#09;".toList else [c]

/-- Python's `repr` of a string: the quote is ' unless the string has ' and no "; the quote, the backslash and control characters are written with a
backslash.  Left out: characters that Python does not regard as printable. -/
def repr (s : List Char) : List Char :=
  let quote : Char := if '\'' ∈ s ∧ '"' ∉ s then '"' else '\''
  [quote] ++ (s.flatMap fun c => if c = quote ∨ c = '\\' then ['\\', c] else if c = '\n' then ['\\', 'n'] else if c = '\r' then ['\\', 'r']
    else if c = '\t' then ['\\', 't'] else [c]) ++ [quote]

/-- The characters that `_escape_attrib` looks for. -/
def special : List String := ["&", "<", ">", "\"", "\r", "\n", "\t"]

/-- xml/etree/ElementTree.py `_escape_attrib` followed by `"%s" % v`: the text of a value.  For a pair `"&" in text` asks whether one of the two
strings is "&": then `text.replace` does not exist and a TypeError is raised; otherwise the pair is written as it is.  `fmt` is the text of numbers
and arrays. -/
def valText (fmt : Val → List Char) : Val → Except PyErr (List Char)
  | .str s => .ok (escape s.toList)
  | .pair a b => if a ∈ special ∨ b ∈ special then .error .typeError
      else .ok (['('] ++ repr a.toList ++ [',', ' '] ++ repr b.toList ++ [')'])
  | v => .ok (escape (fmt v))

/-- xml/etree/ElementTree.py `_serialize_xml`: ` key="value"`. -/
def attrText (fmt : Val → List Char) (kv : String × Val) : Except PyErr (List Char) := do
  let v ← valText fmt kv.2
  return [' '] ++ kv.1.toList ++ ['=', '"'] ++ v ++ ['"']

mutual
/-- xml/etree/ElementTree.py `_serialize_xml` with `short_empty_elements` (without the white space put in by `indent`). -/
def render (fmt : Val → List Char) : Elem → Except PyErr (List Char)
  | .mk tag attrib children => do
    let attrs ← attrib.mapM (attrText fmt)
    let inner ← renderAll fmt children
    if children.isEmpty then return ['<'] ++ tag.toList ++ attrs.flatten ++ [' ', '/', '>']
    else return ['<'] ++ tag.toList ++ attrs.flatten ++ ['>'] ++ inner ++ ['<', '/'] ++ tag.toList ++ ['>']
/-- The children one after the other. -/
def renderAll (fmt : Val → List Char) : List Elem → Except PyErr (List Char)
  | [] => return []
  | c :: cs => do
    let a ← render fmt c
    let b ← renderAll fmt cs
    return a ++ b
end

/-- write_xml.py:108-121: the text of the file (after the XML declaration and without white space between the elements). -/
def write_xml (fmt : Val → List Char) (s : Scene) : Except PyErr (List Char) := do
  let root ← document s
  render fmt root

end Verif.Rigid.Xml
