import Verif.Props.UrdfFindings

/-! C93: what the parser takes from a URDF file. -/

namespace Verif

open Rigid Rigid.Urdf Rigid.SceneM SMesh
open VMesh (Tri)

/-- One number as an attribute gives it; a missing attribute means zero. -/
def ReadsNum (sys : Sys) (d : Dict String String) (key : String) (a : ℝ) : Prop :=
  (d.get? key = none ∧ a = 0) ∨ ∃ str, d.get? key = some str ∧ sys.float str = .ok a

theorem readsNum_ok {sys : Sys} {d : Dict String String} {key : String} {a : ℝ} (h : number sys d key = .ok a) : ReadsNum sys d key a := by
  unfold number at h
  split at h
  · rename_i str hs
    exact Or.inr ⟨str, hs, h⟩
  · rename_i hs
    injection h with h
    exact Or.inl ⟨hs, by rw [← h]; norm_num⟩

theorem triple_reads {sys : Sys} {d : Dict String String} {key : String} {a b c : ℝ} {rest : List ℝ}
    (h : triple sys d key = .ok (a :: b :: c :: rest)) : Reads sys d key a b c := by
  unfold triple at h
  split at h
  · rename_i str hs
    exact Or.inr ⟨str, rest, hs, h⟩
  · rename_i hs
    injection h with h
    simp only [List.cons.injEq] at h
    exact Or.inl ⟨hs, by rw [← h.1]; norm_num, by rw [← h.2.1]; norm_num, by rw [← h.2.2.1]; norm_num⟩

/-- **C93.** Whatever frame is read, it comes from three angles and three coordinates of the file. -/
theorem C93_frame_reads {sys : Sys} {d : Dict String String} {X : CoordSys} (h : convert_frame sys d = .ok X) :
    ∃ roll pitch yaw x y z, Reads sys d "rpy" roll pitch yaw ∧ Reads sys d "xyz" x y z ∧ X.r = ⟨x, y, z⟩ ∧
      ∀ v, CoordSys.xform_point X v = (M3.Rz yaw).mulVec ((M3.Ry pitch).mulVec ((M3.Rx roll).mulVec v)) + ⟨x, y, z⟩ := by
  have h0 := h
  unfold convert_frame at h
  simp only [bind, Except.bind, pure, Except.pure] at h
  split at h
  · cases h
  rename_i l1 hl1
  split at h
  · cases h
  rename_i l2 hl2
  rcases l1 with _ | ⟨a, _ | ⟨b, _ | ⟨c, l1⟩⟩⟩
  · cases h
  · cases h
  · cases h
  rcases l2 with _ | ⟨x, _ | ⟨y, _ | ⟨z, l2⟩⟩⟩
  · cases h
  · cases h
  · cases h
  simp only [item, List.getElem?_cons_zero, List.getElem?_cons_succ, Except.ok.injEq] at h
  have r1 := triple_reads hl1
  have r2 := triple_reads hl2
  obtain ⟨X', e1, e2⟩ := C93_frame r1 r2
  rw [h0] at e1
  cases e1
  exact ⟨a, b, c, x, y, z, r1, r2, by rw [← h], e2⟩

/-- The attributes of the first child with that tag; none if there is no such child. -/
def childAttrib (e : Element) (tag : String) : Dict String String :=
  match e.find tag with
  | some c => c.attrib
  | none => Dict.empty

/-- **C93.** Mass and principal moments are the numbers of the file, missing ones zero; the frame is the file's. -/
theorem C93_inertial {sys : Sys} {tag : Element} {ine : Inertial} (h : parse_inertial_tag sys (some tag) = .ok (some ine)) :
    convert_frame sys (childAttrib tag "origin") = .ok ine.origin ∧ ReadsNum sys (childAttrib tag "mass") "value" ine.mass ∧
    ReadsNum sys (childAttrib tag "inertia") "ixx" ine.inertia.ixx ∧ ReadsNum sys (childAttrib tag "inertia") "iyy" ine.inertia.iyy ∧
    ReadsNum sys (childAttrib tag "inertia") "izz" ine.inertia.izz := by
  unfold parse_inertial_tag at h
  simp only [bind, Except.bind, pure, Except.pure] at h
  split at h
  · cases h
  rename_i X hX
  split at h
  · cases h
  rename_i m hm
  split at h
  · cases h
  rename_i I hI
  injection h with h
  injection h with h
  subst h
  unfold convert_inertia_tensor at hI
  simp only [bind, Except.bind, pure, Except.pure] at hI
  split at hI
  · cases hI
  rename_i a1 h1
  split at hI
  · cases hI
  rename_i a2 h2
  split at hI
  · cases hI
  rename_i a3 h3
  split at hI
  · cases hI
  split at hI
  · cases hI
  split at hI
  · cases hI
  injection hI with hI
  subst hI
  exact ⟨hX, readsNum_ok hm, readsNum_ok h1, readsNum_ok h2, readsNum_ok h3⟩

/-- **C93.** A joint is read as the file gives it: names and type are the attributes, the axis is the normalised axis of the file
(the x axis if there is no axis tag). -/
theorem C93_joint {sys : Sys} {tag : Element} {j : Joint} (h : parse_joint sys tag = .ok j) :
    tag.attrib.get? "name" = some j.name ∧ tag.attrib.get? "type" = some j.type ∧
    (∃ c, tag.find "parent" = some c ∧ c.attrib.get? "link" = some j.parent) ∧
    (∃ c, tag.find "child" = some c ∧ c.attrib.get? "link" = some j.child) ∧
    convert_frame sys (childAttrib tag "origin") = .ok j.origin ∧
    (∀ a, tag.find "axis" = some a → ∃ x y z, Reads sys a.attrib "xyz" x y z ∧ j.axis = V3.unit ⟨x, y, z⟩) ∧
    (tag.find "axis" = none → (sys.split "1 0 0").mapM sys.float = .ok [1, 0, 0] → j.axis = V3.i) := by
  unfold parse_joint at h
  simp only [bind, Except.bind, pure, Except.pure] at h
  split at h
  · cases h
  rename_i n hn
  split at h
  · cases h
  rename_i t ht
  split at h
  · cases h
  rename_i p hp
  split at h
  · cases h
  rename_i c hc
  split at h
  · cases h
  rename_i X hX
  split at h
  · cases h
  rename_i A hA
  injection h with h
  subst h
  have hlink : ∀ {k l}, linkOf tag k = .ok l → ∃ c, tag.find k = some c ∧ c.attrib.get? "link" = some l := by
    intro k l hl
    unfold linkOf at hl
    split at hl
    · cases hl
    rename_i e he
    exact ⟨e, he, getItem_ok_iff.1 hl⟩
  obtain ⟨_, _, _, x, y, z, -, h2, h3, -⟩ := C93_frame_reads hA
  refine ⟨getItem_ok_iff.1 hn, getItem_ok_iff.1 ht, hlink hp, hlink hc, hX, ?_, ?_⟩
  · intro a ha
    refine ⟨x, y, z, ?_, by rw [h3]⟩
    unfold attribOf at h2
    rw [ha] at h2
    exact h2
  · intro hno hs
    unfold attribOf at h2
    rw [hno] at h2
    simp only at h2
    rcases h2 with ⟨h2, -⟩ | ⟨str, rest, h2, h2'⟩
    · rw [Dict.get?_setItem_self] at h2; cases h2
    · rw [Dict.get?_setItem_self] at h2
      cases h2
      rw [hs] at h2'
      injection h2' with h2'
      simp only [List.cons.injEq] at h2'
      rw [h3, ← h2'.1, ← h2'.2.1, ← h2'.2.2.1]
      refine V3.ext ?_ ?_ ?_ <;> simp [V3.unit, V3.norm, V3.dot, V3.i, V3.divs]

theorem dropAll_skip (pat : List Char) : ∀ (a b : List Char), dropAll pat a.length (a ++ b) = dropAll pat 0 b
  | [], b => rfl
  | _ :: a, b => by simpa [dropAll] using dropAll_skip pat a b

theorem dropAll_none {pat : List Char} : ∀ {b : List Char}, ¬ pat <:+: b → dropAll pat 0 b = b
  | [], _ => rfl
  | c :: cs, h => by
    have h1 : ¬ (pat.isPrefixOf (c :: cs) = true) := fun e => h (List.isPrefixOf_iff_prefix.1 e).isInfix
    rw [dropAll, if_neg h1, dropAll_none (fun e => h (e.trans (List.suffix_cons c cs).isInfix))]

/-- **C93.** A mesh file named `package://rest` is `rest` in the package folder; a name without this prefix is used as it is. -/
theorem C93_mesh_file (sys : Sys) (pkg : String) :
    (∀ rest : String, ¬ "package://".toList <:+: rest.toList → meshFile sys pkg ("package://" ++ rest) = sys.join pkg rest) ∧
    ∀ url : String, ¬ "package://".toList <+: url.toList → meshFile sys pkg url = url := by
  constructor
  · intro rest h
    have h1 : ("package://" ++ rest).toList = "package://".toList ++ rest.toList := by simp
    have h2 : "package://".toList.isPrefixOf ("package://" ++ rest).toList = true := by
      rw [List.isPrefixOf_iff_prefix, h1]
      exact List.prefix_append _ _
    unfold meshFile
    rw [if_pos h2, h1]
    have h3 : dropAll "package://".toList 0 ("package://".toList ++ rest.toList) = rest.toList := by
      have e : "package://".toList = 'p' :: "ackage://".toList := by decide
      have h4 : "package://".toList.isPrefixOf ("package://".toList ++ rest.toList) = true :=
        List.isPrefixOf_iff_prefix.2 (List.prefix_append _ _)
      have h5 := dropAll_skip "package://".toList "ackage://".toList rest.toList
      rw [dropAll_none h] at h5
      refine Eq.trans ?_ h5
      rw [show "package://".toList ++ rest.toList = 'p' :: ("ackage://".toList ++ rest.toList) by rw [e]; rfl] at h4 ⊢
      rw [dropAll, if_pos h4]
      rfl
    rw [h3, String.ofList_toList]
  · intro url h
    unfold meshFile
    rw [if_neg]
    rwa [List.isPrefixOf_iff_prefix]

/-- **C93.** A link has a body only if its first collision tag has a mesh of a known kind; name, mesh and frames are the file's. -/
theorem C93_link {sys : Sys} {pkg : String} {tag : Element} {l : Link} (h : parse_link sys pkg tag = .ok l) :
    tag.attrib.get? "name" = some l.name ∧ (tag.find "inertial" = none ↔ l.inertial = none) ∧
    (∀ i, tag.find "inertial" = some i → parse_inertial_tag sys (some i) = .ok l.inertial) ∧
    ∀ col, l.collision = some col → ∃ c g m, tag.find "collision" = some c ∧ c.find "geometry" = some g ∧ g.children.head? = some m ∧
      m.tag = "mesh" ∧ convert_frame sys (childAttrib c "origin") = .ok col.origin ∧
      col.filename = meshFile sys pkg ((m.attrib.get? "filename").getD "") ∧
      sys.read col.filename = .ok (col.V, col.T) ∧ sys.ext col.filename ∈ [".stl", ".obj", ".ply"] := by
  unfold parse_link at h
  simp only [bind, Except.bind, pure, Except.pure] at h
  split at h
  · cases h
  rename_i n hn
  split at h
  · cases h
  split at h
  · cases h
  rename_i c hc
  split at h
  · cases h
  rename_i i hi
  injection h with h
  subst h
  refine ⟨getItem_ok_iff.1 hn, ?_, ?_, ?_⟩
  · constructor
    · intro hno
      rw [hno] at hi
      injection hi with hi
      exact hi.symm
    · intro hno
      simp only at hno
      subst hno
      cases ht : tag.find "inertial" with
      | none => rfl
      | some t =>
        rw [ht] at hi
        unfold parse_inertial_tag at hi
        simp only [bind, Except.bind, pure, Except.pure] at hi
        split at hi
        · cases hi
        split at hi
        · cases hi
        split at hi
        · cases hi
        · cases hi
  · intro t ht
    rw [ht] at hi
    exact hi
  · intro col hcol
    simp only at hcol
    subst hcol
    unfold parse_geometry_tag at hc
    split at hc
    · cases hc
    rename_i e he
    split at hc
    · cases hc
    rename_i g hg
    split at hc
    · cases hc
    rename_i m ms hm
    by_cases hmesh : m.tag ≠ "mesh"
    · rw [if_pos hmesh] at hc; cases hc
    rw [if_neg hmesh] at hc
    simp only [bind, Except.bind, pure, Except.pure] at hc
    split at hc
    · cases hc
    rename_i X hX
    split at hc
    · cases hc
    by_cases hext : sys.ext (meshFile sys pkg ((m.attrib.get? "filename").getD "")) ∉ [".stl", ".obj", ".ply"]
    · rw [if_pos hext] at hc; cases hc
    rw [if_neg hext] at hc
    split at hc
    · cases hc
    rename_i VT hVT
    injection hc with hc
    injection hc with hc
    subst hc
    exact ⟨e, g, m, he, hg, by rw [hm]; rfl, not_not.1 hmesh, hX, rfl, hVT, not_not.1 hext⟩

/-! ### A file -/

/-- A reader of one-digit numbers; every mesh file is a box. -/
noncomputable def boxSys : Sys where
  float s := if s = "0" then .ok 0 else if s = "1" then .ok 1 else .error .valueError
  split s := (s.toList.filter (· ≠ ' ')).map String.singleton
  join a b := a ++ "/" ++ b
  ext _ := ".obj"
  read _ := .ok (create_box 1 1 1)

def attrs (l : List (String × String)) : Dict String String := l.foldl (fun d p => d.setItem p.1 p.2) Dict.empty

def jointTag : Element := .mk "joint" (attrs [("name", "hinge"), ("type", "revolute")])
  [.mk "parent" (attrs [("link", "base")]) [], .mk "child" (attrs [("link", "arm")]) [],
   .mk "origin" (attrs [("xyz", "0 0 1")]) [], .mk "axis" (attrs [("xyz", "0 0 1")]) []]

/-- The example file's joint is read as intended. -/
example : ∃ j, parse_joint boxSys jointTag = .ok j ∧ j.name = "hinge" ∧ j.parent = "base" ∧ j.child = "arm" ∧
    j.origin.r = ⟨0, 0, 1⟩ ∧ j.axis = V3.unit ⟨0, 0, 1⟩ := by
  have hs : boxSys.split "0 0 1" = ["0", "0", "1"] := by decide
  have hl : (boxSys.split "0 0 1").mapM boxSys.float = .ok [0, 0, 1] := by
    rw [hs]
    simp [boxSys, bind, Except.bind, pure, Except.pure]
  have hread : Reads boxSys (attrs [("xyz", "0 0 1")]) "xyz" 0 0 1 := Or.inr ⟨"0 0 1", [], rfl, hl⟩
  have hrpy : Reads boxSys (attrs [("xyz", "0 0 1")]) "rpy" 0 0 0 := Or.inl ⟨rfl, rfl, rfl, rfl⟩
  obtain ⟨X, hX, -⟩ := C93_frame hrpy hread
  have hj : ∃ j, parse_joint boxSys jointTag = .ok j := by
    unfold parse_joint
    have e1 : attribOf jointTag "origin" Dict.empty = attrs [("xyz", "0 0 1")] := rfl
    have e2 : attribOf jointTag "axis" (Dict.empty.setItem "xyz" "1 0 0") = attrs [("xyz", "0 0 1")] := rfl
    simp only [e1, e2, hX]
    exact ⟨_, rfl⟩
  obtain ⟨j, hj⟩ := hj
  obtain ⟨h1, -, ⟨c, h3, h3'⟩, ⟨d, h4, h4'⟩, h5, h6, -⟩ := C93_joint hj
  refine ⟨j, hj, ?_, ?_, ?_, ?_, ?_⟩
  · injection h1 with h1; exact h1.symm
  · cases h3; injection h3' with h3'; exact h3'.symm
  · cases h4; injection h4' with h4'; exact h4'.symm
  · obtain ⟨_, _, _, x, y, z, -, g2, g3, -⟩ := C93_frame_reads h5
    rw [g3]
    rcases g2 with ⟨g2, -⟩ | ⟨str, rest, g2, g2'⟩
    · cases g2
    · cases g2
      rw [hl] at g2'
      injection g2' with g2'
      simp only [List.cons.injEq] at g2'
      rw [← g2'.1, ← g2'.2.1, ← g2'.2.2.1]
  · obtain ⟨x, y, z, g2, g3⟩ := h6 _ rfl
    rw [g3]
    rcases g2 with ⟨g2, -⟩ | ⟨str, rest, g2, g2'⟩
    · cases g2
    · cases g2
      rw [hl] at g2'
      injection g2' with g2'
      simp only [List.cons.injEq] at g2'
      rw [← g2'.1, ← g2'.2.1, ← g2'.2.2.1]

end Verif
