import Verif.Model.Scene
import Verif.Model.TinyGltf

/-!
# Project folders

`ProjectScene.save` and `load` (`sumo-api/sumo/semantic/project_scene.py:63-168`) down to the files: `Model/Scene` for the objects
and their XML, `Model/GlbSave` and `Model/TinyGltf` for the GLB files of mesh models.  Saving is the list of changes it makes to the
file system, so that one can speak about what is left when the process is killed.  The texts of XML documents and HDF5 files are
parameters; paths have no `.` or `..` components.
-/

namespace Sumo

/-- The number a finite `float` stands for: sign, exponent and fraction (for the others the number the bits would give without
the special meaning of the highest exponent). -/
def F32.toRat (x : F32) : ℚ :=
  let e := x.magnitude / 8388608
  let f := x.magnitude % 8388608
  let v : ℚ := if e = 0 then f / 2 ^ 149 else (8388608 + f) * 2 ^ e / 2 ^ 150
  if 2147483648 ≤ x.bits.toNat then -v else v

namespace Project

open GlbSave

/-! ### Paths -/

/-- A path: whether it starts with a slash, and its components. -/
structure Path where
  absolute : Bool
  parts : List String

/-- The pieces between slashes. -/
def splitSlash : List Char → List (List Char)
  | [] => [[]]
  | c :: l =>
    if c = '/' then [] :: splitSlash l
    else match splitSlash l with
      | [] => [[c]]
      | p :: ps => (c :: p) :: ps

/-- The components of a path; empty ones do not count. -/
def components (s : String) : List String := ((splitSlash s.toList).filter (· ≠ [])).map String.ofList

/-- `os.path.join(p, s)` -/
def Path.join (p : Path) (s : String) : Path :=
  if s.toList.head? = some '/' then ⟨true, components s⟩ else ⟨p.absolute, p.parts ++ components s⟩

/-- The path as that of a file: its directories and its `os.path.basename`. -/
def Path.file (p : Path) : GlbPath := ⟨p.absolute, p.parts.dropLast, p.parts.getLastD ""⟩

/-- The directory a path leads to. -/
def Path.dir (os : Os) (p : Path) : Dir := if p.absolute then p.parts else os.cwd ++ p.parts

/-- The contents of a file. -/
def Path.read (os : Os) (p : Path) : Option (List UInt8) := os.file (os.resolve p.file) p.file.name

/-! ### Changes of the file system -/

/-- A change of the file system, or of the working directory. -/
inductive Effect
  | mkdtemp (d : Dir)
  | makedirs (d : Dir)
  | chdir (d : Dir)
  | write (d : Dir) (n : String) (b : List UInt8)
  | rmtree (d : Dir)

/-- What it does. -/
def Effect.run (os : Os) : Effect → Os
  | .mkdtemp d => os.mkdtemp d
  | .makedirs d => { os with isDir := fun x => decide (x <+: d) || os.isDir x }
  | .chdir d => os.chdir d
  | .write d n b => os.write d n b
  | .rmtree d => os.rmtree d

/-- One after the other. -/
def runAll (os : Os) (fx : List Effect) : Os := fx.foldl Effect.run os

/-- There is a file of this path. -/
def isFile (os : Os) (d : Dir) : Bool := d ≠ [] && (os.file d.dropLast (d.getLastD "")).isSome

/-- `os.makedirs(d)` raises an `OSError` (an `IOError`): `d` exists, or it or a directory above it is a file. -/
def blocked (os : Os) (d : Dir) : Bool := os.isDir d || d.inits.any (isFile os)

/-- The changes made by `save_as_glb` (`threedee/gltf_model.pyx:244-271`), and its outcome; see `GlbSave.saveAsGlb`. -/
def glbEffects (X : Exporter) (os : Os) (temp : Dir) (p : GlbPath) : List Effect × Except PyErr Unit :=
  let (root, extension) := splitext p.name
  if extension ≠ ".glb" then ([.mkdtemp temp], .error .assertionError)
  else
    let (written, r) := X.write root
    let start := [.mkdtemp temp, .chdir temp] ++ written.map fun f => .write temp f.1 f.2
    let finish := [.rmtree temp, .chdir os.cwd]
    match r with
    | .error e => (start ++ finish, .error e)
    | .ok () =>
      let now := runAll os start
      match X.convert root (now.file temp) with
      | .error e => (start ++ finish, .error e)
      | .ok (header, body) =>
        if now.isDir (now.resolve p) then
          (start ++ [.write (now.resolve p) p.name (exportFile header body).1] ++ finish, (exportFile header body).2)
        else (start ++ finish, .error .ioError)

/-! ### Objects -/

/-- What projects need from outside: writer and loader of glTF documents, the text of numbers, `ElementTree.write` and `ET.parse`
(`none` is a `ParseError`), `h5py`, and `ModelSampler(625).run(model)[:, 0:3]`. -/
structure Env where
  W : Gltf.Writer
  L : Gltf.Loader
  T : NumText
  xmlWrite : Xml → List UInt8
  xmlParse : List UInt8 → Option Xml
  h5Write : VoxelGrid.H5 ℚ → List UInt8
  h5Read : List UInt8 → Option (VoxelGrid.H5 ℚ)
  samples : Gltf.Model → Except PyErr (List (Vec3 ℚ))

/-- The files in a folder after these were written there one after the other. -/
def lastWritten (l : List (String × List UInt8)) : Files := fun n => (l.reverse.find? fun f => n == f.1).map Prod.snd

/-- The bytes `save_as_glb` writes for a model and a file name without its extension (`threedee/gltf_model.pyx:221-271`,
`threedee/glb_converter.pyx:153-231`). -/
def glbBytes (W : Gltf.Writer) (root : String) (M : Gltf.Model) : Except PyErr (List UInt8) :=
  match (Gltf.exporter W M).write root with
  | (_, .error e) => .error e
  | (written, .ok ()) =>
    match (Gltf.exporter W M).convert root (lastWritten written) with
    | .error e => .error e
    | .ok (header, body) => exportString header body

/-- The vertices of a mesh. -/
def verticesOf (m : AnyMesh) : List (Vec3 ℚ) :=
  (m.elim id TexturedMesh.toMesh).vertices.map fun v => ⟨v.x.toRat, v.y.toRat, v.z.toRat⟩

/-- `GltfModel` as objects and scenes use it (`threedee/gltf_model.pyx`). -/
def ops (E : Env) : MeshOps where
  M := Gltf.Model
  File := List UInt8
  vertices M := do
    let ms ← M.primitiveMeshes
    .ok (ms.map verticesOf)
  samples := E.samples
  saveGlb root M := glbBytes E.W root M
  loadGlb b := Gltf.loadGlb E.L (some b)
  sameSize M N := Gltf.Model.sameSize M N

variable (E : Env)

/-- `ProjectObject.save(path)` (`semantic/project_object.py:196-224`): the object afterwards (the model keeps the URIs that saving
gives its images), the changes and the element.  A voxel file that cannot be opened is an `UnboundLocalError`
(`threedee/voxel_grid.py:175-179`). -/
def saveObject (os : Os) (temp : Dir) (folder : Path) (o : ProjectObject (ops E)) :
    ProjectObject (ops E) × List Effect × Except PyErr Xml :=
  match o.toXml E.T with
  | .error e => (o, [], .error e)
  | .ok x =>
    if o.projectType = "meshes" then
      match o.meshes with
      | none => (o, [], .error .attributeError)
      | some M =>
        let file := (folder.join (o.id ++ ".glb")).file
        let (fx, r) := glbEffects (Gltf.exporter E.W M) os temp file
        ({ o with meshes := some (Gltf.saveAsGlb E.W M os temp file).1 }, fx, r.map fun _ => x)
    else if o.projectType = "voxels" then
      match o.voxels with
      | none => (o, [], .error .attributeError)
      | some v =>
        let file := (folder.join (o.id ++ ".h5")).file
        if os.isDir (os.resolve file) then
          (o, [.write (os.resolve file) file.name (E.h5Write ⟨v.voxels.map fun i => ⟨toInt32 i.x, toInt32 i.y, toInt32 i.z⟩, v.scale,
            v.minCorner, v.sizeX, v.sizeY⟩)], .ok x)
        else (o, [], .error .unboundLocalError)
    else (o, [], .ok x)

/-- The loop of `ProjectObjectDict.save` (`semantic/project_object_dict.py:66-67`); `temps i` is the folder `mkdtemp` makes for the
`i`-th object. -/
def saveObjects (folder : Path) : Os → (ℕ → Dir) → List (ProjectObject (ops E)) →
    List (ProjectObject (ops E)) × List Effect × Except PyErr (List Xml)
  | _, _, [] => ([], [], .ok [])
  | os, temps, o :: l =>
    match saveObject E os (temps 0) folder o with
    | (o', fx, .error e) => (o' :: l, fx, .error e)
    | (o', fx, .ok x) =>
      match saveObjects folder (runAll os fx) (fun i => temps (i + 1)) l with
      | (l', fx', r) => (o' :: l', fx ++ fx', r.map fun xs => x :: xs)

/-- `ProjectScene.save(path, project_name)` (`semantic/project_scene.py:63-115`): the scene afterwards, the changes and the
outcome. -/
def saveScene (h : Heap) (os : Os) (temps : ℕ → Dir) (path : Path) (name : String) (s : ProjectScene (ops E)) :
    ProjectScene (ops E) × List Effect × Except PyErr Unit :=
  let folder := path.join name
  if blocked os (folder.dir os) then (s, [], .error .ioError)
  else
    let made : Effect := .makedirs (folder.dir os)
    match ProjectScene.document (h.cells s.settings) s.projectType (.node "elements" [] none []) with
    | .error e => (s, [made], .error e)
    | .ok _ =>
      if !s.constrained then (s, [made], .error .attributeError)
      else
        match saveObjects E folder (runAll os [made]) temps s.elements.values with
        | (l, fx, .error e) => ({ s with elements := s.elements.keys.zip l }, made :: fx, .error e)
        | (l, fx, .ok xs) =>
          let s' := { s with elements := s.elements.keys.zip l }
          match ProjectScene.document (h.cells s.settings) s.projectType (.node "elements" [] none xs) with
          | .error e => (s', made :: fx, .error e)
          | .ok doc =>
            let file := (folder.join (name ++ ".xml")).file
            let now := runAll os (made :: fx)
            if now.isDir (now.resolve file) then
              (s', made :: fx ++ [.write (now.resolve file) file.name (E.xmlWrite doc)], .ok ())
            else (s', made :: fx, .error .ioError)

/-! ### Loading -/

/-- `ProjectObject.load` (`semantic/project_object.py:226-269`) from a folder; a voxel file that cannot be read is an
`UnboundLocalError` (`threedee/voxel_grid.py:196-200`). -/
def loadObject (os : Os) (projectType : String) (e : Xml) (folder : Path) : Except PyErr (ProjectObject (ops E)) := do
  let (id, bounds, st) ← ProjectObject.parseXml E.T e
  if projectType = "bounding_box" then
    ProjectObject.genBoundingBox id (some bounds) (some st.pose) st.category st.symmetry st.score st.evaluated
  else if projectType = "voxels" then
    match ((folder.join (id ++ ".h5")).read os).bind E.h5Read with
    | none => .error .unboundLocalError
    | some f =>
      ProjectObject.genVoxels id (some bounds) (some ⟨f.scale, f.minCorner, f.voxels3d, f.sizeX, f.sizeY⟩) (some st.pose) st.category
        st.symmetry st.score st.evaluated
  else if projectType = "meshes" then do
    let M ← Gltf.loadGlb E.L ((folder.join (id ++ ".glb")).read os)
    ProjectObject.genMeshes (G := ops E) id (some bounds) (some M) (some st.pose) st.category st.symmetry st.score st.evaluated
  else .error .valueError

/-- `ProjectObjectDict.load` (`semantic/project_object_dict.py:70-98`). -/
def loadObjects (os : Os) (projectType : String) (e : Xml) (folder : Path) : Except PyErr (ObjectDict (ops E)) :=
  e.children.foldlM (fun (d : ObjectDict (ops E)) (c : Xml) =>
    if c.tag = "element" then
      match loadObject E os projectType c folder with
      | .error err => .error err
      | .ok po => .ok (d.set po.id po)
    else .ok d) []

/-- The second loop of `ProjectScene.load` (`semantic/project_scene.py:162-166`). -/
def loadElements (os : Os) (projectType : String) (folder : Path) (cs : List Xml) : Except PyErr (Option (ObjectDict (ops E))) :=
  cs.foldlM (fun st c =>
    if c.tag = "elements" then
      match loadObjects E os projectType c folder with
      | .error e => .error e
      | .ok d => .ok (some d)
    else .ok st) none

/-- `ProjectScene.load` (`semantic/project_scene.py:117-168`). -/
def loadScene (h : Heap) (os : Os) (path : Path) (name : String) : Except PyErr (Heap × ProjectScene (ops E)) :=
  let folder := path.join name
  match (folder.join (name ++ ".xml")).read os with
  | none => .error .ioError
  | some b =>
    match E.xmlParse b with
    | none => .error .parseError
    | some root =>
      if root.tag ≠ "scene" then .error .valueError
      else
        match (ProjectScene.readHeader root.children).2 with
        | none => .error .valueError
        | some projectType => do
          match ← loadElements E os projectType folder root.children with
          | none => .error .unboundLocalError
          | some elements =>
            let (h', a) := h.alloc (ProjectScene.readHeader root.children).1
            let s ← ProjectScene.init projectType (some (true, elements)) (some a)
            .ok (h', s)

end Project
end Sumo
