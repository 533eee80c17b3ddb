import Verif.Model.Xml
import Verif.Model.Voxel

/-!
# Objects, object dictionaries, scenes and conversion

Model of `sumo-api/sumo/semantic/project_object.py`, `project_object_dict.py`, `project_scene.py` and
`project_converter.py`.  Voxel grids are those of `Model/Voxel`; mesh models (`GltfModel`) are a parameter.  The file
system is a dictionary of project directories.
-/

namespace Sumo

/-! ### XML files -/

/-- Newline conversion of an XML parser: `\r\n` and `\r` become `\n`. -/
def xmlNewlines : List Char → List Char
  | [] => []
  | '\r' :: '\n' :: l => '\n' :: xmlNewlines l
  | '\r' :: l => '\n' :: xmlNewlines l
  | c :: l => c :: xmlNewlines l

/-- The text of an element after being written to a file and parsed: empty text becomes `None`. Characters that are not
allowed in XML are left out of the model. -/
def rereadText (s : String) : Option String :=
  if s = "" then none else some (String.ofList (xmlNewlines s.toList))

mutual
/-- `ET.parse` of what `ElementTree.write` wrote (`semantic/project_scene.py:112-115,135`). -/
def Xml.reread : Xml → Xml
  | .node t a x cs => .node t a (x.bind rereadText) (Xml.rereadList cs)
/-- `Xml.reread` on each child. -/
def Xml.rereadList : List Xml → List Xml
  | [] => []
  | c :: cs => c.reread :: Xml.rereadList cs
end

/-- `elem.tag = tag` -/
def Xml.withTag : Xml → String → Xml
  | .node _ a x cs, t => .node t a x cs

/-! ### Objects -/

/-- Mesh models, `GltfModel` (`threedee/gltf_model.pyx`), as far as this code uses them: the vertices of the primitive meshes,
the points `ModelSampler` draws from the model, GLB files, `same_size`.  Taking the meshes out of a model can fail. -/
structure MeshOps where
  /-- `GltfModel` objects -/
  M : Type
  /-- contents of a GLB file -/
  File : Type
  /-- vertices of `primitive_meshes()` -/
  vertices : M → Except PyErr (List (List (Vec3 ℚ)))
  /-- `ModelSampler(625).run(model)[:, 0:3]` -/
  samples : M → Except PyErr (List (Vec3 ℚ))
  /-- `save_as_glb`, for a file name without the extension -/
  saveGlb : String → M → Except PyErr File
  /-- `load_from_glb` -/
  loadGlb : File → Except PyErr M
  /-- `same_size` -/
  sameSize : M → M → Except PyErr Bool

variable (T : NumText) {G : MeshOps}

/-- `ProjectObject` (`semantic/project_object.py:26-106`). `category` is `None` when read from an empty tag. -/
structure ProjectObject (G : MeshOps) where
  id : String
  projectType : String
  bounds : Option (Box3d ℚ)
  voxels : Option (VoxelGrid ℚ)
  meshes : Option G.M
  pose : Pose3 ℚ
  category : Option String
  symmetry : ObjectSymmetry
  score : ℚ
  evaluated : Bool

/-- A project directory (`semantic/project_scene.py:74-77`): voxel files, mesh files (their names end differently, so the two
kinds do not collide) and the scene file. -/
structure ProjectDir (G : MeshOps) where
  h5 : Dict String (VoxelGrid.H5 ℚ)
  glb : Dict String G.File
  xml : Option Xml

/-- Whether a file named after this id can be created in the project directory: a `/` makes it a path into a directory
that does not exist.  (Ids made of `..`, and ids that start with `/`, are not considered; for the latter see `Model/Project`.) -/
def fileNameOk (id : String) : Bool := decide ('/' ∉ id.toList)

/-- Whether `os.path.splitext` of the file name `id + ".glb"` has the extension `.glb`, as `save_as_glb` asserts
(`threedee/gltf_model.pyx:261-264`): a name of dots only before the last one has no extension. -/
def glbNameOk (id : String) : Bool := (id.toList.reverse.takeWhile (· != '/')).any (· != '.')

namespace ProjectObject

/-- `ObjectSymmetry()` (`semantic/object_symmetry.py:41-43`). -/
def noSymmetry : ObjectSymmetry := ⟨.none, .none, .none⟩

/-- `ProjectObject.__init__` (`semantic/project_object.py:54-106`). -/
def init (id projectType : String) (bounds : Option (Box3d ℚ)) (voxels : Option (VoxelGrid ℚ)) (meshes : Option G.M)
    (pose : Option (Pose3 ℚ)) (category : Option String) (symmetry : Option ObjectSymmetry) (score : ℚ)
    (evaluated : Bool) : Except PyErr (ProjectObject G) :=
  let pose := pose.getD Pose3.identity
  let symmetry := symmetry.getD noSymmetry
  if projectType = "bounding_box" then
    .ok ⟨id, projectType, bounds, none, none, pose, category, symmetry, score, evaluated⟩
  else if projectType = "voxels" then
    .ok ⟨id, projectType, bounds, voxels, none, pose, category, symmetry, score, evaluated⟩
  else if projectType = "meshes" then
    .ok ⟨id, projectType, bounds, none, meshes, pose, category, symmetry, score, evaluated⟩
  else .error .valueError

/-- `gen_bounding_box_object` (`semantic/project_object.py:108-122`). -/
def genBoundingBox (id : String) (bounds : Option (Box3d ℚ)) (pose : Option (Pose3 ℚ)) (category : Option String)
    (symmetry : Option ObjectSymmetry) (score : ℚ) (evaluated : Bool) : Except PyErr (ProjectObject G) :=
  init id "bounding_box" bounds none none pose category symmetry score evaluated

/-- `gen_voxels_object` (`semantic/project_object.py:124-138`). -/
def genVoxels (id : String) (bounds : Option (Box3d ℚ)) (voxels : Option (VoxelGrid ℚ)) (pose : Option (Pose3 ℚ))
    (category : Option String) (symmetry : Option ObjectSymmetry) (score : ℚ) (evaluated : Bool) :
    Except PyErr (ProjectObject G) :=
  init id "voxels" bounds voxels none pose category symmetry score evaluated

/-- `gen_meshes_object` (`semantic/project_object.py:140-155`). -/
def genMeshes (id : String) (bounds : Option (Box3d ℚ)) (meshes : Option G.M) (pose : Option (Pose3 ℚ))
    (category : Option String) (symmetry : Option ObjectSymmetry) (score : ℚ) (evaluated : Bool) :
    Except PyErr (ProjectObject G) :=
  init id "meshes" bounds none meshes pose category symmetry score evaluated

/-- `np.isclose(a, b)` with the default tolerances. -/
def isClose (a b : ℚ) : Bool := decide (|a - b| ≤ 1 / 10 ^ 8 + 1 / 10 ^ 5 * |b|)

/-- `Pose3.almost_equal` (`geometry/pose3.pyx:86-87`): `np.allclose` of the two 3×4 matrices. -/
def poseAlmostEqual (p q : Pose3 ℚ) : Bool :=
  (List.zipWith isClose p.matrix34.flatten q.matrix34.flatten).all (fun b => b)

/-- `ProjectObject.almost_equal` (`semantic/project_object.py:167-181`). -/
def almostEqual (a b : ProjectObject G) : Except PyErr Bool :=
  let rest := a.id == b.id && poseAlmostEqual a.pose b.pose && a.category == b.category && a.symmetry.eq b.symmetry &&
    isClose a.score b.score && a.evaluated == b.evaluated
  match a.meshes with
  | none => .ok rest
  | some m =>
    match b.meshes with
    | none => .error .attributeError
    | some m' => do if !(← G.sameSize m m') then .ok false else .ok rest

/-- `ProjectObject.transform_pose` (`semantic/project_object.py:183-194`). -/
def transformPose (nTo : Pose3 ℚ) (o : ProjectObject G) : Except PyErr (ProjectObject G) :=
  init o.id o.projectType o.bounds o.voxels o.meshes (some (nTo.compose o.pose)) o.category (some o.symmetry) o.score
    o.evaluated

/-- The bounds computed in `_to_xml` (`semantic/project_object.py:298-305`), where `None.to_xml()` and
`None.primitive_meshes()` are `AttributeError`s. -/
def xmlBounds (o : ProjectObject G) : Except PyErr (Box3d ℚ) :=
  if o.projectType = "meshes" then
    match o.meshes with
    | none => .error .attributeError
    | some m => do .ok (bboxOfMeshes (← G.vertices m))
  else if o.projectType = "voxels" then
    match o.voxels with
    | none => .error .attributeError
    | some v => v.bounds
  else if o.projectType = "bounding_box" then
    match o.bounds with
    | none => .error .attributeError
    | some b => .ok b
  else .error .unboundLocalError

/-- `str(b)` -/
def strBool (b : Bool) : String := if b then "True" else "False"

/-- `_to_xml` (`semantic/project_object.py:283-319`). -/
def toXml (o : ProjectObject G) : Except PyErr Xml := do
  let bounds ← o.xmlBounds
  .ok (.node "element" [] none
    [.leaf "id" o.id, .node "category" [] o.category [], (Box3d.toXml T bounds).withTag "bounds",
     Pose3.toXml T o.pose, o.symmetry.toXml, .leaf "detectionScore" (T.strFloat o.score),
     .leaf "evaluated" (strBool o.evaluated)])

/-- `ProjectObject.save` (`semantic/project_object.py:196-224`): the directory afterwards, and the element or exception. -/
def save (o : ProjectObject G) (dir : ProjectDir G) : ProjectDir G × Except PyErr Xml :=
  match o.toXml T with
  | .error e => (dir, .error e)
  | .ok x =>
    if o.projectType = "meshes" then
      match o.meshes with
      | none => (dir, .error .attributeError)
      | some m =>
        if glbNameOk o.id = false then (dir, .error .assertionError)
        else
          match G.saveGlb o.id m with
          | .error e => (dir, .error e)
          | .ok f => if fileNameOk o.id then ({ dir with glb := dir.glb.set (o.id ++ ".glb") f }, .ok x)
              else (dir, .error .ioError)
    else if o.projectType = "voxels" then
      match o.voxels with
      | none => (dir, .error .attributeError)
      | some v =>
        match v.save (fileNameOk o.id) dir.h5 (o.id ++ ".h5") with
        | .error e => (dir, .error e)
        | .ok h5 => ({ dir with h5 := h5 }, .ok x)
    else (dir, .ok x)

/-- The local variables of `_parse_xml` (`semantic/project_object.py:341-366`); `id` and `bounds` start unbound. -/
structure Parsed where
  id : Option (Option String)
  pose : Pose3 ℚ
  category : Option String
  bounds : Option (Box3d ℚ)
  symmetry : Option ObjectSymmetry
  score : ℚ
  evaluated : Bool

/-- The defaults taken from `ProjectObject(1)` (`semantic/project_object.py:341-347`). -/
def Parsed.start : Parsed := ⟨none, Pose3.identity, some "unknown", none, some noSymmetry, -1, true⟩

/-- One turn of the loop of `_parse_xml` (`semantic/project_object.py:349-366`). -/
def Parsed.step (st : Parsed) (e : Xml) : Except PyErr Parsed :=
  if e.tag = "id" then .ok { st with id := some e.text }
  else if e.tag = "pose" then do .ok { st with pose := ← Pose3.fromXml T e }
  else if e.tag = "category" then .ok { st with category := e.text }
  else if e.tag = "bounds" then do .ok { st with bounds := some (← Box3d.fromXml T (e.withTag "box3d")) }
  else if e.tag = "symmetry" then do .ok { st with symmetry := ← ObjectSymmetry.fromXml e }
  else if e.tag = "detectionScore" then
    match e.text with
    | none => .error .typeError
    | some s => do .ok { st with score := ← T.parseFloat s }
  else if e.tag = "evaluated" then .ok { st with evaluated := decide (e.text = some "True" ∨ e.text = some "true") }
  else .ok st

/-- `_parse_xml` (`semantic/project_object.py:321-371`): the id, the bounds and the other variables. An `id` or
`bounds` never assigned is an `UnboundLocalError`. -/
def parseXml (e : Xml) : Except PyErr (String × Box3d ℚ × Parsed) :=
  if e.tag ≠ "element" then .error .valueError
  else do
    let st ← e.children.foldlM (Parsed.step T) Parsed.start
    match st.id with
    | none => .error .unboundLocalError
    | some none => .error .valueError
    | some (some id) =>
      match st.bounds with
      | none => .error .unboundLocalError
      | some b => .ok (id, b, st)

/-- `ProjectObject.load` (`semantic/project_object.py:226-269`). -/
def load (projectType : String) (e : Xml) (dir : ProjectDir G) : Except PyErr (ProjectObject G) := do
  let (id, bounds, st) ← parseXml T e
  if projectType = "bounding_box" then
    genBoundingBox id (some bounds) (some st.pose) st.category st.symmetry st.score st.evaluated
  else if projectType = "voxels" then do
    let voxels ← VoxelGrid.load dir.h5 (id ++ ".h5")
    genVoxels id (some bounds) (some voxels) (some st.pose) st.category st.symmetry st.score st.evaluated
  else if projectType = "meshes" then
    match dir.glb.get? (id ++ ".glb") with
    | none => .error .ioError
    | some f => do
      let meshes ← G.loadGlb f
      genMeshes id (some bounds) (some meshes) (some st.pose) st.category st.symmetry st.score st.evaluated
  else .error .valueError

end ProjectObject

/-! ### Object dictionaries -/

/-- The items of a `ProjectObjectDict` (`semantic/project_object_dict.py:21-37`), with string keys. -/
abbrev ObjectDict (G : MeshOps) := Dict String (ProjectObject G)

namespace ObjectDict

/-- The loop of `almost_equal` (`semantic/project_object_dict.py:43-48`). -/
def almostEqualFrom (other : ObjectDict G) : ObjectDict G → Except PyErr Bool
  | [] => .ok true
  | (k, o) :: items =>
    match other.get? k with
    | none => .ok false
    | some o' =>
      match o.almostEqual o' with
      | .error e => .error e
      | .ok false => .ok false
      | .ok true => almostEqualFrom other items

/-- `ProjectObjectDict.almost_equal` (`semantic/project_object_dict.py:39-48`). -/
def almostEqual (d other : ObjectDict G) : Except PyErr Bool :=
  if d.length ≠ other.length then .ok false else almostEqualFrom other d

/-- The loop of `ProjectObjectDict.save` (`semantic/project_object_dict.py:66-67`). -/
def saveAll : List (ProjectObject G) → ProjectDir G → ProjectDir G × Except PyErr (List Xml)
  | [], dir => (dir, .ok [])
  | o :: os, dir =>
    match o.save T dir with
    | (dir, .error e) => (dir, .error e)
    | (dir, .ok x) =>
      match saveAll os dir with
      | (dir, .error e) => (dir, .error e)
      | (dir, .ok xs) => (dir, .ok (x :: xs))

/-- `ProjectObjectDict.save` (`semantic/project_object_dict.py:50-68`). -/
def save (d : ObjectDict G) (dir : ProjectDir G) : ProjectDir G × Except PyErr Xml :=
  match saveAll T d.values dir with
  | (dir, .error e) => (dir, .error e)
  | (dir, .ok xs) => (dir, .ok (.node "elements" [] none xs))

/-- `ProjectObjectDict.load` (`semantic/project_object_dict.py:70-98`). -/
def load (projectType : String) (e : Xml) (dir : ProjectDir G) : Except PyErr (ObjectDict G) :=
  e.children.foldlM (fun (d : ObjectDict G) (c : Xml) =>
    if c.tag = "element" then
      match ProjectObject.load T projectType c dir with
      | .error err => .error err
      | .ok po => .ok (d.set po.id po)
    else .ok d) []

end ObjectDict

/-! ### Scenes -/

/-- A settings dictionary; a value is `None` when read from an empty tag. -/
abbrev Settings := Dict String (Option String)

/-- The settings dictionaries in memory, by address. Address 0 is `DEFAULT_SETTINGS`. -/
structure Heap where
  cells : ℕ → Settings
  next : ℕ

/-- `DEFAULT_SETTINGS` (`semantic/project_scene.py:16-20`). -/
def defaultSettings : Settings :=
  [("version", some "2.0"), ("categories_id", some "fb_categories_v1_0"),
   ("categories_url", some "https://sumochallenge.org/en/categories-1_0.json")]

/-- Memory after the module is imported. -/
def Heap.start : Heap := ⟨fun _ => defaultSettings, 1⟩

/-- A new dictionary. -/
def Heap.alloc (h : Heap) (s : Settings) : Heap × ℕ :=
  (⟨fun a => if a = h.next then s else h.cells a, h.next + 1⟩, h.next)

/-- `settings[key] = value` -/
def Heap.write (h : Heap) (a : ℕ) (key : String) (value : Option String) : Heap :=
  { h with cells := fun b => if b = a then (h.cells a).set key value else h.cells b }

/-- `ProjectScene` (`semantic/project_scene.py:23-49`).  `constrained` tells whether `elements` is a
`ProjectObjectDict` or a plain `dict`; `settings` is an address. -/
structure ProjectScene (G : MeshOps) where
  projectType : String
  settings : ℕ
  constrained : Bool
  elements : ObjectDict G

/-- The file system: project directories by `(path, project_name)`; `os.path.join` of different pairs is taken to
be different. -/
abbrev FileSystem (G : MeshOps) := Dict (String × String) (ProjectDir G)

namespace ProjectScene

/-- `ProjectScene.__init__` (`semantic/project_scene.py:29-49`): `elements` is `None`, or a dictionary with a flag for
`ProjectObjectDict`. -/
def init (projectType : String) (elements : Option (Bool × ObjectDict G)) (settings : Option ℕ) :
    Except PyErr (ProjectScene G) :=
  if projectType ∉ ["bounding_box", "voxels", "meshes"] then .error .valueError
  else .ok ⟨projectType, settings.getD 0, (elements.getD (true, [])).1, (elements.getD (true, [])).2⟩

/-- One entry of the comprehension of `transform_pose` (`semantic/project_scene.py:60`). -/
def transformItem (nTo : Pose3 ℚ) (kv : String × ProjectObject G) : Except PyErr (String × ProjectObject G) :=
  match kv.2.transformPose nTo with
  | .error e => .error e
  | .ok o => .ok (kv.1, o)

/-- `ProjectScene.transform_pose` (`semantic/project_scene.py:51-61`): the new elements are a plain `dict`, the settings are
not passed on. -/
def transformPose (nTo : Pose3 ℚ) (s : ProjectScene G) : Except PyErr (ProjectScene G) := do
  let items ← s.elements.mapM (transformItem nTo)
  init s.projectType (some (false, items)) none

/-- The scene document (`semantic/project_scene.py:88-109`), given the `<elements>`. -/
def document (settings : Settings) (projectType : String) (elements : Xml) : Except PyErr Xml := do
  let version ← settings.get "version"
  let cid ← settings.get "categories_id"
  let url ← settings.get "categories_url"
  .ok (.node "scene" [("xmlns:sumo", "https://www.sumochallenge.org")] none
    [.node "version" [] version [],
     .node "categories" [] none [.node "id" [] cid [], .node "url" [] url []],
     .leaf "project_type" projectType, elements])

/-- `ProjectScene.save` (`semantic/project_scene.py:63-115`): the file system afterwards, and the exception if any. The settings
are looked up before the elements are saved; `dict` has no method `save` (`AttributeError`). -/
def save (h : Heap) (fs : FileSystem G) (path name : String) (s : ProjectScene G) :
    FileSystem G × Except PyErr Unit :=
  if fs.has (path, name) then (fs, .error .ioError)
  else
    let empty : ProjectDir G := ⟨[], [], none⟩
    match document (h.cells s.settings) s.projectType (.node "elements" [] none []) with
    | .error e => (fs.set (path, name) empty, .error e)
    | .ok _ =>
      if !s.constrained then (fs.set (path, name) empty, .error .attributeError)
      else
        match ObjectDict.save T s.elements empty with
        | (dir, .error e) => (fs.set (path, name) dir, .error e)
        | (dir, .ok elements) =>
          match document (h.cells s.settings) s.projectType elements with
          | .error e => (fs.set (path, name) dir, .error e)
          | .ok doc => (fs.set (path, name) { dir with xml := some doc.reread }, .ok ())

/-- The inner loop over `<categories>` (`semantic/project_scene.py:145-149`). -/
def readCategories (settings : Settings) (cs : List Xml) : Settings :=
  cs.foldl (fun st c =>
    if c.tag = "id" then st.set "categories_id" c.text
    else if c.tag = "url" then st.set "categories_url" c.text
    else st) settings

/-- The header loop (`semantic/project_scene.py:143-156`): the settings and `project_type`. -/
def readHeader (cs : List Xml) : Settings × Option String :=
  cs.foldl (fun st c =>
    if c.tag = "categories" then (readCategories st.1 c.children, st.2)
    else if c.tag = "project_type" then (st.1, c.text)
    else if c.tag = "version" then (st.1.set "version" c.text, st.2)
    else st) ([], none)

/-- The second loop (`semantic/project_scene.py:162-166`). -/
def readElements (projectType : String) (dir : ProjectDir G) (cs : List Xml) :
    Except PyErr (Option (ObjectDict G)) :=
  cs.foldlM (fun st c =>
    if c.tag = "elements" then
      match ObjectDict.load T projectType c dir with
      | .error e => .error e
      | .ok d => .ok (some d)
    else .ok st) none

/-- `ProjectScene.load` (`semantic/project_scene.py:117-168`). A document without `<elements>` leaves `elements`
unbound. -/
def load (h : Heap) (fs : FileSystem G) (path name : String) : Except PyErr (Heap × ProjectScene G) :=
  match (fs.get? (path, name)).bind (fun dir => dir.xml.map (fun x => (dir, x))) with
  | none => .error .ioError
  | some (dir, root) =>
    if root.tag ≠ "scene" then .error .valueError
    else
      match (readHeader root.children).2 with
      | none => .error .valueError
      | some projectType => do
        match ← readElements T projectType dir root.children with
        | none => .error .unboundLocalError
        | some elements =>
          let (h', a) := h.alloc (readHeader root.children).1
          let s ← init projectType (some (true, elements)) (some a)
          .ok (h', s)

end ProjectScene

/-! ### Conversion -/

namespace ProjectConverter

/-- `allowed_conversions` (`semantic/project_converter.py:31-33`). -/
def allowedConversions : List (String × String) :=
  [("meshes", "voxels"), ("meshes", "bounding_box"), ("voxels", "bounding_box")]

/-- The bounds computed by `_convert_to_bounding_box` in `convert_element` (`semantic/project_converter.py:69-121`). -/
def boundsOf (o : ProjectObject G) : Except PyErr (Box3d ℚ) :=
  if o.projectType = "voxels" then
    match o.voxels with
    | none => .error .attributeError
    | some v => v.bounds
  else if o.projectType = "meshes" then
    match o.meshes with
    | none => .error .attributeError
    | some m => do .ok (bboxOfMeshes (← G.vertices m))
  else .error .valueError

/-- `convert_element` (`semantic/project_converter.py:69-121`); `Voxelizer()` has `voxel_size = 0.1`
(`threedee/voxelizer.pyx:25`). -/
def convertElement (o : ProjectObject G) (target : String) : Except PyErr (ProjectObject G) :=
  if (o.projectType, target) ∉ allowedConversions then .error .valueError
  else if target = "bounding_box" then do
    let bounds ← boundsOf o
    ProjectObject.genBoundingBox o.id (some bounds) (some o.pose) o.category (some o.symmetry) o.score o.evaluated
  else if target = "voxels" then
    match o.meshes with
    | none => .error .attributeError
    | some m => do
      let voxels ← voxelizerRun (1 / 10) (← G.samples m)
      let bounds ← voxels.bounds
      ProjectObject.genVoxels o.id (some bounds) (some voxels) (some o.pose) o.category (some o.symmetry) o.score
        o.evaluated
  else .error .valueError

/-- One turn of the loop of `run` (`semantic/project_converter.py:38-67`). -/
def convertStep (target : String) (d : ObjectDict G) (o : ProjectObject G) : Except PyErr (ObjectDict G) :=
  match convertElement o target with
  | .error e => .error e
  | .ok o' => .ok (d.set o'.id o')

/-- `run` (`semantic/project_converter.py:38-67`): memory afterwards and the new scene. -/
def run (h : Heap) (s : ProjectScene G) (target : String) : Except PyErr (Heap × ProjectScene G) :=
  if (s.projectType, target) ∉ allowedConversions then .error .valueError
  else do
    let (h', a) := h.alloc (h.cells s.settings)
    let elements ← s.elements.values.foldlM (convertStep target) ([] : ObjectDict G)
    let s' ← ProjectScene.init target (some (true, elements)) (some a)
    .ok (h', s')

end ProjectConverter
end Sumo
