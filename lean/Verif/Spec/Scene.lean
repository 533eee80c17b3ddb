import Verif.Model.Scene
import Verif.Spec.Xml
import Mathlib.Data.List.Forall2

/-! # What it means for objects and scenes to survive being saved and loaded -/

namespace Sumo

variable {G : MeshOps}

/-- The bounding box an object has: given, or that of its voxels or meshes. -/
def OwnBounds (o : ProjectObject G) (b : Box3d ℚ) : Prop :=
  (o.projectType = "bounding_box" ∧ o.bounds = some b) ∨
  (o.projectType = "voxels" ∧ ∃ v, o.voxels = some v ∧ v.bounds = .ok b) ∨
  (o.projectType = "meshes" ∧ ∃ m vs, o.meshes = some m ∧ G.vertices m = .ok vs ∧ b = bboxOfMeshes vs)

/-- Objects as the factory methods make them, holding the shape their project type calls for: a box; a non-empty voxel grid with
indices that fit the file format; a mesh model whose GLB file can be written and read.  The id of an object with a file is
a file name, not made of dots only for meshes. -/
structure Savable (o : ProjectObject G) : Prop where
  symmetry : ∃ x y z, ObjectSymmetry.mk? (some x) (some y) (some z) = .ok o.symmetry
  shape :
    (o.projectType = "bounding_box" ∧ o.voxels = none ∧ o.meshes = none ∧
      ∃ c1 c2, o.bounds = some (Box3d.mk' c1 c2)) ∨
    (o.projectType = "voxels" ∧ o.meshes = none ∧ '/' ∉ o.id.toList ∧ ∃ v, o.voxels = some v ∧ v.voxels ≠ [] ∧
      ∀ i ∈ v.voxels, (0 ≤ i.x ∧ i.x < 2 ^ 31) ∧ (0 ≤ i.y ∧ i.y < 2 ^ 31) ∧ (0 ≤ i.z ∧ i.z < 2 ^ 31)) ∨
    (o.projectType = "meshes" ∧ o.voxels = none ∧ ('/' ∉ o.id.toList ∧ ∃ c ∈ o.id.toList, c ≠ '.') ∧ ∃ m vs f m', o.meshes = some m ∧
      G.vertices m = .ok vs ∧ G.saveGlb o.id m = .ok f ∧ G.loadGlb f = .ok m')

/-- `o'` is `o` after saving and loading: the same annotation, pose and bounds up to the eight decimals of the file, the same
voxels, and the meshes as the GLB file gives them back. -/
structure SameObject (o o' : ProjectObject G) : Prop where
  id : o'.id = o.id
  projectType : o'.projectType = o.projectType
  category : o'.category = o.category
  symmetry : o'.symmetry = o.symmetry
  score : o'.score = o.score
  evaluated : o'.evaluated = o.evaluated
  pose : PoseClose o.pose o'.pose
  poseExact : ShortPose o.pose → o'.pose = o.pose
  bounds : ∃ b b', OwnBounds o b ∧ o'.bounds = some b' ∧ BoxClose b b'
  voxels : o'.voxels = o.voxels
  meshes : (o.meshes = none ∧ o'.meshes = none) ∨
    ∃ m f m', o.meshes = some m ∧ G.saveGlb o.id m = .ok f ∧ G.loadGlb f = .ok m' ∧ o'.meshes = some m'

/-- Keys are the ids of the objects, and no key occurs twice. -/
def KeyedById (d : ObjectDict G) : Prop := d.NodupKeys ∧ ∀ kv ∈ d, kv.1 = kv.2.id

/-- The same keys in the same order, with the same objects. -/
def SameDict (d d' : ObjectDict G) : Prop :=
  List.Forall₂ (fun kv kv' => kv'.1 = kv.1 ∧ SameObject kv.2 kv'.2) d d'

/-- The three settings a scene file holds. -/
def fileSettings : List String := ["version", "categories_id", "categories_url"]

/-- An object returned by the constructor. -/
def Constructed (o : ProjectObject G) : Prop :=
  ∃ id pt b v m p c s sc ev, ProjectObject.init id pt b v m p c s sc ev = .ok o

/-- `o'` differs from `o` at most in its pose. -/
def SameExceptPose (o o' : ProjectObject G) : Prop := { o' with pose := o.pose } = o

/-- `o'` is `o` converted: same identity, pose and annotation. -/
structure ConvertedTo (target : String) (o o' : ProjectObject G) : Prop where
  id : o'.id = o.id
  projectType : o'.projectType = target
  pose : o'.pose = o.pose
  category : o'.category = o.category
  symmetry : o'.symmetry = o.symmetry
  score : o'.score = o.score
  evaluated : o'.evaluated = o.evaluated
  box : target = "bounding_box" → o'.voxels = none ∧ o'.meshes = none ∧ ∃ b, OwnBounds o b ∧ o'.bounds = some b
  grid : target = "voxels" → o'.meshes = none ∧ ∃ m ps v b, o.meshes = some m ∧
    G.samples m = .ok ps ∧ voxelizerRun (1 / 10) ps = .ok v ∧ v.bounds = .ok b ∧ o'.voxels = some v ∧ o'.bounds = some b

end Sumo
