import Verif.Model.Project
import Verif.Spec.Scene
import Verif.Spec.TinyGltf

/-! # Project folders: what survives, and what is left when saving is cut short -/

namespace Sumo

/-- Not infinite and not a NaN. -/
def F32.Finite (x : F32) : Prop := x.magnitude < 0x7F800000

namespace Project

open GlbSave

/-- What is assumed about the formats: that of `Gltf.Faithful`; an XML document written to a file is read back with newlines
and empty texts changed as XML parsers do; a document that is cut off is not well formed; an HDF5 file is read back. -/
structure Env.Faithful (E : Env) (printed : Gltf.Number → Option ℚ) (round : ℚ → ℚ) : Prop where
  gltf : Gltf.Faithful E.W E.L printed round
  xml : ∀ x, E.xmlParse (E.xmlWrite x) = some x.reread
  xmlCut : ∀ x k, k < (E.xmlWrite x).length → E.xmlParse ((E.xmlWrite x).take k) = none
  h5 : ∀ f, E.h5Read (E.h5Write f) = some f

/-- A name for a file or folder. -/
def FileName (s : String) : Prop := s ≠ "" ∧ '/' ∉ s.toList

/-- Objects as the factory methods make them, holding the shape their project type calls for: a box; a non-empty voxel grid with
indices that fit the file format; a mesh model made by adding, saving and loading meshes, some of them not empty, with finite
vertices.  The id of an object with a file is a file name, not made of dots only for meshes. -/
structure Whole (E : Env) (o : ProjectObject (ops E)) : Prop where
  symmetry : ∃ x y z, ObjectSymmetry.mk? (some x) (some y) (some z) = .ok o.symmetry
  shape :
    (o.projectType = "bounding_box" ∧ o.voxels = none ∧ o.meshes = none ∧
      ∃ c1 c2, o.bounds = some (Box3d.mk' c1 c2)) ∨
    (o.projectType = "voxels" ∧ o.meshes = none ∧ '/' ∉ o.id.toList ∧ ∃ v, o.voxels = some v ∧ v.voxels ≠ [] ∧
      ∀ i ∈ v.voxels, (0 ≤ i.x ∧ i.x < 2 ^ 31) ∧ (0 ≤ i.y ∧ i.y < 2 ^ 31) ∧ (0 ≤ i.z ∧ i.z < 2 ^ 31)) ∨
    (o.projectType = "meshes" ∧ o.voxels = none ∧ (Gltf.RootName o.id ∧ ∃ c ∈ o.id.toList, c ≠ '.') ∧ ∃ M l,
      o.meshes = some M ∧ Gltf.History E.W E.L M l ∧ (∃ m ∈ l, Gltf.HasGeometry m) ∧
      ∀ m ∈ l, ∀ v ∈ (Gltf.geometryOf m).vertices, v.x.Finite ∧ v.y.Finite ∧ v.z.Finite)

/-- `o'` is `o` after saving and loading: the same annotation, pose and bounds up to the eight decimals of the file, the same
voxels and the same meshes in the same order, up to the rounding of numbers in the materials. -/
structure Back (E : Env) (round : ℚ → ℚ) (o o' : ProjectObject (ops E)) : Prop where
  id : o'.id = o.id
  projectType : o'.projectType = o.projectType
  category : o'.category = o.category
  symmetry : o'.symmetry = o.symmetry
  score : o'.score = o.score
  evaluated : o'.evaluated = o.evaluated
  pose : PoseClose o.pose o'.pose
  poseExact : ShortPose o.pose → o'.pose = o.pose
  bounds : ∃ b b', OwnBounds o b ∧ o'.bounds = some b' ∧ BoxClose b b'
  voxels : o'.voxels = o.voxels
  meshes : (o.meshes = none ∧ o'.meshes = none) ∨
    ∃ (M N : Gltf.Model) (ms ns : List AnyMesh), o.meshes = some M ∧ o'.meshes = some N ∧ M.primitiveMeshes = .ok ms ∧
      N.primitiveMeshes = .ok ns ∧ List.Forall₂ (Gltf.MeshBack round) ms ns

/-- A place where a project folder can be made: it does not exist, and nothing on the way to it is a file. -/
def Free (os : Os) (d : Dir) : Prop :=
  os.isDir d = false ∧ ∀ above name, above ++ [name] <+: d → os.file above name = none

/-! ### Killing the process -/

/-- A change of the file system that was under way: a file holds the beginning of its contents; some of the directories were
made; some of what was to be removed is gone. -/
inductive Partly (os : Os) : Effect → Os → Prop
  | write (d : Dir) (n : String) (b : List UInt8) (k : ℕ) : Partly os (.write d n b) (os.write d n (b.take k))
  | makedirs (d d' : Dir) : d' <+: d → Partly os (.makedirs d) (Effect.run os (.makedirs d'))
  | rmtree (d : Dir) (os' : Os) : os'.cwd = os.cwd → (∀ x, os'.isDir x = os.isDir x ∨ d <+: x ∧ os'.isDir x = false) →
      (∀ x n, os'.file x n = os.file x n ∨ d <+: x ∧ os'.file x n = none) → Partly os (.rmtree d) os'

/-- What the file system is like when the process is killed while making these changes. -/
inductive Killed : Os → List Effect → Os → Prop
  | before (os : Os) (fx : List Effect) : Killed os fx os
  | within {os os' : Os} {e : Effect} {fx : List Effect} : Partly os e os' → Killed os (e :: fx) os'
  | after {os os' : Os} {e : Effect} {fx : List Effect} : Killed (e.run os) fx os' → Killed os (e :: fx) os'

end Project
end Sumo
