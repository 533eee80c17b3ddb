import Verif.Model.Vec
import Mathlib.Algebra.Order.Field.Basic

/-!
# Axis-aligned boxes

Model of `sumo-api/sumo/threedee/box_3d.pyx` and `sumo-api/sumo/threedee/compute_bbox.pyx`, over an
arbitrary linearly ordered field.  Coordinates are exact (the code uses `float32`/`float64` arrays).
-/

namespace Sumo

variable {K : Type} [Field K] [LinearOrder K]

namespace Vec3
/-- Row-wise minimum of two columns: one step of `np.amin(points, axis=1)`. -/
def vmin (a b : Vec3 K) : Vec3 K := ⟨min a.x b.x, min a.y b.y, min a.z b.z⟩
/-- Row-wise maximum of two columns: one step of `np.amax(points, axis=1)`. -/
def vmax (a b : Vec3 K) : Vec3 K := ⟨max a.x b.x, max a.y b.y, max a.z b.z⟩
end Vec3

/-- `Box3d` (`threedee/box_3d.pyx:17-46`): the two (private) corners. -/
@[ext] structure Box3d (K : Type) where
  minCorner : Vec3 K
  maxCorner : Vec3 K
  deriving DecidableEq

namespace Box3d

/-- `Box3d.__init__` (`threedee/box_3d.pyx:28-36`). -/
def mk' (corner1 corner2 : Vec3 K) : Box3d K :=
  ⟨Vec3.vmin corner1 corner2, Vec3.vmax corner1 corner2⟩

/-- `Box3d()` (`threedee/box_3d.pyx:28`). -/
def default : Box3d K := mk' 0 0

/-- `Box3d.point_in_box` (`threedee/box_3d.pyx:48-54`). -/
def pointInBox (b : Box3d K) (p : Vec3 K) : Bool :=
  decide ((b.minCorner.x < p.x ∧ b.minCorner.y < p.y ∧ b.minCorner.z < p.z) ∧
    (p.x < b.maxCorner.x ∧ p.y < b.maxCorner.y ∧ p.z < b.maxCorner.z))

/-- `Box3d.corners` (`threedee/box_3d.pyx:56-78`): the eight columns. -/
def corners (b : Box3d K) : List (Vec3 K) :=
  let lo := b.minCorner
  let hi := b.maxCorner
  [⟨lo.x, lo.y, hi.z⟩, ⟨hi.x, lo.y, hi.z⟩, ⟨hi.x, hi.y, hi.z⟩, ⟨lo.x, hi.y, hi.z⟩,
   ⟨lo.x, lo.y, lo.z⟩, ⟨hi.x, lo.y, lo.z⟩, ⟨hi.x, hi.y, lo.z⟩, ⟨lo.x, hi.y, lo.z⟩]

/-- `Box3d.volume` (`threedee/box_3d.pyx:80-83`). -/
def volume (b : Box3d K) : K :=
  (b.maxCorner.x - b.minCorner.x) * (b.maxCorner.y - b.minCorner.y) * (b.maxCorner.z - b.minCorner.z)

/-- `Box3d.center` (`threedee/box_3d.pyx:85-92`). -/
def center (b : Box3d K) : Vec3 K :=
  ⟨(b.maxCorner.x + b.minCorner.x) / 2, (b.maxCorner.y + b.minCorner.y) / 2,
   (b.maxCorner.z + b.minCorner.z) / 2⟩

/-- `np.amin(points, axis=1)` of the columns `p :: ps`. -/
def amin (p : Vec3 K) (ps : List (Vec3 K)) : Vec3 K := ps.foldl Vec3.vmin p
/-- `np.amax(points, axis=1)` of the columns `p :: ps`. -/
def amax (p : Vec3 K) (ps : List (Vec3 K)) : Vec3 K := ps.foldl Vec3.vmax p

/-- `Box3d.merge` (`threedee/box_3d.pyx:222-234`). -/
def merge : List (Box3d K) → Box3d K
  | [] => default
  | b :: bs => mk' (amin b.minCorner (bs.map minCorner)) (amax b.maxCorner (bs.map maxCorner))

/-- `vert_lut` (`threedee/box_3d.pyx:257-263`): corner number of each mesh vertex. -/
def vertLut : List ℕ :=
  [0, 1, 2, 3, 1, 5, 6, 2, 5, 4, 7, 6, 4, 0, 3, 7, 3, 2, 6, 7, 4, 5, 1, 0]

/-- The vertices of the mesh (`threedee/box_3d.pyx:255,264-266`): 24 columns. -/
def meshVertices (b : Box3d K) : List (Vec3 K) := vertLut.map fun i => (b.corners)[i]?.getD 0

/-- The index buffer of the mesh (`threedee/box_3d.pyx:268-277`). -/
def meshIndices (normalsOut : Bool) : List ℕ :=
  (List.range 6).flatMap fun i =>
    let j := 4 * i
    if normalsOut then [j, j + 1, j + 2, j, j + 2, j + 3] else [j, j + 2, j + 1, j, j + 3, j + 2]

/-- `dir` (`threedee/box_3d.pyx:281`). -/
def faceDirs : List (Vec3 K) :=
  [⟨0, 0, 1⟩, ⟨1, 0, 0⟩, ⟨0, 0, -1⟩, ⟨-1, 0, 0⟩, ⟨0, 1, 0⟩, ⟨0, -1, 0⟩]

/-- The normals of the mesh (`threedee/box_3d.pyx:279-285`): 24 columns. -/
def meshNormals (normalsOut : Bool) : List (Vec3 K) :=
  let ns := faceDirs.flatMap fun d => [d, d, d, d]
  if normalsOut then ns else ns.map fun n => -n

/-- `_to_mesh_helper` (`threedee/box_3d.pyx:239-287`). -/
def toMeshHelper (b : Box3d K) (normalsOut : Bool) : List (Vec3 K) × List ℕ × List (Vec3 K) :=
  (b.meshVertices, meshIndices normalsOut, meshNormals normalsOut)

end Box3d

/-- `ComputeBbox.from_point_cloud` (`threedee/compute_bbox.pyx:21-38`); also `from_mesh` (40-48), which
calls it with the vertices of the mesh. -/
def bboxOfPoints : List (Vec3 K) → Box3d K
  | [] => Box3d.mk' 0 0
  | p :: ps => Box3d.mk' (Box3d.amin p ps) (Box3d.amax p ps)

/-- `ComputeBbox.from_meshes` (`threedee/compute_bbox.pyx:50-60`), given the vertex arrays of the meshes; also
`from_gltf_object` (62-72), which calls it with the model's primitive meshes. -/
def bboxOfMeshes (meshes : List (List (Vec3 K))) : Box3d K := Box3d.merge (meshes.map bboxOfPoints)

end Sumo
