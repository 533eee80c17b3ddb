import Verif.Model.PointCloud
import Verif.Model.Gltf

/-!
# Access by index

The methods that take the index of one element: `point` and `color` of point clouds, `image_size`, `image_uri` and the extraction of one
mesh of models, and the columns of rotations.
-/

namespace Sumo
namespace Access

/-- What a call does: return, raise `OverflowError`, raise another exception, or read outside an array (undefined). -/
inductive Outcome (α : Type)
  | returns (a : α)
  | overflowError
  | raises (e : PyErr)
  | undefined
  deriving DecidableEq

/-- Cython converts the argument to `size_t` (64 bits) before the body runs: numbers that do not fit raise `OverflowError`
(`threedee/point_cloud.pyx:124,130`, `threedee/gltf_model.pyx:155,159,207,212`, `geometry/rot3.pyx:38`). -/
def withSizeT {α : Type} (i : ℤ) (body : ℕ → Outcome α) : Outcome α :=
  if i < 0 ∨ 2 ^ 64 ≤ i then .overflowError else body i.toNat

/-- `std::vector::operator[]`, which checks nothing (`threedee/PointCloud.h:77-79,85-87`, `threedee/gltf_model.pyx:157,161`).  Where the
address is inside some other memory the call returns whatever is there; that is undefined here too. -/
def unchecked {α : Type} (l : List α) (i : ℕ) : Outcome α := match l[i]? with
  | some a => .returns a
  | none => .undefined

/-- Exceptions of a body. -/
def ofExcept {α : Type} : Except PyErr α → Outcome α
  | .ok a => .returns a
  | .error .undefined => .undefined
  | .error e => .raises e

/-- `PointCloud.point` (`threedee/point_cloud.pyx:124-125`, `threedee/PointCloud.h:77-79`). -/
def point {K : Type} (c : PointCloud K) (i : ℤ) : Outcome (Vec3 K) := withSizeT i (unchecked c.points)

/-- `PointCloud.color` (`threedee/point_cloud.pyx:130-131`, `threedee/PointCloud.h:85-87`). -/
def color {K : Type} (c : PointCloud K) (i : ℤ) : Outcome Color := withSizeT i (unchecked c.colors)

/-- `PointCloud.num_points` (`threedee/point_cloud.pyx:136-137`, `threedee/PointCloud.h:89-91`). -/
def numPoints {K : Type} (c : PointCloud K) : ℕ := c.points.length

/-- `GltfModel.num_images` (`threedee/gltf_model.pyx:151-153`). -/
def numImages (M : Gltf.Model) : ℕ := M.images.length

/-- `GltfModel.image_size` (`threedee/gltf_model.pyx:155-157`): the number of bytes of the pixels. -/
def imageSize (M : Gltf.Model) (i : ℤ) : Outcome ℕ := withSizeT i (unchecked (M.images.map fun g => g.image.length))

/-- `GltfModel.image_uri` (`threedee/gltf_model.pyx:159-162`).  URIs are text here; decoding bytes that are no UTF-8 is not modelled. -/
def imageUri (M : Gltf.Model) (i : ℤ) : Outcome String := withSizeT i (unchecked (M.images.map fun g => g.uri))

/-- `GltfModel.extract_primitive_mesh` (`threedee/gltf_model.pyx:207-210`). -/
def extractMesh (M : Gltf.Model) (i : ℤ) : Outcome AnyMesh := withSizeT i fun n => ofExcept (M.extractMesh n)

/-- `Rot3.__call__` (`geometry/rot3.pyx:38-40`): numpy checks the index. -/
def column {K : Type} (R : Fin 3 → Fin 3 → K) (j : ℤ) : Outcome (Fin 3 → K) := withSizeT j fun n =>
  if h : n < 3 then .returns fun i => R i ⟨n, h⟩ else .raises .indexError

end Access
end Sumo
