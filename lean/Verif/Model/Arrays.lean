import Verif.Model.Mesh
import Verif.Model.PointCloud
import Verif.Model.Rotation
import Mathlib.Data.Rat.Floor

/-!
# Objects made of numpy arrays

Model of the conversions of `sumo-api/sumo/base/vector.pyx` between numpy arrays and C++ vectors, and of the constructors of
`Mesh` (`threedee/mesh.pyx`), `TexturedMesh` (`threedee/textured_mesh.pyx`), `PointCloud` (`threedee/point_cloud.pyx`) and
`Quaternion` (`geometry/quaternion.pyx`) that take arrays.  The conversion functions are `cdef` functions that return C++
objects and have no `except` clause: an exception inside is lost (`unraisable`).
-/

namespace Sumo

/-- The element types of numpy arrays that the code distinguishes. -/
inductive DType
  | f32 | f64 | u32 | other
  deriving DecidableEq

/-- A numpy array: element type, shape, and its elements by index. -/
structure NdArray (α : Type) where
  dtype : DType
  shape : List ℕ
  elem : List ℕ → α

namespace NdArray
variable {α : Type}

/-- `a[:, j]` of a two-dimensional array, row by row. -/
def entry (a : NdArray α) (i j : ℕ) : α := a.elem [i, j]

end NdArray

/-- A buffer argument `np.ndarray[T, ndim=n]` of a `def` function: other element types and numbers of dimensions are a
`ValueError` (`threedee/mesh.pyx:33-35`, `threedee/textured_mesh.pyx:24-29`). -/
def bufferArg {α : Type} (t : DType) (ndim : ℕ) (a : NdArray α) : Except PyErr Unit :=
  if a.dtype ≠ t then .error .valueError else if a.shape.length ≠ ndim then .error .valueError else .ok ()

/-- `uint32s_of_array` (`threedee/mesh.pyx:17-21`). -/
def uint32sOfArray (a : NdArray ℕ) : List ℕ := (List.range (a.shape.getD 0 0)).map fun i => a.elem [i]

/-- `array_of_uint32s` (`threedee/mesh.pyx:23-28`). -/
def arrayOfUint32s (l : List ℕ) : NdArray ℕ := ⟨.u32, [l.length], fun i => l.getD (i.getD 0 0) 0⟩

/-- `vector3fs_of_array` (`base/vector.pyx:108-115`) with `vector3f` (`base/vector.pyx:102-103`): the assertion on the number of
rows is lost, and the result is the empty vector. -/
def vector3fsOfArray {K : Type} (a : NdArray K) : List (Vec3 K) :=
  unraisable [] (if a.shape.getD 0 0 = 3 then
    some ((List.range (a.shape.getD 1 0)).map fun j => ⟨a.entry 0 j, a.entry 1 j, a.entry 2 j⟩) else none)

/-- `vector2fs_of_array` (`base/vector.pyx:60-67`). -/
def vector2fsOfArray {K : Type} (a : NdArray K) : List (K × K) :=
  unraisable [] (if a.shape.getD 0 0 = 2 then
    some ((List.range (a.shape.getD 1 0)).map fun j => (a.entry 0 j, a.entry 1 j)) else none)

/-- `array_of_vector3fs` and `array_of_vector3s` (`base/vector.pyx:93-98,117-122`): the points are the columns. -/
def arrayOfVector3s {K : Type} [Zero K] (t : DType) (l : List (Vec3 K)) : NdArray K :=
  ⟨t, [3, l.length], fun ij =>
    match ij, l[ij.getD 1 0]? with
    | 0 :: _, some v => v.x
    | 1 :: _, some v => v.y
    | 2 :: _, some v => v.z
    | _, _ => 0⟩

/-- `array_of_vector2fs` (`base/vector.pyx:69-74`). -/
def arrayOfVector2s {K : Type} [Zero K] (l : List (K × K)) : NdArray K :=
  ⟨.f32, [2, l.length], fun ij =>
    match ij, l[ij.getD 1 0]? with
    | 0 :: _, some v => v.1
    | 1 :: _, some v => v.2
    | _, _ => 0⟩

section
variable {K : Type}

/-- `Mesh.__init__` (`threedee/mesh.pyx:33-40`) with `Mesh::Mesh` (`threedee/Mesh.cpp:23-29`). -/
def Mesh.ofArrays (indices : NdArray ℕ) (vertices normals : NdArray K) : Except PyErr (Mesh K) := do
  bufferArg .u32 1 indices
  bufferArg .f32 2 vertices
  bufferArg .f32 2 normals
  if vertices.shape.getD 1 0 ≠ normals.shape.getD 1 0 then .error .assertionError
  else .ok ⟨uint32sOfArray indices, vector3fsOfArray vertices, vector3fsOfArray normals, .empty⟩

/-- `TexturedMesh.__init__` (`threedee/textured_mesh.pyx:24-47`), as to everything but the textures (`I` is the type of images). -/
def TexturedMesh.ofArrays {I : Type} (isEmpty : I → Bool) (indices : NdArray ℕ) (vertices normals uv : NdArray K) (baseColor mr : I) :
    Except PyErr (TexturedMesh K I) := do
  bufferArg .u32 1 indices
  bufferArg .f32 2 vertices
  bufferArg .f32 2 normals
  bufferArg .f32 2 uv
  if vertices.shape.getD 1 0 ≠ normals.shape.getD 1 0 then .error .assertionError
  else if vertices.shape.getD 1 0 < uv.shape.getD 1 0 then .error .assertionError
  else .ok ⟨⟨uint32sOfArray indices, vector3fsOfArray vertices, vector3fsOfArray normals,
    TexturedMesh.defaultMaterial (!isEmpty mr)⟩, vector2fsOfArray uv, baseColor, mr⟩

/-- `Mesh.indices`, `Mesh.vertices`, `Mesh.normals` (`threedee/mesh.pyx:49-56`). -/
def Mesh.indicesArray (m : Mesh K) : NdArray ℕ := arrayOfUint32s m.indices
@[inherit_doc Mesh.indicesArray]
def Mesh.verticesArray [Zero K] (m : Mesh K) : NdArray K := arrayOfVector3s .f32 m.vertices
@[inherit_doc Mesh.indicesArray]
def Mesh.normalsArray [Zero K] (m : Mesh K) : NdArray K := arrayOfVector3s .f32 m.normals
/-- `TexturedMesh.uv_coords` (`threedee/textured_mesh.pyx:129-130`). -/
def TexturedMesh.uvArray {I : Type} [Zero K] (m : TexturedMesh K I) : NdArray K := arrayOfVector2s m.uvCoords

/-- `Mesh.from_open3d_mesh` (`threedee/mesh.pyx:99-113`): triangles, vertices and vertex normals are the lists of the Open3D mesh;
`computed` is what Open3D's `compute_vertex_normals` leaves there, `rnd` the rounding to single precision. -/
def Mesh.fromOpen3d (rnd : K → K) (triangles : List (ℕ × ℕ × ℕ)) (vertices normals computed : List (Vec3 K)) [Zero K] :
    Except PyErr (Mesh K) :=
  let ns := if normals.length ≠ vertices.length then computed else normals
  let single (l : List (Vec3 K)) : List (Vec3 K) := l.map fun v => ⟨rnd v.x, rnd v.y, rnd v.z⟩
  Mesh.ofArrays (arrayOfUint32s (triangles.flatMap fun t => [t.1, t.2.1, t.2.2])) (arrayOfVector3s .f32 (single vertices))
    (arrayOfVector3s .f32 (single ns))
end

/-- `Mesh.calculate_face_normals` (`threedee/mesh.pyx:93-97`). -/
noncomputable def Mesh.calculateFaceNormals (indices : NdArray ℕ) (vertices : NdArray ℝ) : Except PyErr (List (Vec3 ℝ)) := do
  bufferArg .u32 1 indices
  bufferArg .f32 2 vertices
  match Mesh.faceNormals (vector3fsOfArray vertices) (uint32sOfArray indices) with
  | none => .error .undefined
  | some l => .ok l

/-- A number in an array of colours. -/
inductive NumVal
  | int (n : ℤ)
  | real (q : ℚ)
  | nan
  | inf
  deriving DecidableEq

/-- Python's `int(x)`: the fraction is cut off; not possible for `nan` and infinities. -/
def NumVal.toInt : NumVal → Option ℤ
  | .int n => some n
  | .real q => some (if 0 ≤ q then ⌊q⌋ else ⌈q⌉)
  | .nan => none
  | .inf => none

/-- The conversion to `unsigned char`: `OverflowError` outside 0 to 255. -/
def NumVal.toByte (x : NumVal) : Option ℕ := do
  let n ← x.toInt
  if 0 ≤ n ∧ n ≤ 255 then some n.toNat else none

/-- `color_of_numpy` (`threedee/point_cloud.pyx:26-31`): if an entry cannot be converted, the exception is lost and the result is
`Color()` (`threedee/PointCloud.h:21`). -/
def colorOfNumpy (r g b : NumVal) : Color :=
  unraisable ⟨0, 0, 0⟩ (do
    let r ← r.toByte
    let g ← g.toByte
    let b ← b.toByte
    some ⟨r, g, b⟩)

/-- `colors_of_array` (`threedee/point_cloud.pyx:42-48`). -/
def colorsOfArray (a : NdArray NumVal) : List Color :=
  (List.range (a.shape.getD 1 0)).map fun j => colorOfNumpy (a.entry 0 j) (a.entry 1 j) (a.entry 2 j)

/-- `PointCloud.__init__` (`threedee/point_cloud.pyx:52-66`) for arrays; points of any number type become `float64`. -/
def PointCloud.ofArrays {K : Type} (points : Option (NdArray K)) (colors : Option (NdArray NumVal)) :
    Except PyErr (PointCloud K) := do
  let ps ← match points with
    | none => .ok []
    | some p =>
      if p.shape.length ≠ 2 then .error .assertionError
      else if p.shape.getD 0 0 ≠ 3 then .error .assertionError
      else .ok ((List.range (p.shape.getD 1 0)).map fun j => ⟨p.entry 0 j, p.entry 1 j, p.entry 2 j⟩)
  match colors with
  | none => .ok ⟨ps, []⟩
  | some c =>
    match points with
    | none => .error .attributeError
    | some p => if p.shape ≠ c.shape then .error .assertionError else .ok ⟨ps, colorsOfArray c⟩

/-- `Quaternion.__cinit__` (`geometry/quaternion.pyx:32-39`) with `matrix3_of_array` (`base/vector.pyx:165-169`) and the 4-vector
read entry by entry (rows of a 4×1 array are numbers too, longer ones are a `TypeError`).  In `matrix3_of_array` an array of
another type than `float64`, or of three dimensions, is a `ValueError`; it is lost, and the matrix is not initialised.  `val.shape` is
not checked: for an array without dimensions a null pointer is read, for a vector of three numbers `val.shape[1]` is the stride
(numpy keeps the strides behind the dimensions), which is not 3 for the arrays of this code. -/
noncomputable def quaternionOfArray (a : NdArray ℝ) : Except PyErr (Quat ℝ) :=
  match a.shape with
  | [] => .error .undefined
  | 3 :: 3 :: rest =>
    if a.dtype = .f64 ∧ rest = [] then
      .ok (eigenQuatOfMatrix ⟨a.entry 0 0, a.entry 0 1, a.entry 0 2, a.entry 1 0, a.entry 1 1, a.entry 1 2,
        a.entry 2 0, a.entry 2 1, a.entry 2 2⟩)
    else .error .undefined
  | 4 :: rest =>
    let row (i : ℕ) : ℝ := a.elem (i :: rest.map fun _ => 0)
    if rest.prod = 1 then .ok ⟨row 0, row 1, row 2, row 3⟩ else .error .typeError
  | _ => .error .assertionError

end Sumo
