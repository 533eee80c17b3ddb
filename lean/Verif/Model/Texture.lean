import Verif.Model.Py
import Mathlib.Data.List.Basic
import Mathlib.Data.Int.Order.Basic

/-!
# Textures in memory

Model of `sumo-api/sumo/opencv/wrap.pyx` for colour images (`mat3b_from_array`, `array_from_mat3b`) and of the textures of
`TexturedMesh` objects (`threedee/textured_mesh.pyx`, `threedee/TexturedMesh.cpp`), with the memory that numpy arrays and OpenCV
images refer to.  Bytes are natural numbers.  Memory is a list of buffers that are never reused: a buffer with a reference is
not freed, neither by numpy nor by OpenCV.  Images have fewer than `2^31` bytes.
-/

namespace Sumo
namespace Texture

/-- A numpy array: its buffer, the position of its first element there, shape and strides in bytes, and whether its elements are
`uint8`. -/
structure Arr where
  buf : ℕ
  off : ℤ
  shape : List ℕ
  strides : List ℤ
  isU8 : Bool := true
  deriving DecidableEq

/-- `cv::Mat3b`: a header that refers to the rows of an image. -/
structure Mat where
  buf : ℕ
  off : ℤ
  rows : ℕ
  cols : ℕ
  step : ℤ
  deriving DecidableEq

/-- What is in memory and which objects the program has: arrays, and textured meshes as pairs of base colour and
metallic/roughness images. -/
structure State where
  bufs : List (List ℕ) := []
  arrays : List Arr := []
  meshes : List (Mat × Mat) := []

/-- The byte at a position of a buffer. -/
def State.byte (s : State) (buf : ℕ) (pos : ℤ) : Option ℕ :=
  if 0 ≤ pos then (s.bufs[buf]?).bind fun b => b[pos.toNat]? else none

/-- `n` bytes from a position on; `none`: some lie outside the buffer. -/
def State.bytes (s : State) (buf : ℕ) (pos : ℤ) (n : ℕ) : Option (List ℕ) :=
  (List.range n).mapM fun i : ℕ => s.byte buf (pos + i)

/-- The strides of a contiguous array (C order) of bytes. -/
def cStrides : List ℕ → List ℤ
  | [] => []
  | _ :: shape => (shape.prod : ℤ) :: cStrides shape

/-- numpy's flag `C_CONTIGUOUS` (`NPY_RELAXED_STRIDES_CHECKING`) for bytes: strides of dimensions of size 1 do not count, and an
array without elements is contiguous. -/
def isContiguous (shape : List ℕ) (strides : List ℤ) : Bool :=
  decide (0 ∈ shape) || ((shape.zip strides).zip (cStrides shape)).all fun x => decide (x.1.1 = 1) || decide (x.1.2 = x.2)

/-- A buffer argument `np.ndarray[np.uint8_t, ndim=3, mode='c']` (`threedee/textured_mesh.pyx:28-29`): other arrays are a
`ValueError`. -/
def checkArg (a : Arr) : Except PyErr Unit :=
  if a.isU8 = false then .error .valueError
  else if a.shape.length ≠ 3 then .error .valueError
  else if isContiguous a.shape a.strides = false then .error .valueError
  else .ok ()

/-- `mat3b_from_array` (`opencv/wrap.pyx:64-70`): three channels per pixel, whatever the third dimension of the array is.  A matrix
of one row takes its own step. -/
def mat3bFromArray (a : Arr) : Mat :=
  match a.shape, a.strides with
  | rows :: cols :: _, step :: _ => ⟨a.buf, a.off, rows, cols, if rows = 1 then 3 * cols else step⟩
  | _, _ => ⟨a.buf, a.off, 0, 0, 0⟩

/-- The rows of a matrix; `none`: they reach outside the buffer. -/
def State.matRows (s : State) (m : Mat) : Option (List (List ℕ)) :=
  (List.range m.rows).mapM fun i : ℕ => s.bytes m.buf (m.off + m.step * (i : ℤ)) (3 * m.cols)

/-- `cv::Mat::clone` (called at `threedee/TexturedMesh.cpp:26-27`): the rows are copied to a new buffer; the clone of an empty
matrix is the 0×0 matrix. -/
def State.clone (s : State) (m : Mat) : Except PyErr (State × Mat) :=
  if m.rows = 0 ∨ m.cols = 0 then .ok (s, ⟨s.bufs.length, 0, 0, 0, 0⟩)
  else match s.matRows m with
    | none => .error .undefined
    | some rows => .ok ({ s with bufs := s.bufs ++ [rows.flatten] }, ⟨s.bufs.length, 0, m.rows, m.cols, 3 * m.cols⟩)

/-- `array_from_mat3b` (`opencv/wrap.pyx:122-128`): a new array with a copy of `rows * cols * 3` bytes from the start of the
matrix. -/
def State.arrayFromMat3b (s : State) (m : Mat) : Except PyErr State :=
  match s.bytes m.buf m.off (m.rows * m.cols * 3) with
  | none => .error .undefined
  | some data => .ok { s with
      bufs := s.bufs ++ [data]
      arrays := s.arrays ++ [⟨s.bufs.length, 0, [m.rows, m.cols, 3], cStrides [m.rows, m.cols, 3], true⟩] }

/-- The textures of `TexturedMesh.__init__` (`threedee/textured_mesh.pyx:24-47`, `threedee/TexturedMesh.cpp:17-27`). -/
def State.newMesh (s : State) (bc mr : Arr) : Except PyErr State := do
  checkArg bc
  checkArg mr
  let (s, m1) ← s.clone (mat3bFromArray bc)
  let (s, m2) ← s.clone (mat3bFromArray mr)
  .ok { s with meshes := s.meshes ++ [(m1, m2)] }

/-- An array or mesh the program does not have: not a step of a Python program. -/
def got {α : Type} : Option α → Except PyErr α
  | some a => .ok a
  | none => .error .keyError

/-- The lowest and highest positions of the elements of a non-empty array. -/
def extent (off : ℤ) (shape : List ℕ) (strides : List ℤ) : ℤ × ℤ :=
  (shape.zip strides).foldl (fun r x => (r.1 + min 0 (x.2 * ((x.1 : ℤ) - 1)), r.2 + max 0 (x.2 * ((x.1 : ℤ) - 1)))) (off, off)

/-- One step of a program that uses arrays and textured meshes. -/
inductive Op
  /-- `np.array(...)`: a new contiguous array of bytes -/
  | newArray (shape : List ℕ) (data : List ℕ)
  /-- an array of other elements, of which nothing is known -/
  | newOther (shape : List ℕ)
  /-- slicing, transposing or reshaping: another array on the buffer of `arr` -/
  | view (arr : ℕ) (off : ℤ) (shape : List ℕ) (strides : List ℤ)
  /-- `a[...] = value` for one byte of the buffer of `arr` -/
  | write (arr : ℕ) (pos : ℕ) (value : ℕ)
  /-- `TexturedMesh(..., base_color_texture=a, metallic_roughness_texture=b)` -/
  | newMesh (a b : ℕ)
  /-- `mesh.base_color()` -/
  | baseColor (mesh : ℕ)
  /-- `mesh.metallic_roughness()` -/
  | metallicRoughness (mesh : ℕ)
  /-- `mesh.rotate(R)` or `mesh.transform(T)` -/
  | rotate (mesh : ℕ)
  /-- a C++ copy, made when a mesh enters or leaves a `GltfModel` -/
  | copy (mesh : ℕ)

/-- The effect of a step.  `view` makes only arrays inside their buffer, as numpy does. -/
def State.step (s : State) : Op → Except PyErr State
  | .newArray shape data =>
    if data.length = shape.prod then
      .ok { s with bufs := s.bufs ++ [data], arrays := s.arrays ++ [⟨s.bufs.length, 0, shape, cStrides shape, true⟩] }
    else .error .valueError
  | .newOther shape =>
    .ok { s with bufs := s.bufs ++ [[]], arrays := s.arrays ++ [⟨s.bufs.length, 0, shape, cStrides shape, false⟩] }
  | .view i off shape strides => do
    let a ← got s.arrays[i]?
    let b ← got s.bufs[a.buf]?
    let e := extent off shape strides
    if a.isU8 = true ∧ shape.length = strides.length ∧ (0 ∈ shape ∨ (0 ≤ e.1 ∧ e.2 < b.length)) then
      .ok { s with arrays := s.arrays ++ [⟨a.buf, off, shape, strides, true⟩] }
    else .error .indexError
  | .write i pos value => do
    let a ← got s.arrays[i]?
    .ok { s with bufs := s.bufs.modify a.buf fun b => b.set pos value }
  | .newMesh i j => do
    let a ← got s.arrays[i]?
    let b ← got s.arrays[j]?
    s.newMesh a b
  | .baseColor i => do
    let m ← got s.meshes[i]?
    s.arrayFromMat3b m.1
  | .metallicRoughness i => do
    let m ← got s.meshes[i]?
    s.arrayFromMat3b m.2
  | .rotate i => do
    let m ← got s.meshes[i]?
    let s ← s.arrayFromMat3b m.1
    let a ← got s.arrays.getLast?
    let s ← s.arrayFromMat3b m.2
    let b ← got s.arrays.getLast?
    s.newMesh a b
  | .copy i => do
    let m ← got s.meshes[i]?
    .ok { s with meshes := s.meshes ++ [m] }

/-- A program catches the exceptions of its steps and goes on with the objects it has; after undefined behaviour nothing is
known. -/
def State.run : State → List Op → Option State
  | s, [] => some s
  | s, op :: ops =>
    match s.step op with
    | .ok s' => s'.run ops
    | .error .undefined => none
    | .error _ => s.run ops

/-- The texture `from_mesh` makes of a colour (`threedee/textured_mesh.pyx:68`): `np.resize` repeats the entries of the colour
until there are twelve (zeros if there is none), and they are the entries of a 2×2×3 image. -/
def uniformTexture (color : List ℕ) : List ℕ :=
  if color = [] then List.replicate 12 0
  else (List.range 12).map fun i => color.getD (i % color.length) 0

end Texture
end Sumo
