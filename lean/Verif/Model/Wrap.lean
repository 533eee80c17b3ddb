import Verif.Model.Py
import Mathlib.Data.List.Basic
import Mathlib.Data.Int.Order.Basic

/-!
# Images between numpy and OpenCV

Model of the conversions of `sumo-api/sumo/opencv/wrap.pyx` for grey images (`mat1b`, `mat1w`, `mat1f`) and of the generic ones
(`mat_from_array`, `array_from_mat`).  Memory maps addresses to bytes; address 0 is the null pointer.  Sizes are below `2^31`.  How
an exception of these functions reaches their (Cython) caller is not modelled.
-/

namespace Sumo
namespace Wrap

/-- The types of elements that are told apart (`opencv/wrap.pyx:15-128`). -/
inductive DType
  | uint8
  | uint16
  | float32
  | other (size : ℕ)
  deriving DecidableEq

/-- `dtype.itemsize` -/
def DType.size : DType → ℕ
  | .uint8 => 1
  | .uint16 => 2
  | .float32 => 4
  | .other n => n

/-- The bytes at all addresses. -/
abbrev Memory := ℤ → UInt8

/-- A numpy array: `dtype`, `shape`, `strides` in bytes and the address of the first element. -/
structure Arr where
  dtype : DType
  shape : List ℕ
  strides : List ℤ
  data : ℤ
  deriving DecidableEq

/-- `cv::Mat`: size, type of the channels, number of channels, address and distance of the rows (`opencv/wrap.pxd:26-33`).  A stride
that is negative becomes a large `size_t`; addresses are computed modulo `2^64`, so that this is the negative distance again. -/
structure Mat where
  rows : ℕ
  cols : ℕ
  dtype : DType
  channels : ℕ
  data : ℤ
  step : ℤ
  deriving DecidableEq

/-- The constructor `Mat(rows, cols, type, data, step)` of OpenCV: one row takes its own step; a step that is no multiple of the size
of a channel is an error (`StsBadArg`). -/
def newMat (rows cols : ℕ) (dtype : DType) (channels : ℕ) (data step : ℤ) : Except PyErr Mat :=
  if rows = 1 then .ok ⟨rows, cols, dtype, channels, data, cols * channels * dtype.size⟩
  else if step % dtype.size ≠ 0 then .error .runtimeError
  else .ok ⟨rows, cols, dtype, channels, data, step⟩

/-- The strides of an array in C order. -/
def cStrides (size : ℕ) : List ℕ → List ℤ
  | [] => []
  | _ :: shape => (shape.prod * size : ℤ) :: cStrides size shape

/-- numpy's flag `C_CONTIGUOUS`: strides of dimensions of size 1 do not count; an array without elements is contiguous. -/
def contiguous (a : Arr) : Bool :=
  decide (0 ∈ a.shape) ||
    ((a.shape.zip a.strides).zip (cStrides a.dtype.size a.shape)).all fun x => decide (x.1.1 = 1) || decide (x.1.2 = x.2)

/-- `mat1b_from_array`, `mat1w_from_array` and `mat1f_from_array` (`opencv/wrap.pyx:43-62`) with `t` the type of the elements: the
argument `np.ndarray[t, ndim=2, mode='c']` refuses other arrays with a `ValueError`. -/
def mat1FromArray (t : DType) (a : Arr) : Except PyErr Mat :=
  if a.dtype ≠ t then .error .valueError
  else match a.shape, a.strides with
    | [r, c], s0 :: _ =>
      if contiguous a = false then .error .valueError
      else if a.data = 0 then .error .assertionError
      else newMat r c t 1 a.data s0
    | _, _ => .error .valueError

/-- `mat_from_array` (`opencv/wrap.pyx:15-41`): arrays of two dimensions are grey images of `uint8` or `float32`, arrays of three
dimensions colour images of `uint8` with three channels, whatever the third dimension and the other strides are. -/
def matFromArray (a : Arr) : Except PyErr Mat :=
  if a.data = 0 then .error .assertionError
  else match a.shape, a.strides with
    | [r, c], s0 :: _ =>
      if a.dtype = .uint8 then newMat r c .uint8 1 a.data s0
      else if a.dtype = .float32 then newMat r c .float32 1 a.data s0
      else .error .assertionError
    | [r, c, _], s0 :: _ => if a.dtype = .uint8 then newMat r c .uint8 3 a.data s0 else .error .assertionError
    | _, _ => .error .assertionError

/-- A new array in C order: its type, shape and bytes. -/
structure NewArr where
  dtype : DType
  shape : List ℕ
  bytes : List UInt8
  deriving DecidableEq

/-- `memcpy` (`opencv/wrap.pyx:95-96`): bytes from an address on. -/
def copy (mem : Memory) (data : ℤ) (n : ℕ) : List UInt8 := (List.range n).map fun i : ℕ => mem (data + i)

/-- `array_from_mat1b`, `array_from_mat1w` and `array_from_mat1f` (`opencv/wrap.pyx:98-120`); `junk` is the content of the new array. -/
def arrayFromMat1 (mem : Memory) (junk : List UInt8) (m : Mat) : NewArr :=
  ⟨m.dtype, [m.rows, m.cols], if m.data ≠ 0 then copy mem m.data (m.rows * m.cols * m.dtype.size) else junk⟩

/-- `array_from_mat` (`opencv/wrap.pyx:72-97`). -/
def arrayFromMat (mem : Memory) (junk : List UInt8) (m : Mat) : Except PyErr NewArr :=
  if m.channels = 1 then
    if m.dtype = .uint8 ∨ m.dtype = .float32 then
      .ok ⟨m.dtype, [m.rows, m.cols], if m.data ≠ 0 then copy mem m.data (m.rows * m.cols * 1 * m.dtype.size) else junk⟩
    else .error .assertionError
  else if m.channels = 3 ∧ m.dtype = .uint8 then
    .ok ⟨.uint8, [m.rows, m.cols, 3], if m.data ≠ 0 then copy mem m.data (m.rows * m.cols * 3 * 1) else junk⟩
  else .error .assertionError

end Wrap
end Sumo
