import Verif.Model.Wrap

/-!
# The elements of images

What a user means by the elements of an array or an image; used in the statements of C183 and C184.
-/

namespace Sumo.Wrap

/-- The bytes of the element of an array with these indices: numpy's rule for strides. -/
def Arr.element (mem : Memory) (a : Arr) (index : List ℕ) : List UInt8 :=
  (List.range a.dtype.size).map fun b : ℕ => mem (a.data + ((index.zip a.strides).map fun p => (p.1 : ℤ) * p.2).sum + b)

/-- The bytes of a channel of a pixel of an OpenCV image: `ptr(y) + x * elemSize() + channel * elemSize1()`. -/
def Mat.element (mem : Memory) (m : Mat) (y x channel : ℕ) : List UInt8 :=
  (List.range m.dtype.size).map fun b : ℕ =>
    mem (m.data + y * m.step + x * (m.channels * m.dtype.size : ℕ) + channel * m.dtype.size + b)

/-- The bytes of the element of a new array (in C order) with this number. -/
def NewArr.element (a : NewArr) (n : ℕ) : List UInt8 := (a.bytes.drop (n * a.dtype.size)).take a.dtype.size

end Sumo.Wrap
