import Verif.Model.Float
import Verif.Model.Py
import Mathlib.Algebra.Order.Floor.Ring

/-!
# Inverse depth codes

Model of `sumo-api/sumo/geometry/inverse_depth.pyx`.  Arithmetic is done in double precision where the code has Python
objects (`PIXEL_MAX`, the untyped `near`) and in single precision where all operands are C `Float32`; every operation is
followed by the corresponding rounding of a parameter `ρ`.
-/

namespace Sumo

variable {K : Type} [Field K] [LinearOrder K] [FloorRing K]

/-- Conversion of a non-negative or negative number to a C unsigned integer below `bound`
(`<Uint8>(...)`, `<Uint16>(...)` at `geometry/inverse_depth.pyx:67,79`): truncation toward zero.  `none`: the value does
not fit (an `OverflowError` for the 16 bit version, whose operand is a Python object; undefined behaviour for the 8 bit
version). -/
def toUint (bound : ℕ) (x : K) : Option ℕ :=
  let n : ℤ := if 0 ≤ x then ⌊x⌋ else ⌈x⌉
  if 0 ≤ n ∧ n < bound then some n.toNat else none

/-- `depth_of_uint8_inverse_depth` (`geometry/inverse_depth.pyx:36-43`).  `near` is an untyped Python number here, so the
arithmetic is in double precision and only the returned value is single. -/
def depthOfUint8InverseDepth (ρ : Rounding K) (c : ℕ) (near : K) : FVal K :=
  if c = 0 then .posInf
  else .fin (ρ.f32 (ρ.f64 (ρ.f64 (near * 255) / c)))

/-- `depth_of_inverse_depth` (`geometry/inverse_depth.pyx:45-53`).  `PIXEL_MAX` is a Python object, so the arithmetic is
in double precision. -/
def depthOfInverseDepth (ρ : Rounding K) (c : ℕ) (near : K) : FVal K :=
  if c = 0 then .posInf
  else .fin (ρ.f32 (ρ.f64 (ρ.f64 (near * 65535) / c)))

/-- `uint8_inverse_depth_of_depth` (`geometry/inverse_depth.pyx:57-67`).  All operands are C `Float32`, except for the
final addition of the double `0.5`.  Infinite and NaN depths follow the IEEE comparisons with a finite `near`. -/
def uint8InverseDepthOfDepth (ρ : Rounding K) (depth : FVal K) (near : K) : Option ℕ :=
  match depth with
  | .fin d =>
    if d = 0 then some 0
    else if d ≤ near then some 255
    else toUint 256 (ρ.f64 (1 / 2 + ρ.f32 (ρ.f32 (near * 255) / d)))
  | .posInf => toUint 256 (1 / 2 : K)
  | .negInf => some 255
  | .nan => none

/-- The body of `inverse_depth_of_depth` (`geometry/inverse_depth.pyx:73-79`); double precision.  `none`: the conversion of NaN
or of a value out of range to `Uint16` raises. -/
def inverseDepthBody (ρ : Rounding K) (depth : FVal K) (near : K) : Option ℕ :=
  match depth with
  | .fin d =>
    if d = 0 then some 0
    else if d ≤ near then some 65535
    else toUint 65536 (ρ.f64 (1 / 2 + ρ.f64 (ρ.f64 (near * 65535) / d)))
  | .posInf => toUint 65536 (1 / 2 : K)
  | .negInf => some 65535
  | .nan => none

/-- `inverse_depth_of_depth` (`geometry/inverse_depth.pyx:69-79`), a `cpdef Uint16` without `except`: an exception of the
conversion is discarded and the code is 0. -/
def inverseDepthOfDepth (ρ : Rounding K) (depth : FVal K) (near : K) : ℕ := unraisable 0 (inverseDepthBody ρ depth near)

/-- `inverse_depth_from_uint8` (`geometry/inverse_depth.pyx:157-162`).  The inner call uses the given `near`, the outer
one the default near plane, converted to `Float32` (`defaultNear`, the value of `DEFAULT_NEAR` at line 17). -/
def inverseDepthFromUint8 (ρ : Rounding K) (defaultNear : K) (c : ℕ) (near : K) : ℕ :=
  inverseDepthOfDepth ρ (depthOfUint8InverseDepth ρ c near) (ρ.f32 defaultNear)

/-- `DEFAULT_NEAR` (`geometry/inverse_depth.pyx:17`), as the number written in the source. -/
def defaultNear : K := 3 / 10

/-- The loops over an image of `inverse_depth_map_of_depth_image`, `depth_image_of_inverse_depth_map` and their 8 bit
versions (`geometry/inverse_depth.pyx:83-153`, 164-181): one call per pixel, the result has the shape of the input.  An
image is the list of its rows. -/
def mapImage {α β : Type} (f : α → β) (im : List (List α)) : List (List β) :=
  im.map fun row => row.map f

/-- `inverse_depth_map_of_depth_image` (`geometry/inverse_depth.pyx:101-117`). -/
def inverseDepthMapOfDepthImage (ρ : Rounding K) (im : List (List (FVal K))) (near : K) : List (List ℕ) :=
  mapImage (fun d => inverseDepthOfDepth ρ d near) im

/-- `depth_image_of_inverse_depth_map` (`geometry/inverse_depth.pyx:119-135`). -/
def depthImageOfInverseDepthMap (ρ : Rounding K) (im : List (List ℕ)) (near : K) : List (List (FVal K)) :=
  mapImage (fun c => depthOfInverseDepth ρ c near) im

/-- `uint8_inverse_depth_map_of_depth_image` (`geometry/inverse_depth.pyx:83-99`). -/
def uint8InverseDepthMapOfDepthImage (ρ : Rounding K) (im : List (List (FVal K))) (near : K) :
    List (List (Option ℕ)) :=
  mapImage (fun d => uint8InverseDepthOfDepth ρ d near) im

/-- `depth_image_of_uint8_inverse_depth_map` (`geometry/inverse_depth.pyx:137-153`). -/
def depthImageOfUint8InverseDepthMap (ρ : Rounding K) (im : List (List ℕ)) (near : K) : List (List (FVal K)) :=
  mapImage (fun c => depthOfUint8InverseDepth ρ c near) im

/-- `uint16_of_uint8_inverse_depth_map` (`geometry/inverse_depth.pyx:164-181`). -/
def uint16OfUint8InverseDepthMap (ρ : Rounding K) (im : List (List ℕ)) (near : K) : List (List ℕ) :=
  mapImage (fun c => inverseDepthFromUint8 ρ defaultNear c near) im

end Sumo
