import Verif.Model.Py
import Verif.Model.Vec
import Mathlib.Algebra.Order.Floor.Ring

/-!
# Cube maps

Model of `sumo-api/sumo/images/CubeMap.h`.  Coordinates are exact elements of an ordered field.
-/

namespace Sumo

/-- `Eigen::Vector2d` (`images/CubeMap.h:18`). -/
@[ext] structure Vec2 (K : Type) where
  x : K
  y : K
  deriving DecidableEq

namespace CubeMap

variable {K : Type} [Field K] [LinearOrder K] [FloorRing K]

/-- `sensorOfPixel` (`images/CubeMap.h:107-109`); `pp_ = ff_ = (side/2, side/2)` (31-32). -/
def sensorOfPixel (side : ℕ) (pixel : Vec2 K) : Vec2 K :=
  ⟨(pixel.x - (side : K) / 2) / ((side : K) / 2), (pixel.y - (side : K) / 2) / ((side : K) / 2)⟩

/-- The conversion `(size_t)(q)` of a double (`images/CubeMap.h:86`): truncation toward zero.  For `q ≤ -1` the conversion
is undefined in C++; it is modelled by an index no array has (as on x86-64). -/
def toSizeT (q : K) : ℕ :=
  if q ≤ -1 then 2 ^ 63 else if q < 0 then 0 else ⌊q⌋.toNat

/-- `unproject` (`images/CubeMap.h:81-105`) of a cube map of the given side (a positive number: side 0 divides by zero).
`offset_[i] = (side * i, 0)` for the six faces (35-37); `offset_.at(face)` throws `std::out_of_range` for other faces, so
that the `default` branch (101-102) is never reached. -/
def unproject (side : ℕ) (pixel : Vec2 K) : Except PyErr (Vec3 K) :=
  if pixel.x = 6 * (side : K) then
    let sensor := sensorOfPixel side ⟨0, pixel.y⟩
    .ok ⟨-sensor.x, sensor.y, -1⟩
  else
    let face := toSizeT (pixel.x / (side : K))
    if face ≥ 6 then .error .indexError
    else
      let sensor := sensorOfPixel side ⟨pixel.x - ((side * face : ℕ) : K), pixel.y - 0⟩
      match face with
      | 0 => .ok ⟨-sensor.x, sensor.y, -1⟩
      | 1 => .ok ⟨-1, sensor.y, sensor.x⟩
      | 2 => .ok ⟨sensor.x, sensor.y, 1⟩
      | 3 => .ok ⟨1, sensor.y, -sensor.x⟩
      | 4 => .ok ⟨sensor.x, -1, sensor.y⟩
      | 5 => .ok ⟨sensor.x, 1, -sensor.y⟩
      | _ => .error .runtimeError

/-- `pixelCoordinates` (`images/CubeMap.h:114-118`). -/
def pixelCoordinates (row col : ℕ) : Vec2 K := ⟨(col : K) + 1 / 2, (row : K) + 1 / 2⟩

/-- `size` (`images/CubeMap.h:41-43`): width and height. -/
def size (side : ℕ) : ℕ × ℕ := (side * 6, side)

end CubeMap

end Sumo
