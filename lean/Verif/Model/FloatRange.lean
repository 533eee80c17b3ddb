import Verif.Model.Double
import Verif.Model.RangeImage

/-!
# Point clouds from range images in double precision

`sumo-api/sumo/images/CubeMap.h` and `sumo-api/sumo/images/Rgbdci360.cpp` with every operation rounded.  The norm of a vector is
library code (Eigen) and a parameter.
-/

namespace Sumo
namespace Fl

/-- `sensorOfPixel` (`images/CubeMap.h:107-109`); `pp_ = ff_ = (side/2., side/2.)` (31-32). -/
def sensorOfPixel (side : ℕ) (pixel : Vec2 ℚ) : Vec2 ℚ :=
  let half := double (double side / 2)
  ⟨double (double (pixel.x - half) / half), double (double (pixel.y - half) / half)⟩

/-- `unproject` (`images/CubeMap.h:81-105`); sides and offsets are integers that are converted to doubles (35-37, 82, 86). -/
def unproject (side : ℕ) (pixel : Vec2 ℚ) : Except PyErr (Vec3 ℚ) :=
  if pixel.x = double (6 * side : ℕ) then
    let sensor := sensorOfPixel side ⟨0, pixel.y⟩
    .ok ⟨-sensor.x, sensor.y, -1⟩
  else
    let face := CubeMap.toSizeT (double (pixel.x / double side))
    if face ≥ 6 then .error .indexError
    else
      let sensor := sensorOfPixel side ⟨double (pixel.x - double (side * face : ℕ)), double (pixel.y - 0)⟩
      match face with
      | 0 => .ok ⟨-sensor.x, sensor.y, -1⟩
      | 1 => .ok ⟨-1, sensor.y, sensor.x⟩
      | 2 => .ok ⟨sensor.x, sensor.y, 1⟩
      | 3 => .ok ⟨1, sensor.y, -sensor.x⟩
      | 4 => .ok ⟨sensor.x, -1, sensor.y⟩
      | 5 => .ok ⟨sensor.x, 1, -sensor.y⟩
      | _ => .error .runtimeError

/-- `pointFromRange` (`images/Rgbdci360.cpp:19-26`). -/
def pointFromRange (norm : Vec3 ℚ → ℚ) (side : ℕ) (pixel : Vec2 ℚ) (range : ℚ) : Except PyErr (Vec3 ℚ) := do
  let ray ← unproject side pixel
  let k := double (range / norm ray)
  pure ⟨double (ray.x * k), double (ray.y * k), double (ray.z * k)⟩

/-- The test `range_value > 0.0 and range_value != INFINITY` (`images/Rgbdci360.cpp:46`): the range if valid. -/
def validRange : FVal ℚ → Option ℚ
  | .fin r => if 0 < r then some r else none
  | .posInf => none
  | .negInf => none
  | .nan => none

/-- The inner loop over the columns of one row (`images/Rgbdci360.cpp:43-56`), from the given pixel position on. -/
def cloudRow (norm : Vec3 ℚ → ℚ) (side : ℕ) (allPoints : Bool) (py : ℚ) : ℚ → List (Color × FVal ℚ) →
    Except PyErr (List (Vec3 ℚ × Color))
  | _, [] => .ok []
  | px, (color, range) :: rest => do
    let here ← match validRange range with
      | some r => do
        let p ← pointFromRange norm side ⟨px, py⟩ r
        pure [(p, color)]
      | none => pure (if allPoints then [(⟨0, 0, 0⟩, ⟨0, 0, 0⟩)] else [])
    let more ← cloudRow norm side allPoints py (double (px + 1)) rest
    pure (here ++ more)

/-- `pixelCoordinates` (`images/CubeMap.h:114-118`). -/
def pixelCoordinates (row col : ℕ) : Vec2 ℚ := ⟨double (double col + 1 / 2), double (double row + 1 / 2)⟩

/-- The outer loop over the rows (`images/Rgbdci360.cpp:41-57`), from row `row` on. -/
def cloudRows (norm : Vec3 ℚ → ℚ) (side : ℕ) (allPoints : Bool) : ℕ → List (List (Color × FVal ℚ)) →
    Except PyErr (List (Vec3 ℚ × Color))
  | _, [] => .ok []
  | row, r :: rest => do
    let pixel := pixelCoordinates row 0
    let here ← cloudRow norm side allPoints pixel.y pixel.x r
    let more ← cloudRows norm side allPoints (row + 1) rest
    pure (here ++ more)

/-- `Rgbdci360.create_point_cloud` (`images/rgbdci_360.pyx:124-129`) with `createPointCloud` (`images/Rgbdci360.cpp:28-59`), for
contiguous arrays.  Ranges are single precision numbers, which are doubles. -/
def createPointCloud (norm : Vec3 ℚ → ℚ) (rgb : List (List Color)) (range : List (List (FVal ℚ))) (allPoints : Bool) :
    Except PyErr (PointCloud ℚ) :=
  if rgb.map List.length ≠ range.map List.length then .error .valueError
  else unguarded do
    let out ← cloudRows norm rgb.length allPoints 0 (List.zipWith List.zip rgb range)
    pure ⟨out.map Prod.fst, out.map Prod.snd⟩

end Fl
end Sumo
