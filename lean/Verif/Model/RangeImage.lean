import Verif.Model.CubeMap
import Verif.Model.Float
import Verif.Model.PointCloud
import Verif.Model.PoseError

/-!
# Point clouds from range images

Model of `sumo-api/sumo/images/Rgbdci360.cpp` and `create_point_cloud` in `sumo-api/sumo/images/rgbdci_360.pyx`, over the
real numbers.  Images are lists of rows.
-/

namespace Sumo

/-- `pointFromRange` (`images/Rgbdci360.cpp:19-26`); the cube map is given by its side. -/
noncomputable def pointFromRange (side : ℕ) (pixel : Vec2 ℝ) (range : ℝ) : Except PyErr (Vec3 ℝ) := do
  let ray ← CubeMap.unproject side pixel
  pure (Vec3.smul (range / ray.norm) ray)

/-- The test `range_value > 0.0 and range_value != INFINITY` (`images/Rgbdci360.cpp:46`): the range if valid. -/
noncomputable def validRange : FVal ℝ → Option ℝ
  | .fin r => if 0 < r then some r else none
  | .posInf => none
  | .negInf => none
  | .nan => none

/-- The inner loop over the columns of one row (`images/Rgbdci360.cpp:43-56`), from the given pixel position on. -/
noncomputable def cloudRow (side : ℕ) (allPoints : Bool) (py : ℝ) : ℝ → List (Color × FVal ℝ) →
    Except PyErr (List (Vec3 ℝ × Color))
  | _, [] => .ok []
  | px, (color, range) :: rest => do
    let here ← match validRange range with
      | some r => do
        let p ← pointFromRange side ⟨px, py⟩ r
        pure [(p, color)]
      | none => pure (if allPoints then [(⟨0, 0, 0⟩, ⟨0, 0, 0⟩)] else [])
    let more ← cloudRow side allPoints py (px + 1) rest
    pure (here ++ more)

/-- The outer loop over the rows (`images/Rgbdci360.cpp:41-57`), from row `row` on. -/
noncomputable def cloudRows (side : ℕ) (allPoints : Bool) : ℕ → List (List (Color × FVal ℝ)) →
    Except PyErr (List (Vec3 ℝ × Color))
  | _, [] => .ok []
  | row, r :: rest => do
    let pixel : Vec2 ℝ := CubeMap.pixelCoordinates row 0
    let here ← cloudRow side allPoints pixel.y pixel.x r
    let more ← cloudRows side allPoints (row + 1) rest
    pure (here ++ more)

/-- `Rgbdci360.create_point_cloud` (`images/rgbdci_360.pyx:124-129`) with `createPointCloud`
(`images/Rgbdci360.cpp:28-59`): the side of the cube map is the height of the colour image.  The C++ function is declared
without `except +` (`images/rgbdci_360.pxd:17-19`). -/
noncomputable def createPointCloud (rgb : List (List Color)) (range : List (List (FVal ℝ))) (allPoints : Bool) :
    Except PyErr (PointCloud ℝ) :=
  if rgb.map List.length ≠ range.map List.length then .error .valueError
  else unguarded do
    let out ← cloudRows rgb.length allPoints 0 (List.zipWith List.zip rgb range)
    pure ⟨out.map Prod.fst, out.map Prod.snd⟩

/-- A numpy image: its pixels, and whether they are contiguous in memory (numpy's flag `C_CONTIGUOUS`; a slice of a larger
image is not). -/
structure NpPixels (α : Type) where
  rows : List (List α)
  contiguous : Bool

/-- `create_point_cloud` of arrays (`images/rgbdci_360.pyx:124-156`).  `mat3b_from_array` and `mat1f_from_array` take contiguous
arrays only; their `ValueError` is not looked for (`opencv/wrap.pxd:76,77`: `except +`) and a null pointer is read. -/
noncomputable def createPointCloudOf (rgb : NpPixels Color) (range : NpPixels (FVal ℝ)) (allPoints : Bool) :
    Except PyErr (PointCloud ℝ) :=
  if rgb.rows.map List.length ≠ range.rows.map List.length then .error .valueError
  else if rgb.contiguous = false then .error .undefined
  else if range.contiguous = false then .error .undefined
  else createPointCloud rgb.rows range.rows allPoints

end Sumo
