import Verif.Spec.CubeMap
import Verif.Model.RangeImage

/-!
# What a range image describes
-/

namespace Sumo

/-- A pixel of an image: row, column, colour and range. -/
structure RangePixel where
  row : ℕ
  col : ℕ
  color : Color
  range : FVal ℝ

/-- The pixels in raster order. -/
def rasterPixels (rgb : List (List Color)) (range : List (List (FVal ℝ))) : List RangePixel :=
  (List.zip rgb range).zipIdx.flatMap fun rows =>
    (List.zip rows.1.1 rows.1.2).zipIdx.map fun p => ⟨rows.2, p.2, p.1.1, p.1.2⟩

/-- `p` is the point at distance `r` from the camera along the ray through the centre of the pixel in row `row` and column
`col` of a cube map with the given side. -/
def SeenAt (side row col : ℕ) (r : ℝ) (p : Vec3 ℝ) : Prop :=
  ∃ F, (cubeFaces : List (CubeFace ℝ))[col / side]? = some F ∧
    p.norm = r ∧ ∃ k : ℝ, 0 < k ∧
      p = Vec3.smul k (F.at ((2 * ((col % side : ℕ) : ℝ) + 1) / side - 1) ((2 * (row : ℝ) + 1) / side - 1))

/-- The range is a positive number (not zero, negative, infinite or NaN). -/
def ValidRange (v : FVal ℝ) (r : ℝ) : Prop := v = .fin r ∧ 0 < r

/-- What is emitted for a pixel. -/
def PixelOutput (side : ℕ) (px : RangePixel) (out : Vec3 ℝ × Color) : Prop :=
  ∃ r, ValidRange px.range r ∧ SeenAt side px.row px.col r out.1 ∧ out.2 = px.color

open Classical in
/-- The pixels of valid range. -/
noncomputable def validPixels (l : List RangePixel) : List RangePixel := l.filter fun p => decide (∃ r, ValidRange p.range r)

/-- What is emitted for a pixel when all points are wanted: the seen point, or a black point at the camera. -/
def PixelOutputAll (side : ℕ) (px : RangePixel) (out : Vec3 ℝ × Color) : Prop :=
  PixelOutput side px out ∨ ((¬ ∃ r, ValidRange px.range r) ∧ out = (0, ⟨0, 0, 0⟩))

end Sumo
