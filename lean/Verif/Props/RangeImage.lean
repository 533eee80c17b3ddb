import Verif.Lemmas.RangeImage

/-! # Properties of point clouds from range images (C74) -/

namespace Sumo

/-- **C74.** For every colour and range image of the same shape, no wider than six times its height: the point cloud has,
in raster order, exactly one point per pixel of positive finite range.  It lies on the pixel's ray at exactly that distance
from the camera, and carries the pixel's colour. -/
theorem C74_points (rgb : List (List Color)) (range : List (List (FVal ℝ)))
    (hshape : rgb.map List.length = range.map List.length) (hw : ∀ row ∈ rgb, row.length ≤ 6 * rgb.length) :
    ∃ cloud, createPointCloud rgb range false = .ok cloud ∧ cloud.points.length = cloud.colors.length ∧
      List.Forall₂ (PixelOutput rgb.length) (validPixels (rasterPixels rgb range)) (List.zip cloud.points cloud.colors) := by
  have hlen : rgb.length = range.length := by simpa using congrArg List.length hshape
  obtain ⟨out, h1, h2⟩ := cloudRows_valid rgb.length (List.zip rgb range) 0 (by simp) (by
    intro r hr
    obtain ⟨r1, r2⟩ := r
    have := hw r1 (List.of_mem_zip hr).1
    simp only [List.length_zip]
    omega)
  refine ⟨⟨out.map Prod.fst, out.map Prod.snd⟩, ?_, by simp, ?_⟩
  · unfold createPointCloud
    rw [if_neg (by simpa using hshape), zipWith_zip_eq, h1]
    rfl
  · have : List.zip (out.map Prod.fst) (out.map Prod.snd) = out := by
      rw [List.zip_map_left, List.zip_map_right]
      clear h1 h2
      induction out with
      | nil => rfl
      | cons a l ih => simpa using ih
    rw [this]
    exact h2

/-- Colour and range images of different shapes are refused. -/
theorem C74_shape_mismatch (rgb : List (List Color)) (range : List (List (FVal ℝ))) (all : Bool)
    (h : rgb.map List.length ≠ range.map List.length) : createPointCloud rgb range all = .error .valueError := by
  unfold createPointCloud
  rw [if_pos h]

/-- **C74.** With `all_points`: exactly one point per pixel, in raster order; pixels without valid range give a black point
at the camera. -/
theorem C74_all_points (rgb : List (List Color)) (range : List (List (FVal ℝ)))
    (hshape : rgb.map List.length = range.map List.length) (hw : ∀ row ∈ rgb, row.length ≤ 6 * rgb.length) :
    ∃ cloud, createPointCloud rgb range true = .ok cloud ∧ cloud.points.length = cloud.colors.length ∧
      List.Forall₂ (PixelOutputAll rgb.length) (rasterPixels rgb range) (List.zip cloud.points cloud.colors) := by
  have hlen : rgb.length = range.length := by simpa using congrArg List.length hshape
  obtain ⟨out, h1, h2⟩ := cloudRows_all rgb.length (List.zip rgb range) 0 (by simp) (by
    intro r hr
    obtain ⟨r1, r2⟩ := r
    have := hw r1 (List.of_mem_zip hr).1
    simp only [List.length_zip]
    omega)
  refine ⟨⟨out.map Prod.fst, out.map Prod.snd⟩, ?_, by simp, ?_⟩
  · unfold createPointCloud
    rw [if_neg (by simpa using hshape), zipWith_zip_eq, h1]
    rfl
  · have : List.zip (out.map Prod.fst) (out.map Prod.snd) = out := by
      rw [List.zip_map_left, List.zip_map_right]
      clear h1 h2
      induction out with
      | nil => rfl
      | cons a l ih => simpa using ih
    rw [this]
    exact h2

/-- The hypotheses are met: a cube map of side 1 with two valid ranges, one infinite and one NaN; the raster order and the
pixel's face are as expected. -/
example : ([[⟨1, 2, 3⟩, ⟨4, 5, 6⟩, ⟨7, 8, 9⟩, ⟨0, 0, 1⟩]] : List (List Color)).map List.length =
    ([[.fin 2, .posInf, .nan, .fin 5]] : List (List (FVal ℝ))).map List.length ∧
    ∀ row ∈ ([[⟨1, 2, 3⟩, ⟨4, 5, 6⟩, ⟨7, 8, 9⟩, ⟨0, 0, 1⟩]] : List (List Color)), row.length ≤ 6 * 1 := by
  refine ⟨rfl, ?_⟩
  simp

example : (validPixels (rasterPixels [[⟨1, 2, 3⟩, ⟨4, 5, 6⟩, ⟨7, 8, 9⟩, ⟨0, 0, 1⟩]] [[.fin 2, .posInf, .nan, .fin 5]])).map
    (fun p => (p.row, p.col)) = [(0, 0), (0, 3)] := by
  simp [validPixels, rasterPixels, ValidRange, List.zipIdx]

end Sumo
