import Verif.Lemmas.FloatRange

/-! # Properties of point clouds from range images in double precision (C158) -/

namespace Sumo
open FloatRigidSpec FloatRangeSpec

/-- **C158.** For every colour and range image of the same shape, no wider than six times its height, with every operation
rounded: there is, in raster order, exactly one point per pixel of positive finite range.  It is no farther from the point that is
seen there than the range divided by `2^48`, and has the colour of the pixel. -/
theorem C158_points (norm : Vec3 ℚ → ℚ) (hn : GoodNorm norm) (rgb : List (List Color)) (range : List (List (FVal ℚ)))
    (hh : rgb.length ≤ 2 ^ 31) (hshape : rgb.map List.length = range.map List.length)
    (hw : ∀ row ∈ rgb, row.length ≤ 6 * rgb.length) :
    ∃ cloud, Fl.createPointCloud norm rgb range false = .ok cloud ∧ cloud.points.length = cloud.colors.length ∧
      List.Forall₂ (PixelNear rgb.length) (validPixels (rasterPixels rgb (range.map (List.map asReal))))
        (List.zip cloud.points cloud.colors) := by
  obtain ⟨⟨out, h1, h2⟩, -⟩ := fl_cloudRows hn hh (List.zip rgb range) 0 (by simp) (by
    intro r hr
    obtain ⟨r1, r2⟩ := r
    have := hw r1 (List.of_mem_zip hr).1
    simp only [List.length_zip]
    omega)
  refine ⟨⟨out.map Prod.fst, out.map Prod.snd⟩, ?_, by simp, ?_⟩
  · unfold Fl.createPointCloud
    rw [if_neg (by simpa using hshape), zipWith_zip_eq, h1]
    rfl
  · rw [rasterPixels_asReal, zip_fst_snd]
    exact h2
where
  zip_fst_snd {α β : Type} (l : List (α × β)) : List.zip (l.map Prod.fst) (l.map Prod.snd) = l := by
    induction l with
    | nil => rfl
    | cons a l ih => simpa using ih

/-- **C158.** With `all_points`: exactly one point per pixel, in raster order; pixels without valid range give a black point
exactly at the camera. -/
theorem C158_all_points (norm : Vec3 ℚ → ℚ) (hn : GoodNorm norm) (rgb : List (List Color)) (range : List (List (FVal ℚ)))
    (hh : rgb.length ≤ 2 ^ 31) (hshape : rgb.map List.length = range.map List.length)
    (hw : ∀ row ∈ rgb, row.length ≤ 6 * rgb.length) :
    ∃ cloud, Fl.createPointCloud norm rgb range true = .ok cloud ∧ cloud.points.length = cloud.colors.length ∧
      List.Forall₂ (PixelNearAll rgb.length) (rasterPixels rgb (range.map (List.map asReal)))
        (List.zip cloud.points cloud.colors) := by
  obtain ⟨-, out, h1, h2⟩ := fl_cloudRows hn hh (List.zip rgb range) 0 (by simp) (by
    intro r hr
    obtain ⟨r1, r2⟩ := r
    have := hw r1 (List.of_mem_zip hr).1
    simp only [List.length_zip]
    omega)
  refine ⟨⟨out.map Prod.fst, out.map Prod.snd⟩, ?_, by simp, ?_⟩
  · unfold Fl.createPointCloud
    rw [if_neg (by simpa using hshape), zipWith_zip_eq, h1]
    rfl
  · rw [rasterPixels_asReal, C158_points.zip_fst_snd]
    exact h2

/-- **C158.** The distance of a point from the camera is the range, up to one part in `2^48`. -/
theorem C158_distance (norm : Vec3 ℚ → ℚ) (hn : GoodNorm norm) (rgb : List (List Color)) (range : List (List (FVal ℚ)))
    (hh : rgb.length ≤ 2 ^ 31) (hshape : rgb.map List.length = range.map List.length)
    (hw : ∀ row ∈ rgb, row.length ≤ 6 * rgb.length) :
    ∃ cloud, Fl.createPointCloud norm rgb range false = .ok cloud ∧
      List.Forall₂ (fun px p => ∃ r, ValidRange px.range r ∧ |(rv p).norm - r| ≤ r / 2 ^ 48)
        (validPixels (rasterPixels rgb (range.map (List.map asReal)))) cloud.points := by
  obtain ⟨cloud, h1, h2, h3⟩ := C158_points norm hn rgb range hh hshape hw
  refine ⟨cloud, h1, ?_⟩
  have hp : (List.zip cloud.points cloud.colors).map Prod.fst = cloud.points := List.map_fst_zip (by omega)
  rw [← hp, List.forall₂_map_right_iff]
  refine h3.imp ?_
  rintro px out ⟨r, p, hr, ⟨F, -, hpr, -⟩, hd, -⟩
  refine ⟨r, hr, ?_⟩
  rw [← hpr] at hd ⊢
  have a := vnorm_le_of (rv out.1) p
  have b := vnorm_le_of p (rv out.1)
  rw [vnorm_sub_comm] at b
  exact abs_le.2 ⟨by linarith, by linarith⟩

/-- Colour and range images of different shapes are refused. -/
theorem C158_shape_mismatch (norm : Vec3 ℚ → ℚ) (rgb : List (List Color)) (range : List (List (FVal ℚ))) (all : Bool)
    (h : rgb.map List.length ≠ range.map List.length) : Fl.createPointCloud norm rgb range all = .error .valueError := by
  unfold Fl.createPointCloud
  rw [if_pos h]

/-- A norm as the library computes it: from left to right. -/
def leftNorm (v : Vec3 ℚ) : ℚ := sqrtD (double (double (double (v.x * v.x) + double (v.y * v.y)) + double (v.z * v.z)))

/-- The hypothesis on the norm is met. -/
theorem leftNorm_good : GoodNorm leftNorm := fun _ =>
  ⟨_, .add (l := [_, _]) (k := [_]) (by simp) (by simp) (.add (l := [_]) (k := [_]) (by simp) (by simp) (.one _) (.one _)) (.one _), rfl⟩

/-- The hypotheses are met: one row of a cube map of side one, with a valid, an infinite and an undefined range, and the result. -/
example : Fl.createPointCloud leftNorm [[⟨1, 2, 3⟩, ⟨4, 5, 6⟩, ⟨7, 8, 9⟩, ⟨0, 0, 1⟩]] [[.fin 2, .posInf, .nan, .fin 5]] false =
    .ok ⟨[⟨0, 0, -2⟩, ⟨5, 0, 0⟩], [⟨1, 2, 3⟩, ⟨0, 0, 1⟩]⟩ := by decide +kernel

/-- The upper left pixel of a cube map of side two: not exactly where it is seen. -/
example : (Fl.createPointCloud leftNorm [[⟨1, 2, 3⟩], [⟨4, 5, 6⟩]] [[.fin 2], [.nan]] true).toOption.map
    (fun c => (c.points.length, c.points.map fun p => decide (p.x * p.x + p.y * p.y + p.z * p.z = 4))) = some (2, [false, false]) := by
  decide +kernel

end Sumo
