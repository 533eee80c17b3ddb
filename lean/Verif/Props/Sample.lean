import Verif.Lemmas.Sample
import Mathlib.MeasureTheory.Function.Jacobian
import Mathlib.MeasureTheory.Measure.Lebesgue.EqHaar
import Mathlib.Analysis.SpecialFunctions.Sqrt
import Mathlib.Analysis.Calculus.FDeriv.Prod
import Mathlib.LinearAlgebra.Determinant
import Mathlib.LinearAlgebra.Matrix.ToLin

/-! # Properties of mesh sampling (C57, C79, C92, C93) -/

namespace Sumo

/-- **C57.** For every list of complete triangles, every density and all random numbers in `[0, 1]`, sampling succeeds.
Every triangle gets `density * area` samples, rounded down but at least one; every sample is a convex combination of its
triangle's corners, in position and colour alike. -/
theorem C57_sample_mesh (rnd : ℕ → ℝ × ℝ) (hr : ∀ k, (0 ≤ (rnd k).1 ∧ (rnd k).1 ≤ 1) ∧ 0 ≤ (rnd k).2 ∧ (rnd k).2 ≤ 1)
    (faces : List ColorPoint) (density : ℝ) (h3 : 3 ∣ faces.length) :
    ∃ samples, sampleMesh rnd faces density = .ok samples ∧ SamplesAll density faces samples := by
  refine ⟨_, sampleMesh_ok rnd faces density h3, ?_⟩
  obtain ⟨blocks, h1, h2⟩ := blocks_of_repeat (fun (t : ColorPoint × ColorPoint × ColorPoint) k =>
    samplePoint t.1 t.2.1 t.2.2 (rnd k)) (fun t s => InTriangle t.1 t.2.1 t.2.2 s)
    (fun t k => samplePoint_in _ _ _ _ (hr k).1 (hr k).2)
    (List.zip ((MeshSpec.triples faces).map fun t => max 1 ⌊density * triangleArea t.1.pos t.2.1.pos t.2.2.pos⌋₊)
        (MeshSpec.triples faces)) 0
  refine ⟨blocks, h1, ?_⟩
  have hz : List.zip ((MeshSpec.triples faces).map fun t => max 1 ⌊density * triangleArea t.1.pos t.2.1.pos t.2.2.pos⌋₊)
        (MeshSpec.triples faces) =
      (MeshSpec.triples faces).map fun t => (max 1 ⌊density * triangleArea t.1.pos t.2.1.pos t.2.2.pos⌋₊, t) := by
    generalize MeshSpec.triples faces = T
    induction T with
    | nil => rfl
    | cons t T ih => simp [ih]
  rw [hz, List.forall₂_map_left_iff] at h2
  exact h2

/-- Index lists of 7 or more entries that are not complete triangles are refused. -/
theorem C57_incomplete (rnd : ℕ → ℝ × ℝ) (faces : List ColorPoint) (density : ℝ) (h3 : ¬ 3 ∣ faces.length)
    (h6 : 6 < faces.length) : sampleMesh rnd faces density = .error .valueError := by
  have hlen : ∀ (n : ℕ) (l : List ColorPoint), l.length = n → (everyThird l).length = (n + 2) / 3 := by
    intro n
    induction n using Nat.strong_induction_on with
    | _ n ih =>
      intro l hl
      cases l with
      | nil => simp only [List.length_nil] at hl; subst hl; simp [everyThird]
      | cons a l =>
        simp only [List.length_cons] at hl
        rw [everyThird_cons, List.length_cons, ih (l.drop 2).length (by simp; omega) (l.drop 2) rfl, List.length_drop]
        omega
  have hA := hlen _ faces rfl
  have hC := hlen _ (faces.drop 2) rfl
  rw [List.length_drop] at hC
  have hb : broadcast (fun a c : ColorPoint => a.pos - c.pos) (everyThird faces) (everyThird (faces.drop 2)) =
      .error .valueError := by
    have hA2 : 2 ≤ (everyThird faces).length := by omega
    have hC2 : 2 ≤ (everyThird (faces.drop 2)).length := by omega
    have hne : (everyThird faces).length ≠ (everyThird (faces.drop 2)).length := by omega
    generalize everyThird faces = A at *
    generalize everyThird (faces.drop 2) = C at *
    unfold broadcast
    rw [if_neg hne]
    match A, C, hA2, hC2 with
    | _ :: _ :: _, _ :: _ :: _, _, _ => rfl
  unfold sampleMesh faceAreas
  simp only [hb, bind, Except.bind]

/-- **C57.** Sampling an object: for every object with at least one mesh (proper meshes, any number, textured or not) the
samples cover the triangles of its meshes placed by the object's pose. -/
theorem C57_sample_element (rnd : ℕ → ℝ × ℝ)
    (hr : ∀ k, (0 ≤ (rnd k).1 ∧ (rnd k).1 ≤ 1) ∧ 0 ≤ (rnd k).2 ∧ (rnd k).2 ≤ 1) (meshes : List PrimMesh)
    (pose : Pose3 ℝ) (density : ℝ) (hne : meshes ≠ []) (h : ∀ m ∈ meshes, ProperMesh m) :
    ∃ samples faces, sampleElement rnd meshes pose density = .ok samples ∧
      List.Forall₂ (fun c p => PosedVertex texelVU pose c.1 c.2 p) (allCorners meshes) faces ∧
      SamplesAll density faces samples := by
  obtain ⟨faces, h1, h2, h3⟩ := elementFaces_ok pose meshes h
  obtain ⟨samples, h4, h5⟩ := C57_sample_mesh rnd hr faces density h2
  refine ⟨samples, faces, ?_, h3, h5⟩
  unfold sampleElement
  rw [if_neg hne, h1]
  exact h4

/-- A proper textured mesh with one triangle. -/
example : ProperMesh (.textured ⟨⟨[0, 1, 2], [⟨0, 0, 0⟩, ⟨1, 0, 0⟩, ⟨0, 1, 0⟩], [⟨0, 0, 1⟩, ⟨0, 0, 1⟩, ⟨0, 0, 1⟩], .empty⟩,
    [(0, 0), (1, 0), (0, 1)], ⟨2, 3, fun r c => ⟨r, c, 0⟩⟩, ⟨0, 0, fun _ _ => 0⟩⟩) := by
  refine ⟨⟨1, rfl⟩, rfl, rfl, ?_⟩
  intro i hi
  simp only [List.mem_cons, List.not_mem_nil, or_false] at hi
  show i < 3
  omega

/-- **C57.** Objects without meshes raise `TypeError`. -/
theorem C57_no_meshes (rnd : ℕ → ℝ × ℝ) (pose : Pose3 ℝ) (density : ℝ) :
    sampleElement rnd [] pose density = .error .typeError ∧ modelSamplerRun rnd [] density = .error .typeError :=
  ⟨rfl, rfl⟩

/-- **C57.** Every point of a triangle can be drawn: for all convex coefficients there are random numbers in `[0, 1]` that
give them. -/
theorem C57_reaches (a b c : ColorPoint) (α β γ : ℝ) (hα : 0 ≤ α) (hβ : 0 ≤ β) (hγ : 0 ≤ γ) (hsum : α + β + γ = 1) :
    ∃ r : ℝ × ℝ, (0 ≤ r.1 ∧ r.1 ≤ 1) ∧ (0 ≤ r.2 ∧ r.2 ≤ 1) ∧
      (samplePoint a b c r).pos = Vec3.smul α a.pos + Vec3.smul β b.pos + Vec3.smul γ c.pos := by
  have hsq : Real.sqrt ((β + γ) ^ 2) = β + γ := Real.sqrt_sq (by linarith)
  by_cases h0 : β + γ = 0
  · have hb : β = 0 := by linarith
    have hg : γ = 0 := by linarith
    refine ⟨((β + γ) ^ 2, 0), ⟨sq_nonneg _, by rw [h0]; norm_num⟩, ⟨le_refl _, zero_le_one⟩, ?_⟩
    unfold samplePoint
    simp only [hsq]
    have e1 : 1 - (β + γ) = α := by linarith
    have e2 : (β + γ) * (1 - 0) = β := by linarith
    have e3 : (β + γ) * 0 = γ := by linarith
    rw [e1, e2, e3]
  · have hpos : 0 < β + γ := lt_of_le_of_ne (by linarith) (Ne.symm h0)
    refine ⟨((β + γ) ^ 2, γ / (β + γ)), ⟨sq_nonneg _, pow_le_one₀ (by linarith) (by linarith)⟩,
      ⟨by positivity, by rw [div_le_one hpos]; linarith⟩, ?_⟩
    unfold samplePoint
    simp only [hsq]
    have e1 : 1 - (β + γ) = α := by linarith
    have e2 : (β + γ) * (1 - γ / (β + γ)) = β := by field_simp; ring
    have e3 : (β + γ) * (γ / (β + γ)) = γ := by field_simp
    rw [e1, e2, e3]

/-! ## Colours -/

/-- Full statement (false): the colours of the corners are the texels at column `u * width` and row `v * height`. -/
def C79_statement : Prop :=
  ∀ (img : RgbImage) (u v : ℝ), img.rows ≠ 0 → img.cols ≠ 0 → texel img (u, v) = .ok (texelUV img u v)

/-- **C79 is false of the code**: rows and columns are exchanged.  In a texture one pixel high and two wide, the
coordinate `u = 1/2` (the right pixel) gives the left pixel. -/
theorem C79_false : ¬ C79_statement := by
  intro h
  have := h ⟨1, 2, fun _ c => ⟨c, 0, 0⟩⟩ (1 / 2) 0 (by simp) (by simp)
  rw [texel_ok _ (by simp) (by simp)] at this
  simp only [texelVU, texelUV, wrap, Except.ok.injEq, Vec3.mk.injEq] at this
  norm_num at this

/-- **C79** (partial: rows and columns exchanged).  For every non-empty texture and every texture coordinate the lookup
stays inside the image and gives the texel at row `u * height` and column `v * width`; this is the right texel whenever the
texture is square and `u = v`, or the texture is symmetric. -/
theorem C79_lookup_partial (img : RgbImage) (u v : ℝ) (hr : img.rows ≠ 0) (hc : img.cols ≠ 0) :
    texel img (u, v) = .ok (img.pixel (wrap ⌊u * img.rows⌋ img.rows) (wrap ⌊v * img.cols⌋ img.cols)) ∧
    wrap ⌊u * img.rows⌋ img.rows < img.rows ∧ wrap ⌊v * img.cols⌋ img.cols < img.cols ∧
    ((img.rows = img.cols ∧ ∀ r c, img.pixel r c = img.pixel c r) → texel img (u, v) = .ok (texelUV img u v)) := by
  have key : ∀ (k : ℤ) (n : ℕ), n ≠ 0 → wrap k n < n := by
    intro k n hn
    unfold wrap
    have h1 : (0 : ℤ) < n := by positivity
    have := Int.emod_lt_of_pos k h1
    have := Int.emod_nonneg k h1.ne'
    omega
  refine ⟨texel_ok img hr hc (u, v), key _ _ hr, key _ _ hc, ?_⟩
  rintro ⟨h1, h2⟩
  rw [texel_ok img hr hc]
  unfold texelVU texelUV
  rw [h2, h1]

/-- Inside the unit square the texel is the one whose cell contains the coordinate. -/
theorem C79_cell (img : RgbImage) (u v : ℝ) (hr : img.rows ≠ 0) (hc : img.cols ≠ 0) (hu : 0 ≤ u ∧ u < 1)
    (hv : 0 ≤ v ∧ v < 1) : ∃ r c, r < img.rows ∧ c < img.cols ∧ texel img (u, v) = .ok (img.pixel r c) ∧
      (r : ℝ) ≤ u * img.rows ∧ u * img.rows < r + 1 ∧ (c : ℝ) ≤ v * img.cols ∧ v * img.cols < c + 1 := by
  have key : ∀ (x : ℝ) (n : ℕ), n ≠ 0 → 0 ≤ x → x < 1 → wrap ⌊x * n⌋ n < n ∧ ((wrap ⌊x * n⌋ n : ℕ) : ℝ) ≤ x * n ∧
      x * n < (wrap ⌊x * n⌋ n : ℕ) + 1 := by
    intro x n hn h0 h1
    have hn' : (0 : ℝ) < n := by positivity
    have hnn : 0 ≤ x * n := by positivity
    have hlt : x * n < n := by nlinarith
    have hfl : ⌊x * n⌋ < n := by rw [Int.floor_lt]; exact_mod_cast hlt
    have hf0 : 0 ≤ ⌊x * n⌋ := Int.floor_nonneg.2 hnn
    have hw : wrap ⌊x * n⌋ n = ⌊x * n⌋₊ := by
      unfold wrap
      rw [Int.emod_eq_of_lt hf0 hfl, ← Int.natCast_floor_eq_floor hnn, Int.toNat_natCast]
    rw [hw]
    exact ⟨(Nat.floor_lt hnn).2 hlt, Nat.floor_le hnn, Nat.lt_floor_add_one _⟩
  obtain ⟨a1, a2, a3⟩ := key u img.rows hr hu.1 hu.2
  obtain ⟨b1, b2, b3⟩ := key v img.cols hc hv.1 hv.2
  exact ⟨_, _, a1, b1, texel_ok img hr hc (u, v), a2, a3, b2, b3⟩

/-! ## The two samplers -/

/-- **C93** (partial: models with at least one triangle).  `ModelSampler` draws the same samples as the evaluator's sampler at the identity pose, for the same random
numbers, whenever there is a triangle at all. -/
theorem C93_samplers_agree_partial (rnd : ℕ → ℝ × ℝ) (meshes : List PrimMesh) (density : ℝ) (h : ∀ m ∈ meshes, ProperMesh m)
    (hne : ∃ m ∈ meshes, m.indices ≠ []) :
    modelSamplerRun rnd meshes density = (sampleElement rnd meshes Pose3.identity density).map .rows6 := by
  obtain ⟨faces, h1, h2, h3⟩ := elementFaces_ok Pose3.identity meshes h
  have hm : meshes ≠ [] := by
    rintro rfl
    obtain ⟨m, hm, -⟩ := hne
    simp at hm
  have hf : faces ≠ [] := by
    rintro rfl
    have h3' := List.forall₂_nil_right_iff.1 h3
    obtain ⟨m, hm, hi⟩ := hne
    unfold allCorners at h3'
    rw [List.flatMap_eq_nil_iff] at h3'
    exact hi (List.map_eq_nil_iff.1 (h3' m hm))
  unfold modelSamplerRun sampleElement
  rw [if_neg hm, if_neg hm, modelFaces_eq meshes h, h1]
  simp only [bind, Except.bind]
  rw [sampleMesh'_ok _ _ _ h2, if_neg hf]

/-- **C93** is false for models whose meshes have no triangles: `ModelSampler` returns an array with three columns instead of
the documented six. -/
theorem C93_false (rnd : ℕ → ℝ × ℝ) (density : ℝ) :
    modelSamplerRun rnd [.plain ⟨[], [], [], .empty⟩] density = .ok .empty3 := by
  unfold modelSamplerRun
  rw [if_neg (by simp)]
  have : modelFaces [.plain ⟨[], [], [], .empty⟩] = .ok [] := by
    simp [modelFaces, meshFaces, meshColors, PointCloud.select, PrimMesh.indices, bind, Except.bind, pure, Except.pure]
  rw [this]
  simp only [bind, Except.bind]
  rw [sampleMesh'_ok _ _ _ (by simp), if_pos rfl]

/-! ## Uniformity -/

/-- The determinant of a linear map of the plane given by its four coefficients. -/
theorem det_plane (A B C D : ℝ) :
    ((A • ContinuousLinearMap.fst ℝ ℝ ℝ + B • ContinuousLinearMap.snd ℝ ℝ ℝ).prod
      (C • ContinuousLinearMap.fst ℝ ℝ ℝ + D • ContinuousLinearMap.snd ℝ ℝ ℝ) : ℝ × ℝ →L[ℝ] ℝ × ℝ).det = A * D - B * C := by
  unfold ContinuousLinearMap.det
  rw [← LinearMap.det_toMatrix (Module.Basis.finTwoProd ℝ), Matrix.det_fin_two]
  simp [LinearMap.toMatrix_apply]

/-- The sampled point of a triangle in the plane, as a function of the two random numbers. -/
noncomputable def planarSample (a b c : ℝ × ℝ) (r : ℝ × ℝ) : ℝ × ℝ :=
  let p := (samplePoint ⟨⟨a.1, a.2, 0⟩, 0⟩ ⟨⟨b.1, b.2, 0⟩, 0⟩ ⟨⟨c.1, c.2, 0⟩, 0⟩ r).pos
  (p.x, p.y)

theorem planarSample_eq (a b c r : ℝ × ℝ) : planarSample a b c r =
    (a.1 + Real.sqrt r.1 * ((b.1 - a.1) + r.2 * (c.1 - b.1)), a.2 + Real.sqrt r.1 * ((b.2 - a.2) + r.2 * (c.2 - b.2))) := by
  unfold planarSample samplePoint
  simp only [Vec3.smul, Vec3.add_x, Vec3.add_y]
  ext <;> simp <;> ring

theorem hasFDerivAt_coord (a u w : ℝ) (r : ℝ × ℝ) (h : 0 < r.1) :
    HasFDerivAt (fun r : ℝ × ℝ => a + Real.sqrt r.1 * (u + r.2 * w))
      (((u + r.2 * w) / (2 * Real.sqrt r.1)) • ContinuousLinearMap.fst ℝ ℝ ℝ +
        (Real.sqrt r.1 * w) • ContinuousLinearMap.snd ℝ ℝ ℝ) r := by
  have h1 : HasFDerivAt (fun r : ℝ × ℝ => Real.sqrt r.1) ((1 / (2 * Real.sqrt r.1)) • ContinuousLinearMap.fst ℝ ℝ ℝ) r :=
    (hasFDerivAt_fst (𝕜 := ℝ) (p := r)).sqrt h.ne'
  have h2 : HasFDerivAt (fun r : ℝ × ℝ => u + r.2 * w) (w • ContinuousLinearMap.snd ℝ ℝ ℝ) r :=
    ((hasFDerivAt_snd (𝕜 := ℝ) (p := r)).mul_const w).const_add u
  have h3 := (h1.mul h2).const_add a
  refine h3.congr_fderiv ?_
  ext
  · simp; ring
  · simp

theorem hasFDerivAt_planarSample (a b c r : ℝ × ℝ) (h : 0 < r.1) :
    HasFDerivAt (planarSample a b c)
      (((((b.1 - a.1) + r.2 * (c.1 - b.1)) / (2 * Real.sqrt r.1)) • ContinuousLinearMap.fst ℝ ℝ ℝ +
        (Real.sqrt r.1 * (c.1 - b.1)) • ContinuousLinearMap.snd ℝ ℝ ℝ).prod
       ((((b.2 - a.2) + r.2 * (c.2 - b.2)) / (2 * Real.sqrt r.1)) • ContinuousLinearMap.fst ℝ ℝ ℝ +
        (Real.sqrt r.1 * (c.2 - b.2)) • ContinuousLinearMap.snd ℝ ℝ ℝ)) r := by
  have : planarSample a b c = fun r => (a.1 + Real.sqrt r.1 * ((b.1 - a.1) + r.2 * (c.1 - b.1)),
      a.2 + Real.sqrt r.1 * ((b.2 - a.2) + r.2 * (c.2 - b.2))) := funext (planarSample_eq a b c)
  rw [this]
  exact (hasFDerivAt_coord _ _ _ r h).prodMk (hasFDerivAt_coord _ _ _ r h)

/-- Twice the signed area of a triangle in the plane. -/
def signedArea2 (a b c : ℝ × ℝ) : ℝ := (b.1 - a.1) * (c.2 - a.2) - (b.2 - a.2) * (c.1 - a.1)

theorem triangleArea_planar (a b c : ℝ × ℝ) :
    triangleArea ⟨a.1, a.2, 0⟩ ⟨b.1, b.2, 0⟩ ⟨c.1, c.2, 0⟩ = |signedArea2 a b c| / 2 := by
  unfold triangleArea Vec3.norm Vec3.normSq Vec3.dot signedArea2
  rw [← Real.sqrt_sq_eq_abs]
  congr 2
  simp [Vec3.cross]
  ring

theorem planarSample_injOn (a b c : ℝ × ℝ) (hnd : signedArea2 a b c ≠ 0) :
    Set.InjOn (planarSample a b c) (Set.Ioo 0 1 ×ˢ Set.Ioo 0 1) := by
  intro r hr q hq h
  rw [planarSample_eq, planarSample_eq, Prod.mk.injEq] at h
  obtain ⟨h1, h2⟩ := h
  have hs := Real.sqrt_pos.2 hr.1.1
  have hS := Real.sqrt_pos.2 hq.1.1
  have e1 : signedArea2 a b c * (Real.sqrt r.1 * r.2 - Real.sqrt q.1 * q.2) = 0 := by
    unfold signedArea2
    linear_combination (b.1 - a.1) * h2 - (b.2 - a.2) * h1
  have e2 : signedArea2 a b c * (Real.sqrt r.1 * (1 - r.2) - Real.sqrt q.1 * (1 - q.2)) = 0 := by
    unfold signedArea2
    linear_combination (c.2 - a.2) * h1 - (c.1 - a.1) * h2
  have f1 := (mul_eq_zero.1 e1).resolve_left hnd
  have f2 := (mul_eq_zero.1 e2).resolve_left hnd
  have f3 : Real.sqrt r.1 = Real.sqrt q.1 := by linarith
  have g1 : r.1 = q.1 := (Real.sqrt_inj hr.1.1.le hq.1.1.le).1 f3
  have g2 : r.2 = q.2 := by
    rw [f3, ← mul_sub] at f1
    have := (mul_eq_zero.1 f1).resolve_left hS.ne'
    linarith
  exact Prod.ext g1 g2

/-- **C92.** Samples are uniformly distributed over the triangle: for every measurable set `S` of pairs of random numbers in
the open unit square, the sampled points of a non-degenerate triangle fill an area of exactly `area of S` times the
triangle's area. -/
theorem C92_uniform (a b c : ℝ × ℝ) (hnd : triangleArea ⟨a.1, a.2, 0⟩ ⟨b.1, b.2, 0⟩ ⟨c.1, c.2, 0⟩ ≠ 0) (S : Set (ℝ × ℝ))
    (hS : MeasurableSet S) (hsub : S ⊆ Set.Ioo 0 1 ×ˢ Set.Ioo 0 1) :
    MeasureTheory.volume (planarSample a b c '' S) =
      ENNReal.ofReal (triangleArea ⟨a.1, a.2, 0⟩ ⟨b.1, b.2, 0⟩ ⟨c.1, c.2, 0⟩) * MeasureTheory.volume S := by
  have hnd' : signedArea2 a b c ≠ 0 := by
    intro h
    rw [triangleArea_planar, h] at hnd
    simp at hnd
  have : MeasureTheory.Measure.IsAddHaarMeasure (MeasureTheory.volume : MeasureTheory.Measure (ℝ × ℝ)) :=
    MeasureTheory.Measure.prod.instIsAddHaarMeasure _ _
  rw [← MeasureTheory.lintegral_abs_det_fderiv_eq_addHaar_image MeasureTheory.volume hS
    (fun r hr => (hasFDerivAt_planarSample a b c r (hsub hr).1.1).hasFDerivWithinAt)
    ((planarSample_injOn a b c hnd').mono hsub)]
  rw [MeasureTheory.setLIntegral_congr_fun (g := fun _ => ENNReal.ofReal
    (triangleArea ⟨a.1, a.2, 0⟩ ⟨b.1, b.2, 0⟩ ⟨c.1, c.2, 0⟩)) hS]
  · rw [MeasureTheory.setLIntegral_const]
  · intro r hr
    have hs := (Real.sqrt_pos.2 (hsub hr).1.1).ne'
    dsimp only
    rw [det_plane, triangleArea_planar]
    congr 1
    rw [show |signedArea2 a b c| / 2 = |signedArea2 a b c / 2| by rw [abs_div, abs_two]]
    congr 1
    unfold signedArea2
    field_simp
    ring

/-- The whole square fills the whole triangle's area: the hypotheses are met by the triangle with corners 0, (1,0), (0,1). -/
example : triangleArea ⟨(0 : ℝ), 0, 0⟩ ⟨1, 0, 0⟩ ⟨0, 1, 0⟩ = 1 / 2 := by
  have := triangleArea_planar (0, 0) (1, 0) (0, 1)
  simpa [signedArea2] using this

/-- **C92.** In space: the sample of any triangle is the combination of its corners with coefficients `1 - β - γ`, `β`, `γ`
where `(β, γ)` is the sample of the reference triangle; with the theorem above the coefficients are uniform. -/
theorem C92_coefficients (a b c : ColorPoint) (r : ℝ × ℝ) :
    (samplePoint a b c r).pos =
      a.pos + Vec3.smul (planarSample (0, 0) (1, 0) (0, 1) r).1 (b.pos - a.pos) +
        Vec3.smul (planarSample (0, 0) (1, 0) (0, 1) r).2 (c.pos - a.pos) := by
  rw [planarSample_eq]
  unfold samplePoint
  ext <;> simp [Vec3.smul] <;> ring

end Sumo
