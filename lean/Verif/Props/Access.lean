import Verif.Model.Access

/-! # Properties of access by index (C163) -/

namespace Sumo
namespace Access

variable {K : Type}

theorem withSizeT_nat {α : Type} {n : ℕ} (h : n < 2 ^ 64) (body : ℕ → Outcome α) : withSizeT (n : ℤ) body = body n := by
  unfold withSizeT
  rw [if_neg (by push Not; exact ⟨Int.natCast_nonneg n, by exact_mod_cast h⟩), Int.toNat_natCast]

/-- **C163.** Indices that are not natural numbers below `2^64` raise `OverflowError`; no method counts from the end. -/
theorem C163_negative (c : PointCloud K) (M : Gltf.Model) (R : Fin 3 → Fin 3 → K) {i : ℤ} (hi : i < 0 ∨ 2 ^ 64 ≤ i) :
    point c i = .overflowError ∧ color c i = .overflowError ∧ imageSize M i = .overflowError ∧ imageUri M i = .overflowError ∧
      extractMesh M i = .overflowError ∧ column R i = .overflowError := by
  simp only [point, color, imageSize, imageUri, extractMesh, column, withSizeT, if_pos hi, and_self]

/-- **C163.** `point(i)` is column `i` of `points()`, for every `i` below `num_points()`, and it is defined for no other natural number
below `2^64`. -/
theorem C163_point_partial (c : PointCloud K) {i : ℕ} (hi : i < 2 ^ 64) :
    (∀ p, point c i = .returns p ↔ c.points[i]? = some p) ∧ (point c i = .undefined ↔ numPoints c ≤ i) ∧
      ∀ e, point c i ≠ .raises e := by
  rw [point, withSizeT_nat hi]
  unfold unchecked numPoints
  cases h : c.points[i]? with
  | none => simpa using List.getElem?_eq_none_iff.1 h
  | some p => simpa using (List.getElem?_eq_some_iff.1 h).1

/-- **C163.** `color(i)` is column `i` of `colors()`; for a cloud made with colours (as many as points) it is defined exactly below
`num_points()`; for one without colours it never is. -/
theorem C163_color_partial (c : PointCloud K) {i : ℕ} (hi : i < 2 ^ 64) :
    (∀ q, color c i = .returns q ↔ c.colors[i]? = some q) ∧ (color c i = .undefined ↔ c.colors.length ≤ i) ∧
      (c.colors.length = c.points.length → (color c i = .undefined ↔ numPoints c ≤ i)) ∧
      (c.colored = false → color c i = .undefined) := by
  have h1 : color c i = .undefined ↔ c.colors.length ≤ i := by
    rw [color, withSizeT_nat hi]
    unfold unchecked
    cases h : c.colors[i]? with
    | none => simpa using List.getElem?_eq_none_iff.1 h
    | some p => simpa using (List.getElem?_eq_some_iff.1 h).1
  refine ⟨fun q => ?_, h1, fun hl => by rw [h1, hl]; rfl, fun hc => h1.2 ?_⟩
  · rw [color, withSizeT_nat hi]
    unfold unchecked
    cases h : c.colors[i]? <;> simp
  · have : c.colors = [] := by simpa [PointCloud.colored] using hc
    simp [this]

/-- **C163.** `image_size(i)` and `image_uri(i)` are the number of bytes and the URI of image `i`, for every `i` below `num_images()`, and are
defined for no other natural number below `2^64`. -/
theorem C163_images_partial (M : Gltf.Model) {i : ℕ} (hi : i < 2 ^ 64) :
    (∀ g, M.images[i]? = some g → imageSize M i = .returns g.image.length ∧ imageUri M i = .returns g.uri) ∧
      (imageSize M i = .undefined ↔ numImages M ≤ i) ∧ (imageUri M i = .undefined ↔ numImages M ≤ i) := by
  rw [imageSize, imageUri, withSizeT_nat hi, withSizeT_nat hi]
  unfold unchecked numImages
  simp only [List.getElem?_map]
  cases h : M.images[i]? with
  | none => simpa using List.getElem?_eq_none_iff.1 h
  | some g =>
    refine ⟨fun g' hg => by cases hg; exact ⟨rfl, rfl⟩, ?_, ?_⟩ <;> simpa using (List.getElem?_eq_some_iff.1 h).1

/-- **C163.** Extracting mesh `i` of a model whose meshes can be extracted returns mesh `i` of `primitive_meshes()`, and raises `IndexError`
exactly if there is none. -/
theorem C163_mesh (M : Gltf.Model) {meshes : List AnyMesh} (hM : M.primitiveMeshes = .ok meshes) {i : ℕ} (hi : i < 2 ^ 64) :
    (∀ m, extractMesh M i = .returns m ↔ meshes[i]? = some m) ∧ (extractMesh M i = .raises .indexError ↔ meshes.length ≤ i) ∧
      extractMesh M i ≠ .undefined := by
  rw [extractMesh, withSizeT_nat hi]
  unfold Gltf.Model.extractMesh
  rw [hM]
  simp only [bind, Except.bind]
  cases h : meshes[i]? with
  | none => simpa [ofExcept] using List.getElem?_eq_none_iff.1 h
  | some m => simpa [ofExcept, pure, Except.pure] using (List.getElem?_eq_some_iff.1 h).1

/-- **C163.** Extracting mesh `i` of a model whose meshes cannot be extracted fails as `primitive_meshes()` does, whatever `i` is. -/
theorem C163_mesh_error (M : Gltf.Model) {e : PyErr} (hM : M.primitiveMeshes = .error e) {i : ℕ} (hi : i < 2 ^ 64) :
    (e = .undefined → extractMesh M i = .undefined) ∧ (e ≠ .undefined → extractMesh M i = .raises e) := by
  rw [extractMesh, withSizeT_nat hi]
  unfold Gltf.Model.extractMesh
  rw [hM]
  simp only [bind, Except.bind]
  refine ⟨fun h => by subst h; rfl, fun h => ?_⟩
  cases e <;> first | rfl | exact absurd rfl h

/-- Non-vacuity: an index of an accessor that does not exist, and an accessor that asks for more than the buffer has. -/
example : (match ({ meshes := [[⟨[], 0, 0, 4⟩]] } : Gltf.Model).primitiveMeshes with
    | .error e => decide (e = .valueError) | .ok _ => false) = true ∧
  (match ({ meshes := [[⟨[], 0, 0, 4⟩]], accessors := [⟨0, 0, 3, 5123, 65, [], []⟩], bufferViews := [⟨0, 0, 6, 0, 0⟩], buffers := [[1, 2]] } :
      Gltf.Model).primitiveMeshes with
    | .error e => decide (e = .undefined) | .ok _ => false) = true := by decide +kernel

/-- **C163.** `R(j)` is column `j` of the matrix for `j` = 0, 1, 2, and raises `IndexError` for larger numbers. -/
theorem C163_column (R : Fin 3 → Fin 3 → K) {j : ℕ} (hj : j < 2 ^ 64) :
    (∀ h : j < 3, column R j = .returns fun i => R i ⟨j, h⟩) ∧ (3 ≤ j → column R j = .raises .indexError) := by
  rw [column, withSizeT_nat hj]
  exact ⟨fun h => by rw [dif_pos h], fun h => by rw [dif_neg (by omega)]⟩

/-- **C163.** False of the code: one past the end of a cloud is read without an exception; and so is the colour of an existing point of a
coloured cloud, if a cloud without colours was merged with one that has colours. -/
theorem C163_false : (∃ c : PointCloud ℤ, point c (numPoints c) = .undefined) ∧
    ∃ a b c : PointCloud ℤ, PointCloud.merge a b = .ok c ∧ c.colored = true ∧ 1 < numPoints c ∧ color c 1 = .undefined :=
  ⟨⟨⟨[⟨1, 2, 3⟩], []⟩, by decide⟩,
    ⟨[⟨1, 2, 3⟩], []⟩, ⟨[⟨4, 5, 6⟩], [⟨7, 8, 9⟩]⟩, ⟨[⟨1, 2, 3⟩, ⟨4, 5, 6⟩], [⟨7, 8, 9⟩]⟩, by decide, by decide, by decide, by decide⟩

example : point (⟨[⟨1, 2, 3⟩, ⟨4, 5, 6⟩], []⟩ : PointCloud ℤ) 1 = .returns ⟨4, 5, 6⟩ := by decide
example : color (⟨[⟨1, 2, 3⟩, ⟨4, 5, 6⟩], [⟨7, 8, 9⟩, ⟨1, 1, 1⟩]⟩ : PointCloud ℤ) 1 = .returns ⟨1, 1, 1⟩ := by decide

end Access
end Sumo
