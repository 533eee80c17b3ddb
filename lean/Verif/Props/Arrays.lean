import Verif.Model.Arrays
import Verif.Lemmas.Dict
import Mathlib.Tactic

/-! # C117, C118: meshes and point clouds made of arrays -/

namespace Sumo

/-- The array has this shape and elements, as a user indexes it. -/
def NdArray.Is2 {α : Type} (a : NdArray α) (t : DType) (rows cols : ℕ) (f : ℕ → ℕ → α) : Prop :=
  a.dtype = t ∧ a.shape = [rows, cols] ∧ ∀ i j, i < rows → j < cols → a.elem [i, j] = f i j

/-- The same for one dimension. -/
def NdArray.Is1 {α : Type} (a : NdArray α) (t : DType) (n : ℕ) (f : ℕ → α) : Prop :=
  a.dtype = t ∧ a.shape = [n] ∧ ∀ i, i < n → a.elem [i] = f i

section
variable {K : Type}

theorem vector3fs_of_is2 {a : NdArray K} {t : DType} {n : ℕ} {f : ℕ → ℕ → K} (h : a.Is2 t 3 n f) :
    vector3fsOfArray a = (List.range n).map fun j => ⟨f 0 j, f 1 j, f 2 j⟩ := by
  obtain ⟨-, h2, h3⟩ := h
  simp only [vector3fsOfArray, h2, List.getD_cons_zero, if_true, unraisable, List.getD_cons_succ, NdArray.entry]
  apply List.map_congr_left
  intro j hj
  rw [List.mem_range] at hj
  rw [h3 0 j (by omega) hj, h3 1 j (by omega) hj, h3 2 j (by omega) hj]

theorem array_of_columns [Zero K] (t : DType) (n : ℕ) (f : ℕ → ℕ → K) :
    (arrayOfVector3s t ((List.range n).map fun j => (⟨f 0 j, f 1 j, f 2 j⟩ : Vec3 K))).Is2 t 3 n f := by
  refine ⟨rfl, by simp [arrayOfVector3s], fun i j hi hj => ?_⟩
  have : ((List.range n).map fun j => (⟨f 0 j, f 1 j, f 2 j⟩ : Vec3 K))[j]? = some ⟨f 0 j, f 1 j, f 2 j⟩ := by simp [hj]
  interval_cases i <;> simp only [arrayOfVector3s, List.getD_cons_succ, List.getD_cons_zero, this]

theorem uint32s_of_is1 {a : NdArray ℕ} {t : DType} {n : ℕ} {f : ℕ → ℕ} (h : a.Is1 t n f) :
    uint32sOfArray a = (List.range n).map f := by
  obtain ⟨-, h2, h3⟩ := h
  simp only [uint32sOfArray, h2, List.getD_cons_zero]
  exact List.map_congr_left fun i hi => h3 i (List.mem_range.1 hi)

theorem array_of_range (n : ℕ) (f : ℕ → ℕ) : (arrayOfUint32s ((List.range n).map f)).Is1 .u32 n f := by
  refine ⟨rfl, by simp [arrayOfUint32s], fun i hi => ?_⟩
  simp [arrayOfUint32s, hi]

theorem bufferArg_ok {α : Type} {t : DType} {n : ℕ} {a : NdArray α} : bufferArg t n a = .ok () ↔ a.dtype = t ∧ a.shape.length = n := by
  unfold bufferArg
  split_ifs <;> simp_all

theorem bufferArg_error {α : Type} {t : DType} {n : ℕ} {a : NdArray α} (h : a.dtype ≠ t ∨ a.shape.length ≠ n) :
    bufferArg t n a = .error .valueError := by
  unfold bufferArg
  split_ifs <;> simp_all

/-- C117: a mesh made of a `uint32` vector and two `float32` arrays of three rows and as many columns keeps them: its indices,
vertices and normals are arrays of the same type, shape and elements. -/
theorem C117_kept_partial [Zero K] (indices : NdArray ℕ) (vertices normals : NdArray K) (k n : ℕ) (fi : ℕ → ℕ) (fv fn : ℕ → ℕ → K)
    (hi : indices.Is1 .u32 k fi) (hv : vertices.Is2 .f32 3 n fv) (hn : normals.Is2 .f32 3 n fn) :
    ∃ m, Mesh.ofArrays indices vertices normals = .ok m ∧ m.indicesArray.Is1 .u32 k fi ∧ m.verticesArray.Is2 .f32 3 n fv ∧
      m.normalsArray.Is2 .f32 3 n fn ∧ m.indices.length = k ∧ m.vertices.length = n ∧ m.normals.length = n := by
  refine ⟨⟨uint32sOfArray indices, vector3fsOfArray vertices, vector3fsOfArray normals, .empty⟩, ?_, ?_, ?_, ?_, ?_, ?_, ?_⟩
  · simp only [Mesh.ofArrays, bind, Except.bind, bufferArg_ok.2 ⟨hi.1, show _ = 1 by rw [hi.2.1]; rfl⟩,
      bufferArg_ok.2 ⟨hv.1, show _ = 2 by rw [hv.2.1]; rfl⟩, bufferArg_ok.2 ⟨hn.1, show _ = 2 by rw [hn.2.1]; rfl⟩]
    rw [if_neg (by rw [hv.2.1, hn.2.1]; simp)]
  · simp only [Mesh.indicesArray, uint32s_of_is1 hi]; exact array_of_range k fi
  · simp only [Mesh.verticesArray, vector3fs_of_is2 hv]; exact array_of_columns .f32 n fv
  · simp only [Mesh.normalsArray, vector3fs_of_is2 hn]; exact array_of_columns .f32 n fn
  · simp [uint32s_of_is1 hi]
  · simp [vector3fs_of_is2 hv]
  · simp [vector3fs_of_is2 hn]

/-- C117: the same for a textured mesh, with texture coordinates for at most as many vertices. -/
theorem C117_textured_partial [Zero K] {I : Type} (isEmpty : I → Bool) (indices : NdArray ℕ) (vertices normals uv : NdArray K)
    (bc mr : I) (k n n' : ℕ) (fi : ℕ → ℕ) (fv fn fu : ℕ → ℕ → K) (hi : indices.Is1 .u32 k fi) (hv : vertices.Is2 .f32 3 n fv)
    (hn : normals.Is2 .f32 3 n fn) (hu : uv.Is2 .f32 2 n' fu) (hle : n' ≤ n) :
    ∃ m, TexturedMesh.ofArrays isEmpty indices vertices normals uv bc mr = .ok m ∧ m.indicesArray.Is1 .u32 k fi ∧
      m.verticesArray.Is2 .f32 3 n fv ∧ m.normalsArray.Is2 .f32 3 n fn ∧ m.uvArray.Is2 .f32 2 n' fu ∧ m.baseColor = bc ∧
      m.metallicRoughness = mr := by
  have hu2 : vector2fsOfArray uv = (List.range n').map fun j => (fu 0 j, fu 1 j) := by
    obtain ⟨-, h2, h3⟩ := hu
    simp only [vector2fsOfArray, h2, List.getD_cons_zero, if_true, unraisable, List.getD_cons_succ, NdArray.entry]
    apply List.map_congr_left
    intro j hj
    rw [List.mem_range] at hj
    rw [h3 0 j (by omega) hj, h3 1 j (by omega) hj]
  refine ⟨⟨⟨uint32sOfArray indices, vector3fsOfArray vertices, vector3fsOfArray normals,
    TexturedMesh.defaultMaterial (!isEmpty mr)⟩, vector2fsOfArray uv, bc, mr⟩, ?_, ?_, ?_, ?_, ?_, rfl, rfl⟩
  · simp only [TexturedMesh.ofArrays, bind, Except.bind, bufferArg_ok.2 ⟨hi.1, show _ = 1 by rw [hi.2.1]; rfl⟩,
      bufferArg_ok.2 ⟨hv.1, show _ = 2 by rw [hv.2.1]; rfl⟩, bufferArg_ok.2 ⟨hn.1, show _ = 2 by rw [hn.2.1]; rfl⟩,
      bufferArg_ok.2 ⟨hu.1, show _ = 2 by rw [hu.2.1]; rfl⟩]
    rw [if_neg (by rw [hv.2.1, hn.2.1]; simp), if_neg (by rw [hv.2.1, hu.2.1]; simpa using hle)]
  · simp only [Mesh.indicesArray, uint32s_of_is1 hi]; exact array_of_range k fi
  · simp only [Mesh.verticesArray, vector3fs_of_is2 hv]; exact array_of_columns .f32 n fv
  · simp only [Mesh.normalsArray, vector3fs_of_is2 hn]; exact array_of_columns .f32 n fn
  · simp only [TexturedMesh.uvArray, hu2]
    refine ⟨rfl, by simp [arrayOfVector2s], fun i j hi hj => ?_⟩
    have : ((List.range n').map fun j => (fu 0 j, fu 1 j))[j]? = some (fu 0 j, fu 1 j) := by simp [hj]
    interval_cases i <;> simp only [arrayOfVector2s, List.getD_cons_succ, List.getD_cons_zero, this]

/-- C117: arrays of another element type or number of dimensions are a `ValueError`; different numbers of vertices and normals are
an `AssertionError`. -/
theorem C117_refused (indices : NdArray ℕ) (vertices normals : NdArray K) :
    (indices.dtype ≠ .u32 ∨ indices.shape.length ≠ 1 ∨ vertices.dtype ≠ .f32 ∨ vertices.shape.length ≠ 2 ∨ normals.dtype ≠ .f32 ∨
      normals.shape.length ≠ 2 → Mesh.ofArrays indices vertices normals = .error .valueError) ∧
    (∀ k r c r' c', indices.dtype = .u32 → vertices.dtype = .f32 → normals.dtype = .f32 → indices.shape = [k] →
      vertices.shape = [r, c] → normals.shape = [r', c'] → c ≠ c' → Mesh.ofArrays indices vertices normals = .error .assertionError) := by
  constructor
  · intro h
    simp only [Mesh.ofArrays, bind, Except.bind]
    by_cases h1 : indices.dtype = .u32 ∧ indices.shape.length = 1
    · rw [bufferArg_ok.2 h1]
      by_cases h2 : vertices.dtype = .f32 ∧ vertices.shape.length = 2
      · rw [bufferArg_ok.2 h2]
        rw [bufferArg_error (a := normals)]
        tauto
      · rw [bufferArg_error (a := vertices)]
        tauto
    · rw [bufferArg_error (a := indices)]
      tauto
  · intro k r c r' c' h1 h2 h3 h4 h5 h6 hne
    simp only [Mesh.ofArrays, bind, Except.bind, bufferArg_ok.2 ⟨h1, show _ = 1 by rw [h4]; rfl⟩,
      bufferArg_ok.2 ⟨h2, show _ = 2 by rw [h5]; rfl⟩, bufferArg_ok.2 ⟨h3, show _ = 2 by rw [h6]; rfl⟩]
    rw [if_pos (by rw [h5, h6]; simpa using hne)]

/-- C117 is false of arrays that do not have three rows, as those with one vertex per row: the constructor accepts them, and the
mesh has the indices but no vertex. -/
theorem C117_rows_lost (indices : NdArray ℕ) (vertices normals : NdArray K) (k r c r' : ℕ) (fi : ℕ → ℕ)
    (hi : indices.Is1 .u32 k fi) (hv : vertices.dtype = .f32) (hn : normals.dtype = .f32) (sv : vertices.shape = [r, c])
    (sn : normals.shape = [r', c]) (hr : r ≠ 3) :
    ∃ m, Mesh.ofArrays indices vertices normals = .ok m ∧ m.indices = (List.range k).map fi ∧ m.vertices = [] := by
  refine ⟨⟨uint32sOfArray indices, vector3fsOfArray vertices, vector3fsOfArray normals, .empty⟩, ?_, uint32s_of_is1 hi, ?_⟩
  · simp only [Mesh.ofArrays, bind, Except.bind, bufferArg_ok.2 ⟨hi.1, show _ = 1 by rw [hi.2.1]; rfl⟩,
      bufferArg_ok.2 ⟨hv, show _ = 2 by rw [sv]; rfl⟩, bufferArg_ok.2 ⟨hn, show _ = 2 by rw [sn]; rfl⟩]
    rw [if_neg (by rw [sv, sn]; simp)]
  · simp [vector3fsOfArray, sv, hr, unraisable]

/-- The four corners of a square, one per row. -/
def squareRows : NdArray ℝ := ⟨.f32, [4, 3], fun _ => 1⟩

/-- A triangle. -/
def oneTriangle : NdArray ℕ := ⟨.u32, [3], fun i => i.getD 0 0⟩

/-- C117 is false: four vertices given as rows make a mesh of one triangle without vertices, and asking for its face normals reads
outside the vector of vertices. -/
theorem C117_false : (∃ m, Mesh.ofArrays oneTriangle squareRows squareRows = .ok m ∧ m.indices = [0, 1, 2] ∧ m.vertices = []) ∧
    Mesh.calculateFaceNormals oneTriangle squareRows = .error .undefined := by
  constructor
  · obtain ⟨m, h1, h2, h3⟩ := C117_rows_lost oneTriangle squareRows squareRows 3 4 3 4 (fun i => i)
      ⟨rfl, rfl, fun i _ => rfl⟩ rfl rfl rfl rfl (by omega)
    exact ⟨m, h1, h2, h3⟩
  · simp [Mesh.calculateFaceNormals, bind, Except.bind, bufferArg, oneTriangle, squareRows, vector3fsOfArray, unraisable,
      uint32sOfArray, List.range, List.range.loop, Mesh.faceNormals]

/-- C117: a mesh made of an Open3D mesh has its triangles in order, and its vertices and (given or computed) normals rounded to
single precision. -/
theorem C117_open3d [Zero K] (rnd : K → K) (triangles : List (ℕ × ℕ × ℕ)) (vertices normals computed : List (Vec3 K))
    (hc : computed.length = vertices.length) :
    ∃ m, Mesh.fromOpen3d rnd triangles vertices normals computed = .ok m ∧
      (∀ t i j k, triangles[t]? = some (i, j, k) →
        m.indices[3 * t]? = some i ∧ m.indices[3 * t + 1]? = some j ∧ m.indices[3 * t + 2]? = some k) ∧
      m.indices.length = 3 * triangles.length ∧
      (∀ i : ℕ, m.vertices[i]? = (vertices[i]?).map fun v => ⟨rnd v.x, rnd v.y, rnd v.z⟩) ∧
      (normals.length = vertices.length → ∀ i : ℕ, m.normals[i]? = (normals[i]?).map fun v => ⟨rnd v.x, rnd v.y, rnd v.z⟩) ∧
      (normals.length ≠ vertices.length → ∀ i : ℕ, m.normals[i]? = (computed[i]?).map fun v => ⟨rnd v.x, rnd v.y, rnd v.z⟩) := by
  have key3 : ∀ l : List (Vec3 K), vector3fsOfArray (arrayOfVector3s .f32 l) = l := by
    intro l
    simp only [vector3fsOfArray, arrayOfVector3s, List.getD_cons_zero, if_true, unraisable, List.getD_cons_succ, NdArray.entry]
    apply List.ext_getElem (by simp)
    intro i h1 h2
    simp [h2]
  have key1 : ∀ l : List ℕ, uint32sOfArray (arrayOfUint32s l) = l := by
    intro l
    simp only [uint32sOfArray, arrayOfUint32s, List.getD_cons_zero]
    apply List.ext_getElem (by simp)
    intro i h1 h2
    simp [h2]
  have hb1 : ∀ l : List ℕ, bufferArg .u32 1 (arrayOfUint32s l) = .ok () := fun l => bufferArg_ok.2 ⟨rfl, rfl⟩
  have hb3 : ∀ l : List (Vec3 K), bufferArg .f32 2 (arrayOfVector3s .f32 l) = .ok () := fun l => bufferArg_ok.2 ⟨rfl, rfl⟩
  have hl : ((if normals.length ≠ vertices.length then computed else normals)).length = vertices.length := by
    split_ifs with h
    · exact hc
    · push Not at h; exact h
  refine ⟨⟨triangles.flatMap fun t => [t.1, t.2.1, t.2.2], vertices.map fun v => ⟨rnd v.x, rnd v.y, rnd v.z⟩,
    (if normals.length ≠ vertices.length then computed else normals).map fun v => ⟨rnd v.x, rnd v.y, rnd v.z⟩, .empty⟩, ?_, ?_, ?_,
    fun i => by simp, fun h i => by simp [h], fun h i => by simp [h]⟩
  · simp only [Mesh.fromOpen3d, Mesh.ofArrays, bind, Except.bind, hb1, hb3, key1, key3]
    rw [if_neg (by simp only [arrayOfVector3s, List.getD_cons_succ, List.getD_cons_zero, List.length_map, hl]; simp)]
  · have : ∀ (l : List (ℕ × ℕ × ℕ)) (t i j k : ℕ), l[t]? = some (i, j, k) →
        (l.flatMap fun t => [t.1, t.2.1, t.2.2])[3 * t]? = some i ∧ (l.flatMap fun t => [t.1, t.2.1, t.2.2])[3 * t + 1]? = some j ∧
          (l.flatMap fun t => [t.1, t.2.1, t.2.2])[3 * t + 2]? = some k := by
      intro l
      induction l with
      | nil => intro t i j k h; simp at h
      | cons x l ih =>
        intro t i j k h
        cases t with
        | zero => simp at h; subst h; simp
        | succ t =>
          have := ih t i j k (by simpa using h)
          simpa [List.flatMap_cons, show 3 * (t + 1) = 3 * t + 1 + 1 + 1 by ring] using this
    exact this triangles
  · simp [List.length_flatMap, mul_comm]
end

/-- C118: a point cloud made of a 3×n array of points and a 3×n array of colours has those points and, of each colour entry, the
integer part, provided that all are from 0 to 255. -/
theorem C118_kept_partial {K : Type} (points : NdArray K) (colors : NdArray NumVal) (n : ℕ) (hp : points.shape = [3, n])
    (hc : colors.shape = [3, n]) (col : ℕ → ℕ → ℕ)
    (hcol : ∀ i j, i < 3 → j < n → ∃ z, (colors.elem [i, j] = .int z ∨ ∃ q : ℚ, colors.elem [i, j] = .real q ∧ |(z : ℚ)| ≤ |q| ∧
      |q| < |(z : ℚ)| + 1 ∧ 0 ≤ z * q) ∧ z = col i j ∧ col i j ≤ 255) :
    ∃ c, PointCloud.ofArrays (some points) (some colors) = .ok c ∧ c.points.length = n ∧ c.colors.length = n ∧
      ∀ j < n, c.points[j]? = some ⟨points.elem [0, j], points.elem [1, j], points.elem [2, j]⟩ ∧
        c.colors[j]? = some ⟨col 0 j, col 1 j, col 2 j⟩ := by
  have hb : ∀ i j, i < 3 → j < n → (colors.elem [i, j]).toByte = some (col i j) := by
    intro i j hi hj
    obtain ⟨z, h1, h2, h3⟩ := hcol i j hi hj
    have h4 : (colors.elem [i, j]).toInt = some z := by
      rcases h1 with h1 | ⟨q, h1, h5, h6, h7⟩
      · rw [h1]; rfl
      · rw [h1]
        have hz : (0 : ℚ) ≤ z := by rw [h2]; simp
        rw [abs_of_nonneg hz] at h5 h6
        simp only [NumVal.toInt, Option.some.injEq]
        split_ifs with hq
        · rw [abs_of_nonneg hq] at h5 h6
          exact Int.floor_eq_iff.2 ⟨h5, h6⟩
        · push Not at hq
          rw [abs_of_neg hq] at h5 h6
          have : (z : ℚ) = 0 := by
            by_contra hne
            have : 0 < (z : ℚ) := lt_of_le_of_ne hz (Ne.symm hne)
            nlinarith
          rw [this] at h6
          exact Int.ceil_eq_iff.2 ⟨by linarith, by linarith⟩
    unfold NumVal.toByte
    rw [h4]
    simp only [Option.bind_eq_bind, Option.bind_some]
    rw [if_pos (by constructor <;> omega), h2]
    simp
  refine ⟨⟨(List.range n).map fun j => ⟨points.elem [0, j], points.elem [1, j], points.elem [2, j]⟩, colorsOfArray colors⟩,
    by simp [PointCloud.ofArrays, bind, Except.bind, hp, hc, NdArray.entry], by simp, by simp [colorsOfArray, hc], fun j hj => ⟨by simp [hj], ?_⟩⟩
  simp [colorsOfArray, hc, hj, colorOfNumpy, NdArray.entry, hb 0 j (by omega) hj, hb 1 j (by omega) hj, hb 2 j (by omega) hj, unraisable]

/-- C118: points must be a 3×n array, and colours an array of the same shape: otherwise an `AssertionError`; colours without points
are an `AttributeError`. -/
theorem C118_refused {K : Type} (points : NdArray K) (colors : NdArray NumVal) :
    ((∀ n, points.shape ≠ [3, n]) → ∀ c, PointCloud.ofArrays (some points) c = .error .assertionError) ∧
    (∀ n, points.shape = [3, n] → colors.shape ≠ [3, n] → PointCloud.ofArrays (some points) (some colors) = .error .assertionError) ∧
    PointCloud.ofArrays (K := K) none (some colors) = .error .attributeError := by
  refine ⟨fun h c => ?_, fun n h1 h2 => ?_, rfl⟩
  · simp only [PointCloud.ofArrays, bind, Except.bind]
    by_cases h1 : points.shape.length ≠ 2
    · rw [if_pos h1]
    · rw [if_neg h1]
      push Not at h1
      obtain ⟨a, b, e⟩ := List.length_eq_two.1 h1
      rw [if_pos]
      rw [e]
      intro ha
      exact h b (by rw [e]; simpa using ha)
  · simp [PointCloud.ofArrays, bind, Except.bind, h1, Ne.symm h2]

/-- C118: a cloud without colours. -/
theorem C118_plain {K : Type} (points : NdArray K) (n : ℕ) (hp : points.shape = [3, n]) :
    ∃ c, PointCloud.ofArrays (some points) none = .ok c ∧ c.colors = [] ∧ c.points.length = n ∧
      ∀ j < n, c.points[j]? = some ⟨points.elem [0, j], points.elem [1, j], points.elem [2, j]⟩ :=
  ⟨⟨(List.range n).map fun j => ⟨points.elem [0, j], points.elem [1, j], points.elem [2, j]⟩, []⟩,
    by simp [PointCloud.ofArrays, bind, Except.bind, hp, NdArray.entry], rfl, by simp, fun j hj => by simp [hj]⟩

/-- C118 is false of colours with an entry outside 0 to 255 (or not a number): that colour silently becomes black. -/
theorem C118_black {K : Type} (points : NdArray K) (colors : NdArray NumVal) (n : ℕ) (hp : points.shape = [3, n])
    (hc : colors.shape = [3, n]) (i j : ℕ) (hi : i < 3) (hj : j < n)
    (hbad : colors.elem [i, j] = .nan ∨ colors.elem [i, j] = .inf ∨ (∃ z : ℤ, colors.elem [i, j] = .int z ∧ (z < 0 ∨ 255 < z)) ∨
      ∃ q : ℚ, colors.elem [i, j] = .real q ∧ (q ≤ -1 ∨ 256 ≤ q)) :
    ∃ c, PointCloud.ofArrays (some points) (some colors) = .ok c ∧ c.colors[j]? = some ⟨0, 0, 0⟩ := by
  have hb : (colors.elem [i, j]).toByte = none := by
    unfold NumVal.toByte
    rcases hbad with h | h | ⟨z, h, h'⟩ | ⟨q, h, h'⟩
    · rw [h]; rfl
    · rw [h]; rfl
    · rw [h]
      simp only [NumVal.toInt, Option.bind_eq_bind, Option.bind_some]
      rw [if_neg (by omega)]
    · rw [h]
      simp only [NumVal.toInt, Option.bind_eq_bind, Option.bind_some]
      rw [if_neg]
      rintro ⟨h1, h2⟩
      rcases h' with h' | h'
      · rw [if_neg (by linarith)] at h1
        have h3 : ⌈q⌉ ≤ -1 := Int.ceil_le.2 (by push_cast; exact h')
        omega
      · rw [if_pos (by linarith)] at h2
        have h3 : 256 ≤ ⌊q⌋ := Int.le_floor.2 (by push_cast; exact h')
        omega
  refine ⟨⟨(List.range n).map fun j => ⟨points.elem [0, j], points.elem [1, j], points.elem [2, j]⟩, colorsOfArray colors⟩,
    by simp [PointCloud.ofArrays, bind, Except.bind, hp, hc, NdArray.entry], ?_⟩
  simp only [colorsOfArray, hc, List.getD_cons_succ, List.getD_cons_zero, List.getElem?_map, List.getElem?_range hj, Option.map_some,
    colorOfNumpy, NdArray.entry, Option.bind_eq_bind]
  interval_cases i
  · rw [hb]; rfl
  · rw [hb]; cases (colors.elem [0, j]).toByte <;> rfl
  · rw [hb]; cases (colors.elem [0, j]).toByte <;> cases (colors.elem [1, j]).toByte <;> rfl

/-- One point. -/
def onePoint : NdArray ℚ := ⟨.f64, [3, 1], fun _ => 7⟩

/-- C118 is false: the colour (255, 255, 256) becomes black. -/
theorem C118_false : ∃ colors : NdArray NumVal, colors.elem [0, 0] = .int 255 ∧ colors.elem [1, 0] = .int 255 ∧
    ∃ c, PointCloud.ofArrays (some onePoint) (some colors) = .ok c ∧ c.colors = [⟨0, 0, 0⟩] :=
  ⟨⟨.other, [3, 1], fun i => if i = [2, 0] then .int 256 else .int 255⟩, rfl, rfl, _, rfl, rfl⟩

/-- Non-vacuity of `C118_kept_partial`: an integer, a positive and a negative fraction. -/
example : ∃ colors : NdArray NumVal, colors.elem [0, 0] = .int 200 ∧ colors.elem [1, 0] = .real (5 / 2) ∧
    colors.elem [2, 0] = .real (-1 / 2) ∧ ∃ c, PointCloud.ofArrays (some onePoint) (some colors) = .ok c ∧
    c.colors = [⟨200, 2, 0⟩] ∧ c.points = [⟨7, 7, 7⟩] := by
  refine ⟨⟨.other, [3, 1], fun i => if i = [0, 0] then .int 200 else if i = [1, 0] then .real (5 / 2) else .real (-1 / 2)⟩,
    rfl, rfl, rfl, _, rfl, ?_, rfl⟩
  decide +kernel

/-- Non-vacuity of `C117_kept_partial` and `C117_textured_partial`: a triangle. -/
example : ∃ m, Mesh.ofArrays oneTriangle (⟨.f32, [3, 3], fun i => if i = [0, 1] then (1 : ℚ) else if i = [1, 2] then 2 else 0⟩)
    ⟨.f32, [3, 3], fun i => if i.getD 0 0 = 2 then 1 else 0⟩ = .ok m ∧ m.indices = [0, 1, 2] ∧
    m.vertices = [⟨0, 0, 0⟩, ⟨1, 0, 0⟩, ⟨0, 2, 0⟩] ∧ m.normals = [⟨0, 0, 1⟩, ⟨0, 0, 1⟩, ⟨0, 0, 1⟩] :=
  ⟨_, rfl, by decide, by decide +kernel, by decide +kernel⟩

/-- Non-vacuity of `C117_open3d`: a mesh without normals. -/
example : ∃ m, Mesh.fromOpen3d (K := ℚ) (fun q => q) [(0, 1, 2), (2, 1, 3)] [0, ⟨1, 0, 0⟩, ⟨0, 1, 0⟩, ⟨1, 1, 0⟩] []
    [⟨0, 0, 1⟩, ⟨0, 0, 1⟩, ⟨0, 0, 1⟩, ⟨0, 0, 1⟩] = .ok m ∧ m.indices = [0, 1, 2, 2, 1, 3] ∧ m.normals.length = 4 :=
  ⟨_, rfl, by decide, by decide⟩


end Sumo
