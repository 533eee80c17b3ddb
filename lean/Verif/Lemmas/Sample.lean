import Verif.Spec.Sample
import Verif.Lemmas.PointCloud
import Verif.Props.PointCloud
import Mathlib.Analysis.Real.Sqrt
import Mathlib.Tactic.Positivity
import Mathlib.Tactic.Linarith
import Mathlib.Tactic.FieldSimp

/-! # Lemmas about sampling -/

namespace Sumo

theorem everyThird_cons {α : Type} (a : α) (l : List α) : everyThird (a :: l) = a :: everyThird (l.drop 2) := by
  rw [everyThird]

/-- The three strided slices are the three corners of the triangles. -/
theorem everyThird_triples {α : Type} : ∀ (n : ℕ) (l : List α), l.length = 3 * n →
    everyThird l = (MeshSpec.triples l).map (·.1) ∧ everyThird (l.drop 1) = (MeshSpec.triples l).map (·.2.1) ∧
      everyThird (l.drop 2) = (MeshSpec.triples l).map (·.2.2) ∧ (MeshSpec.triples l).length = n := by
  intro n
  induction n with
  | zero =>
    intro l hl
    have : l = [] := List.length_eq_zero_iff.1 (by omega)
    subst this
    simp [MeshSpec.triples, everyThird]
  | succ n ih =>
    intro l hl
    match l, hl with
    | a :: b :: c :: rest, hl =>
      simp only [List.length_cons] at hl
      obtain ⟨h1, h2, h3, h4⟩ := ih rest (by omega)
      simp only [MeshSpec.triples, List.map_cons, List.length_cons, List.drop_succ_cons, List.drop_zero, h4, and_true]
      rw [everyThird_cons, everyThird_cons, everyThird_cons]
      simp only [List.drop_succ_cons, List.drop_zero]
      rw [h1, h2, h3]
      exact ⟨rfl, rfl, rfl⟩

theorem broadcast_eq {α β γ : Type} (f : α → β → γ) (xs : List α) (ys : List β) (h : xs.length = ys.length) :
    broadcast f xs ys = .ok (List.zipWith f xs ys) := by
  unfold broadcast; rw [if_pos h]

theorem triangleArea_eq (a b c : Vec3 ℝ) :
    (let v := (a - c).cross (b - c); 1 / 2 * Real.sqrt (v.x ^ 2 + v.y ^ 2 + v.z ^ 2)) = triangleArea a b c := by
  unfold triangleArea Vec3.norm Vec3.normSq Vec3.dot
  have : ((b - a).cross (c - a)) = (a - c).cross (b - c) := by
    ext <;> simp [Vec3.cross] <;> ring
  rw [this]
  simp only [pow_two]
  ring

theorem zipWith_map_map {α β γ δ : Type} (f : β → γ → δ) (g : α → β) (h : α → γ) (l : List α) :
    List.zipWith f (l.map g) (l.map h) = l.map fun a => f (g a) (h a) := by
  induction l with
  | nil => rfl
  | cons a l ih => simp [ih]

theorem faceAreas_ok (T : List (ColorPoint × ColorPoint × ColorPoint)) :
    faceAreas (T.map (·.1)) (T.map (·.2.1)) (T.map (·.2.2)) =
      .ok (T.map fun t => triangleArea t.1.pos t.2.1.pos t.2.2.pos) := by
  unfold faceAreas
  rw [broadcast_eq _ _ _ (by simp), broadcast_eq _ _ _ (by simp)]
  simp only [bind, Except.bind]
  rw [zipWith_map_map, zipWith_map_map, broadcast_eq _ _ _ (by simp), zipWith_map_map]
  simp only [pure, Except.pure, List.map_map, Function.comp_def]
  congr 2
  funext t
  exact triangleArea_eq _ _ _

theorem triangleArea_nonneg (a b c : Vec3 ℝ) : 0 ≤ triangleArea a b c := by
  unfold triangleArea Vec3.norm; positivity

theorem clip_count (x : ℝ) : (max (astypeInt x) 1).toNat = max 1 ⌊x⌋₊ := by
  unfold astypeInt
  split_ifs with h
  · rw [← Int.natCast_floor_eq_floor h]
    omega
  · have h0 : ⌊x⌋₊ = 0 := Nat.floor_of_nonpos (by linarith)
    have h1 : ⌈x⌉ ≤ 0 := Int.ceil_le.2 (by push_cast; linarith)
    rw [h0]
    omega

theorem maximum_count (x : ℝ) : (astypeInt (max 1 x)).toNat = max 1 ⌊x⌋₊ := by
  unfold astypeInt
  rw [if_pos (le_max_of_le_left zero_le_one)]
  rcases le_total 1 x with h | h
  · rw [max_eq_right h, ← Int.natCast_floor_eq_floor (by linarith), Int.toNat_natCast]
    exact (max_eq_right (Nat.le_floor (by simpa using h))).symm
  · rw [max_eq_left h]
    simp only [Int.floor_one, Int.toNat_one]
    refine (max_eq_left ?_).symm
    exact Nat.floor_le_one_of_le_one h

theorem counts_eq (density : ℝ) (areas : List ℝ) : clipCounts density areas = maximumCounts density areas := by
  unfold clipCounts maximumCounts
  congr 1
  funext a
  rw [clip_count, maximum_count]

/-- What `face_ids` must be: every face number repeated. -/
def repeated : List ℕ → ℕ → List ℕ
  | [], _ => []
  | n :: rest, i => List.replicate n i ++ repeated rest (i + 1)

theorem repeated_length (counts : List ℕ) (i : ℕ) : (repeated counts i).length = counts.sum := by
  induction counts generalizing i with
  | nil => rfl
  | cons n rest ih => simp [repeated, ih]

theorem fillFaceIds_eq : ∀ (counts : List ℕ) (done : List ℕ) (i : ℕ),
    fillFaceIds (done ++ List.replicate counts.sum 0) done.length i counts = done ++ repeated counts i := by
  intro counts
  induction counts with
  | nil => intro done i; simp [fillFaceIds, repeated]
  | cons n rest ih =>
    intro done i
    have h : setSlice (done ++ List.replicate (n :: rest).sum 0) done.length n i =
        (done ++ List.replicate n i) ++ List.replicate rest.sum 0 := by
      unfold setSlice
      simp only [List.length_append, List.length_replicate, List.sum_cons]
      rw [List.take_left, List.drop_append]
      simp only [List.drop_replicate]
      have e1 : min (done.length + n) (done.length + (n + rest.sum)) - done.length = n := by omega
      have e2 : n + rest.sum - (done.length + n - done.length) = rest.sum := by omega
      have e3 : List.drop (done.length + n) done = [] := List.drop_eq_nil_of_le (by omega)
      rw [e1, e2, e3, List.nil_append]
    rw [fillFaceIds, h]
    have := ih (done ++ List.replicate n i) (i + 1)
    rw [List.length_append, List.length_replicate] at this
    rw [this, repeated, List.append_assoc]

theorem faceIds_eq (counts : List ℕ) : faceIds counts = repeated counts 0 := by
  have := fillFaceIds_eq counts [] 0
  simpa [faceIds] using this

/-- Selecting with repeated indices repeats the elements. -/
theorem select_repeated {α : Type} : ∀ (counts : List ℕ) (pre l : List α), counts.length = l.length →
    PointCloud.select (pre ++ l) (repeated counts pre.length) =
      .ok ((List.zip counts l).flatMap fun p => List.replicate p.1 p.2) := by
  intro counts
  induction counts with
  | nil => intro pre l _; simp [repeated, PointCloud.select]; rfl
  | cons n rest ih =>
    intro pre l hl
    cases l with
    | nil => simp at hl
    | cons a l =>
      have h := ih (pre ++ [a]) l (by simpa using hl)
      simp only [List.append_assoc, List.singleton_append, List.length_append, List.length_singleton] at h
      simp only [repeated, List.zip_cons_cons, List.flatMap_cons]
      have hget : (pre ++ a :: l)[pre.length]? = some a := by simp
      induction n with
      | zero => simpa using h
      | succ n ihn =>
        rw [List.replicate_succ, List.cons_append]
        unfold PointCloud.select at ihn ⊢
        rw [List.mapM_cons, hget, ihn (by simpa using hl)]
        rfl

theorem select_faceIds {α : Type} (counts : List ℕ) (l : List α) (h : counts.length = l.length) :
    PointCloud.select l (faceIds counts) = .ok ((List.zip counts l).flatMap fun p => List.replicate p.1 p.2) := by
  rw [faceIds_eq]
  simpa using select_repeated counts [] l h

theorem zip_flatMap_replicate {α β : Type} : ∀ (l : List (ℕ × α × β)),
    List.zip (l.flatMap fun p => List.replicate p.1 p.2.1) (l.flatMap fun p => List.replicate p.1 p.2.2) =
      l.flatMap fun p => List.replicate p.1 p.2 := by
  intro l
  induction l with
  | nil => rfl
  | cons p l ih =>
    simp only [List.flatMap_cons]
    rw [List.zip_append (by simp), ih, List.zip_replicate']

theorem samplePoint_in (a b c : ColorPoint) (r : ℝ × ℝ) (h0 : 0 ≤ r.1 ∧ r.1 ≤ 1) (h1 : 0 ≤ r.2 ∧ r.2 ≤ 1) :
    InTriangle a b c (samplePoint a b c r) := by
  have hs0 := Real.sqrt_nonneg r.1
  have hs1 : Real.sqrt r.1 ≤ 1 := Real.sqrt_le_one.2 h0.2
  refine ⟨1 - Real.sqrt r.1, Real.sqrt r.1 * (1 - r.2), Real.sqrt r.1 * r.2, by linarith,
    mul_nonneg hs0 (by linarith), mul_nonneg hs0 h1.1, by ring, rfl, rfl⟩

/-- A list split into the blocks of its repeated elements. -/
theorem blocks_of_repeat {α : Type} (f : α → ℕ → ColorPoint) (P : α → ColorPoint → Prop)
    (hP : ∀ a k, P a (f a k)) : ∀ (l : List (ℕ × α)) (start : ℕ),
    ∃ blocks, (((l.flatMap fun p => List.replicate p.1 p.2).zipIdx start).map fun q => f q.1 q.2) = blocks.flatten ∧
      List.Forall₂ (fun p block => block.length = p.1 ∧ ∀ s ∈ block, P p.2 s) l blocks := by
  intro l
  induction l with
  | nil => intro start; exact ⟨[], rfl, .nil⟩
  | cons p l ih =>
    intro start
    obtain ⟨blocks, h1, h2⟩ := ih (start + p.1)
    refine ⟨(((List.replicate p.1 p.2).zipIdx start).map fun q => f q.1 q.2) :: blocks, ?_, .cons ⟨by simp, ?_⟩ h2⟩
    · simp only [List.flatMap_cons, List.zipIdx_append, List.map_append, List.length_replicate, List.flatten_cons, h1]
    · intro s hs
      obtain ⟨q, hq, rfl⟩ := List.mem_map.1 hs
      have : q.1 = p.2 := by
        have := List.fst_mem_of_mem_zipIdx hq
        exact List.eq_of_mem_replicate this
      rw [this]
      exact hP _ _

/-- The rows drawn for complete triangles. -/
theorem drawSamples_ok (rnd : ℕ → ℝ × ℝ) (T : List (ColorPoint × ColorPoint × ColorPoint)) (counts : List ℕ)
    (h : counts.length = T.length) :
    drawSamples rnd (T.map (·.1)) (T.map (·.2.1)) (T.map (·.2.2)) (faceIds counts) =
      .ok ((((List.zip counts T).flatMap fun p => List.replicate p.1 p.2).zipIdx).map
        fun p => samplePoint p.1.1 p.1.2.1 p.1.2.2 (rnd p.2)) := by
  unfold drawSamples
  rw [select_faceIds _ _ (by simpa using h), select_faceIds _ _ (by simpa using h), select_faceIds _ _ (by simpa using h)]
  simp only [bind, Except.bind, pure, Except.pure]
  have key : ∀ {β : Type} (g : ColorPoint × ColorPoint × ColorPoint → β),
      ((List.zip counts (T.map g)).flatMap fun p => List.replicate p.1 p.2) =
        (List.zip counts T).flatMap fun p => List.replicate p.1 (g p.2) := by
    intro β g
    rw [List.zip_map_right, List.flatMap_map]
    rfl
  rw [key, key, key]
  have z1 := zip_flatMap_replicate ((List.zip counts T).map fun p => (p.1, p.2.2.1, p.2.2.2))
  have z2 := zip_flatMap_replicate ((List.zip counts T).map fun p => (p.1, p.2.1, (p.2.2.1, p.2.2.2)))
  simp only [List.flatMap_map] at z1 z2
  rw [z1, z2]

/-- Sampling complete triangles. -/
theorem sampleMesh_ok (rnd : ℕ → ℝ × ℝ) (faces : List ColorPoint) (density : ℝ) (h3 : 3 ∣ faces.length) :
    sampleMesh rnd faces density =
      .ok ((((List.zip ((MeshSpec.triples faces).map fun t => max 1 ⌊density * triangleArea t.1.pos t.2.1.pos t.2.2.pos⌋₊)
        (MeshSpec.triples faces)).flatMap fun p => List.replicate p.1 p.2).zipIdx).map
        fun p => samplePoint p.1.1 p.1.2.1 p.1.2.2 (rnd p.2)) := by
  obtain ⟨n, hn⟩ := h3
  obtain ⟨h1, h2, h3, -⟩ := everyThird_triples n faces hn
  unfold sampleMesh
  simp only [h1, h2, h3]
  rw [faceAreas_ok]
  simp only [bind, Except.bind]
  rw [drawSamples_ok _ _ _ (by simp [clipCounts])]
  simp only [clipCounts, List.map_map, Function.comp_def, clip_count]

/-- The other sampler on complete triangles. -/
theorem sampleMesh'_ok (rnd : ℕ → ℝ × ℝ) (faces : List ColorPoint) (density : ℝ) (h3 : 3 ∣ faces.length) :
    sampleMesh' rnd faces density = if faces = [] then .ok .empty3 else (sampleMesh rnd faces density).map .rows6 := by
  have hs := sampleMesh_ok rnd faces density h3
  obtain ⟨n, hn⟩ := h3
  obtain ⟨h1, h2, h3, h4⟩ := everyThird_triples n faces hn
  rw [hs]
  unfold sampleMesh'
  simp only [h1, h2, h3]
  rw [faceAreas_ok]
  simp only [bind, Except.bind]
  by_cases hf : faces = []
  · subst hf
    rw [if_pos rfl, if_pos]
    · rfl
    · simp [maximumCounts, MeshSpec.triples]
  · rw [if_neg hf, if_neg]
    · rw [drawSamples_ok _ _ _ (by simp [maximumCounts])]
      simp only [maximumCounts, List.map_map, Function.comp_def, maximum_count]
      rfl
    · intro h0
      rw [List.sum_eq_zero_iff] at h0
      cases hT : MeshSpec.triples faces with
      | nil =>
        rw [hT] at h4
        simp only [List.length_nil] at h4
        exact hf (List.length_eq_zero_iff.1 (by omega))
      | cons t T =>
        have := h0 (max 1 ⌊density * triangleArea t.1.pos t.2.1.pos t.2.2.pos⌋₊) (by
          simp only [maximumCounts, List.map_map, Function.comp_def, maximum_count, hT, List.map_cons, List.mem_cons, true_or])
        omega

theorem texel_ok (img : RgbImage) (hr : img.rows ≠ 0) (hc : img.cols ≠ 0) (uv : ℝ × ℝ) :
    texel img uv = .ok (texelVU img uv.1 uv.2) := by
  have hr' : (0 : ℤ) < img.rows := by positivity
  have hc' : (0 : ℤ) < img.cols := by positivity
  unfold texel texelVU wrap
  rw [if_pos ⟨Int.emod_nonneg _ hr'.ne', Int.emod_lt_of_pos _ hr', Int.emod_nonneg _ hc'.ne', Int.emod_lt_of_pos _ hc'⟩]

theorem mapM_texel (img : RgbImage) (hr : img.rows ≠ 0) (hc : img.cols ≠ 0) (l : List (ℝ × ℝ)) :
    l.mapM (texel img) = .ok (l.map fun uv => texelVU img uv.1 uv.2) := by
  induction l with
  | nil => rfl
  | cons a l ih =>
    rw [List.mapM_cons, texel_ok img hr hc, ih]
    rfl

/-- Combining the positions and colours. -/
theorem zipWith_forall₂ {P : ℕ → Vec3 ℝ → Prop} {Q : ℕ → Vec3 ℝ → Prop} {idx : List ℕ} {vs cs : List (Vec3 ℝ)}
    (h1 : List.Forall₂ P idx vs) (h2 : List.Forall₂ Q idx cs) :
    List.Forall₂ (fun i (p : ColorPoint) => P i p.pos ∧ Q i p.color) idx (List.zipWith ColorPoint.mk vs cs) := by
  induction h1 generalizing cs with
  | nil => simp
  | cons h _ ih =>
    cases h2 with
    | cons h' h2 => exact .cons ⟨h, h'⟩ (ih h2)

theorem forall₂_replicate {Q : ℕ → Vec3 ℝ → Prop} (c : Vec3 ℝ) (idx : List ℕ) (h : ∀ i ∈ idx, Q i c) :
    List.Forall₂ Q idx (List.replicate idx.length c) := by
  induction idx with
  | nil => exact .nil
  | cons i idx ih => exact .cons (h i (by simp)) (ih fun j hj => h j (by simp [hj]))

/-- The colours of a proper mesh. -/
theorem meshColors_ok (m : PrimMesh) (h : ProperMesh m) :
    ∃ cs, meshColors m = .ok cs ∧ List.Forall₂ (VertexColor texelVU m) m.indices cs := by
  cases m with
  | plain m =>
    exact ⟨_, rfl, forall₂_replicate _ _ fun i _ => rfl⟩
  | textured m =>
    unfold meshColors VertexColor
    dsimp only [PrimMesh.indices]
    by_cases he : m.baseColor.rows = 0 ∨ m.baseColor.cols = 0
    · simp only [if_pos he]
      exact ⟨_, rfl, forall₂_replicate _ _ fun i _ => rfl⟩
    · simp only [if_neg he]
      rw [not_or] at he
      obtain ⟨uv, h1, h2⟩ := select_ok m.uvCoords m.indices (by
        intro i hi
        rw [h.2.2.1]
        exact h.2.2.2 i hi)
      refine ⟨uv.map fun uv => texelVU m.baseColor uv.1 uv.2, ?_, ?_⟩
      · rw [h1]
        exact mapM_texel _ he.1 he.2 uv
      · rw [List.forall₂_map_right_iff]
        exact h2.imp fun i p hp => ⟨p.1, p.2, hp, rfl⟩

/-- The rows for a proper mesh: one per corner. -/
theorem meshFaces_ok (m : PrimMesh) (h : ProperMesh m) :
    ∃ fs, meshFaces m = .ok fs ∧
      List.Forall₂ (fun i (p : ColorPoint) => m.vertices[i]? = some p.pos ∧ VertexColor texelVU m i p.color) m.indices fs := by
  obtain ⟨vs, h1, h2⟩ := select_ok m.vertices m.indices (by
    intro i hi
    cases m with
    | plain m => exact h.2.2 i hi
    | textured m => exact h.2.2.2 i hi)
  obtain ⟨cs, h3, h4⟩ := meshColors_ok m h
  refine ⟨List.zipWith ColorPoint.mk vs cs, ?_, zipWith_forall₂ h2 h4⟩
  unfold meshFaces
  rw [h1, h3]
  rfl

/-- Transforming a proper mesh. -/
theorem primTransform_ok (m : PrimMesh) (h : ProperMesh m) (T : Pose3 ℝ) :
    ∃ p, m.transform T = .ok p ∧ ProperMesh p ∧ p.indices = m.indices ∧ p.vertices = m.vertices.map T.transformFrom ∧
      ∀ f i c, VertexColor f p i c ↔ VertexColor f m i c := by
  cases m with
  | plain m =>
    obtain ⟨h1, h2, h3⟩ := h
    refine ⟨.plain ⟨m.indices, T.transformAllFrom m.vertices, T.R.applyAll m.normals, .empty⟩, ?_, ?_, rfl,
      transformAllFrom_eq _ _, fun _ _ _ => Iff.rfl⟩
    · unfold PrimMesh.transform Mesh.transform Mesh.create
      dsimp only
      rw [if_pos (by simp [transformAllFrom_eq, Rot3.applyAll, h2])]
      rfl
    · exact ⟨h1, by simp [transformAllFrom_eq, Rot3.applyAll, h2], by simpa [transformAllFrom_eq] using h3⟩
  | textured m =>
    obtain ⟨h1, h2, h3, h4⟩ := h
    refine ⟨.textured ⟨⟨m.indices, T.transformAllFrom m.vertices, T.R.applyAll m.normals,
      TexturedMesh.defaultMaterial (!RgbImage.isEmpty m.metallicRoughness)⟩, m.uvCoords, m.baseColor, m.metallicRoughness⟩,
      ?_, ?_, rfl, transformAllFrom_eq _ _, fun _ _ _ => Iff.rfl⟩
    · unfold PrimMesh.transform TexturedMesh.transform TexturedMesh.create
      dsimp only
      rw [if_neg (by simp [transformAllFrom_eq, Rot3.applyAll, h2]), if_neg (by simp [transformAllFrom_eq, h3])]
      rfl
    · exact ⟨h1, by simp [transformAllFrom_eq, Rot3.applyAll, h2], by simp [transformAllFrom_eq, h3],
        by simpa [transformAllFrom_eq] using h4⟩

theorem forall₂_pair {α β γ : Type} {R : α × β → γ → Prop} (a : α) {l : List β} {l' : List γ}
    (h : List.Forall₂ (fun b c => R (a, b) c) l l') : List.Forall₂ R (l.map fun b => (a, b)) l' := by
  rw [List.forall₂_map_left_iff]
  exact h

/-- The rows for all meshes. -/
theorem elementFaces_ok (pose : Pose3 ℝ) : ∀ (meshes : List PrimMesh), (∀ m ∈ meshes, ProperMesh m) →
    ∃ fs, elementFaces pose meshes = .ok fs ∧ 3 ∣ fs.length ∧
      List.Forall₂ (fun c p => PosedVertex texelVU pose c.1 c.2 p) (allCorners meshes) fs := by
  intro meshes
  induction meshes with
  | nil => intro _; exact ⟨[], rfl, by simp, .nil⟩
  | cons m meshes ih =>
    intro h
    obtain ⟨fs, h1, h2, h3⟩ := ih fun m' hm' => h m' (by simp [hm'])
    obtain ⟨p, hp, hpp, hpi, hpv, hpc⟩ := primTransform_ok m (h m (by simp)) pose
    obtain ⟨gs, h4, h5⟩ := meshFaces_ok p hpp
    refine ⟨gs ++ fs, ?_, ?_, ?_⟩
    · rw [elementFaces, hp]
      simp only [bind, Except.bind, h4, h1, pure, Except.pure]
    · rw [List.length_append, ← h5.length_eq]
      refine Nat.dvd_add ?_ h2
      cases p with
      | plain p => exact hpp.1
      | textured p => exact hpp.1
    · unfold allCorners at h3 ⊢
      rw [List.flatMap_cons]
      refine List.rel_append (forall₂_pair m ?_) h3
      rw [← hpi]
      refine h5.imp fun i q hq => ⟨?_, (hpc _ _ _).1 hq.2⟩
      have := hq.1
      rw [hpv, List.getElem?_map] at this
      cases hv : m.vertices[i]? with
      | none => rw [hv] at this; cases this
      | some v =>
        rw [hv] at this
        simp only [Option.map_some, Option.some.injEq] at this
        exact ⟨v, rfl, this.symm⟩

/-- The rows for all meshes of a model. -/
theorem modelFaces_eq : ∀ (meshes : List PrimMesh), (∀ m ∈ meshes, ProperMesh m) →
    modelFaces meshes = elementFaces Pose3.identity meshes := by
  intro meshes
  induction meshes with
  | nil => intro _; rfl
  | cons m meshes ih =>
    intro h
    have ih := ih fun m' hm' => h m' (by simp [hm'])
    rw [modelFaces, elementFaces, ih]
    obtain ⟨p, hp, hpp, hpi, hpv, hpc⟩ := primTransform_ok m (h m (by simp)) Pose3.identity
    have hid : ∀ l : List (Vec3 ℝ), (Pose3.identity : Pose3 ℝ).transformAllFrom l = l := by
      intro l
      rw [transformAllFrom_eq]
      have : (Pose3.identity : Pose3 ℝ).transformFrom = id := by
        funext v
        unfold Pose3.transformFrom Pose3.identity Rot3.apply Rot3.identity
        rw [mulVec_one, vadd_zero]; rfl
      rw [this, List.map_id]
    have hfaces : meshFaces m = (do let posed ← m.transform Pose3.identity; meshFaces posed) := by
      cases m with
      | plain m =>
        have h2 : m.vertices.length = m.normals.length := (h (.plain m) (by simp)).2.1
        unfold PrimMesh.transform Mesh.transform Mesh.create
        dsimp only
        rw [hid, if_pos (by simp [Rot3.applyAll, h2])]
        rfl
      | textured m =>
        have h2 : m.vertices.length = m.normals.length := (h (.textured m) (by simp)).2.1
        have h3 : m.uvCoords.length = m.vertices.length := (h (.textured m) (by simp)).2.2.1
        unfold PrimMesh.transform TexturedMesh.transform TexturedMesh.create
        dsimp only
        rw [hid, if_neg (by simp [Rot3.applyAll, h2]), if_neg (by simp [h3])]
        rfl
    rw [hfaces, hp]
    rfl

end Sumo
