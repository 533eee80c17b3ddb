import Verif.Spec.Boundary
import Verif.Lemmas.RangeImage
import Verif.Lemmas.GltfUpdate
import Verif.Props.Gltf

/-! # Where C++ exceptions end the Python process (C105–C107) -/

namespace Sumo

/-! ### C105: create_point_cloud -/

theorem pointFromRange_outside (side row col : ℕ) (r : ℝ) (hside : 0 < side) (hcol : 6 * side ≤ col) :
    pointFromRange side ⟨(col : ℝ) + 1 / 2, (row : ℝ) + 1 / 2⟩ r = .error .indexError := by
  have hs : (0 : ℝ) < side := by exact_mod_cast hside
  have hc : 6 * (side : ℝ) ≤ col := by exact_mod_cast hcol
  have hq : (6 : ℝ) ≤ ((col : ℝ) + 1 / 2) / side := by rw [le_div_iff₀ hs]; linarith
  have hf : 6 ≤ CubeMap.toSizeT (((col : ℝ) + 1 / 2) / side) := by
    unfold CubeMap.toSizeT
    rw [if_neg (by linarith), if_neg (by linarith)]
    have : (6 : ℤ) ≤ ⌊((col : ℝ) + 1 / 2) / side⌋ := by rw [Int.le_floor]; exact_mod_cast hq
    omega
  have : CubeMap.unproject side (⟨(col : ℝ) + 1 / 2, (row : ℝ) + 1 / 2⟩ : Vec2 ℝ) = .error .indexError := by
    unfold CubeMap.unproject
    rw [if_neg (by dsimp only; linarith)]
    simp only [ge_iff_le, hf, if_true]
  unfold pointFromRange
  rw [this]
  rfl

/-- A pixel of valid range beyond the sixth face. -/
def Beyond (side : ℕ) (px : RangePixel) : Prop := 6 * side ≤ px.col ∧ ∃ r, ValidRange px.range r

theorem cloudRow_outcome (side row : ℕ) (all : Bool) (hrow : row < side) : ∀ (l : List (Color × FVal ℝ)) (col : ℕ),
    (∃ out, cloudRow side all ((row : ℝ) + 1 / 2) ((col : ℝ) + 1 / 2) l = .ok out ∧
      ∀ px ∈ (l.zipIdx col).map (fun p => (⟨row, p.2, p.1.1, p.1.2⟩ : RangePixel)), ¬ Beyond side px) ∨
    (cloudRow side all ((row : ℝ) + 1 / 2) ((col : ℝ) + 1 / 2) l = .error .indexError ∧
      ∃ px ∈ (l.zipIdx col).map (fun p => (⟨row, p.2, p.1.1, p.1.2⟩ : RangePixel)), Beyond side px) := by
  intro l
  induction l with
  | nil => intro col; exact .inl ⟨[], rfl, by simp⟩
  | cons a l ih =>
    intro col
    obtain ⟨color, range⟩ := a
    have e : ((col + 1 : ℕ) : ℝ) + 1 / 2 = (col : ℝ) + 1 / 2 + 1 := by push_cast; ring
    have ih := ih (col + 1)
    rw [e] at ih
    rw [List.zipIdx_cons, List.map_cons, cloudRow]
    cases hv : validRange range with
    | none =>
      have hn : ¬ Beyond side ⟨row, col, color, range⟩ := by
        rintro ⟨_, r, hr⟩
        have hr : validRange range = some r := (validRange_iff _ _).2 hr
        rw [hr] at hv; cases hv
      rcases ih with ⟨out, h1, h2⟩ | ⟨h1, px, h2, h3⟩
      · refine .inl ⟨_, by simp only [h1, bind, Except.bind, pure, Except.pure]; rfl, ?_⟩
        intro px hpx
        rcases List.mem_cons.1 hpx with rfl | hpx
        · exact hn
        · exact h2 px hpx
      · refine .inr ⟨by simp only [h1, bind, Except.bind, pure, Except.pure], px, List.mem_cons_of_mem _ h2, h3⟩
    | some r =>
      have hr := (validRange_iff _ _).1 hv
      by_cases hc : 6 * side ≤ col
      · refine .inr ⟨?_, _, List.mem_cons_self, hc, r, hr⟩
        simp only [pointFromRange_outside side row col r (by omega) hc, bind, Except.bind]
      · obtain ⟨p, hp, -⟩ := pointFromRange_seen side row col r hrow (by omega) hr.2
        rcases ih with ⟨out, h1, h2⟩ | ⟨h1, px, h2, h3⟩
        · refine .inl ⟨_, by simp only [hp, h1, bind, Except.bind, pure, Except.pure]; rfl, ?_⟩
          intro px hpx
          rcases List.mem_cons.1 hpx with rfl | hpx
          · exact fun h => hc h.1
          · exact h2 px hpx
        · refine .inr ⟨by simp only [hp, h1, bind, Except.bind, pure, Except.pure], px, List.mem_cons_of_mem _ h2, h3⟩

theorem cloudRows_outcome (side : ℕ) (all : Bool) : ∀ (rows : List (List Color × List (FVal ℝ))) (row : ℕ),
    row + rows.length ≤ side →
    (∃ out, cloudRows side all row (rows.map fun r => List.zip r.1 r.2) = .ok out ∧
      ∀ px ∈ (rows.zipIdx row).flatMap (fun rows =>
        (List.zip rows.1.1 rows.1.2).zipIdx.map fun p => (⟨rows.2, p.2, p.1.1, p.1.2⟩ : RangePixel)), ¬ Beyond side px) ∨
    (cloudRows side all row (rows.map fun r => List.zip r.1 r.2) = .error .indexError ∧
      ∃ px ∈ (rows.zipIdx row).flatMap (fun rows =>
        (List.zip rows.1.1 rows.1.2).zipIdx.map fun p => (⟨rows.2, p.2, p.1.1, p.1.2⟩ : RangePixel)), Beyond side px) := by
  intro rows
  induction rows with
  | nil => intro row _; exact .inl ⟨[], rfl, by simp⟩
  | cons r rows ih =>
    intro row hlen
    simp only [List.length_cons] at hlen
    have ih := ih (row + 1) (by omega)
    have h0 := cloudRow_outcome side row all (by omega) (List.zip r.1 r.2) 0
    rw [List.zipIdx_cons, List.flatMap_cons, List.map_cons, cloudRows]
    simp only [CubeMap.pixelCoordinates]
    rcases h0 with ⟨out0, h3, h4⟩ | ⟨h3, px, h4, h5⟩
    · rcases ih with ⟨out, h1, h2⟩ | ⟨h1, px, h2, h5⟩
      · refine .inl ⟨_, by simp only [h3, h1, bind, Except.bind, pure, Except.pure]; rfl, ?_⟩
        intro px hpx
        rcases List.mem_append.1 hpx with hpx | hpx
        · exact h4 px hpx
        · exact h2 px hpx
      · exact .inr ⟨by simp only [h3, h1, bind, Except.bind], px, List.mem_append_right _ h2, h5⟩
    · exact .inr ⟨by simp only [h3, bind, Except.bind], px, List.mem_append_left _ h4, h5⟩

/-- **C105** (what holds).  For images of the same shape, `create_point_cloud` ends the Python process if some pixel of valid
range lies in a column beyond six times the height, and returns a cloud otherwise. -/
theorem C105_outcome_partial (rgb : List (List Color)) (range : List (List (FVal ℝ))) (all : Bool)
    (hshape : rgb.map List.length = range.map List.length) :
    ((∃ px ∈ rasterPixels rgb range, 6 * rgb.length ≤ px.col ∧ ∃ r, ValidRange px.range r) →
      createPointCloud rgb range all = .error .terminated) ∧
    ((¬ ∃ px ∈ rasterPixels rgb range, 6 * rgb.length ≤ px.col ∧ ∃ r, ValidRange px.range r) →
      ∃ cloud, createPointCloud rgb range all = .ok cloud) := by
  have hlen : rgb.length = range.length := by simpa using congrArg List.length hshape
  have h := cloudRows_outcome rgb.length all (List.zip rgb range) 0 (by simp)
  rw [← zipWith_zip_eq] at h
  unfold createPointCloud
  rw [if_neg (by simpa using hshape)]
  rcases h with ⟨out, h1, h2⟩ | ⟨h1, h2⟩
  · refine ⟨fun ⟨px, hp, hb⟩ => absurd hb (h2 px hp), fun _ =>
      ⟨⟨out.map Prod.fst, out.map Prod.snd⟩, ?_⟩⟩
    rw [h1]; rfl
  · refine ⟨fun _ => ?_, fun h => absurd h2 h⟩
    rw [h1]; rfl

/-- **C105 is false of the code**: an image of one row and seven columns ends the process. -/
theorem C105_false : createPointCloud [List.replicate 7 ⟨0, 0, 0⟩] [List.replicate 7 (.fin 1)] false = .error .terminated := by
  refine (C105_outcome_partial _ _ _ (by simp)).1 ⟨⟨0, 6, ⟨0, 0, 0⟩, .fin 1⟩, ?_, by simp, 1, rfl, one_pos⟩
  simp [rasterPixels, List.zipIdx]

/-- **C105** (what holds, for arrays).  The outcome for arrays of one shape is that of `C105_outcome_partial` if both are contiguous
in memory; if one is a slice of a larger image, a null pointer is read, even if the image is small. -/
theorem C105_slices (rgb : NpPixels Color) (range : NpPixels (FVal ℝ)) (all : Bool)
    (hshape : rgb.rows.map List.length = range.rows.map List.length) :
    (rgb.contiguous = true ∧ range.contiguous = true →
      (createPointCloudOf rgb range all = .error .terminated ↔
        ∃ px ∈ rasterPixels rgb.rows range.rows, 6 * rgb.rows.length ≤ px.col ∧ ∃ r, ValidRange px.range r) ∧
      ((∃ cloud, createPointCloudOf rgb range all = .ok cloud) ↔
        ¬ ∃ px ∈ rasterPixels rgb.rows range.rows, 6 * rgb.rows.length ≤ px.col ∧ ∃ r, ValidRange px.range r)) ∧
    (¬ (rgb.contiguous = true ∧ range.contiguous = true) → createPointCloudOf rgb range all = .error .undefined) := by
  constructor
  · rintro ⟨h1, h2⟩
    have e : createPointCloudOf rgb range all = createPointCloud rgb.rows range.rows all := by
      unfold createPointCloudOf
      rw [if_neg (by simpa using hshape), if_neg (by simp [h1]), if_neg (by simp [h2])]
    rw [e]
    obtain ⟨k1, k2⟩ := C105_outcome_partial rgb.rows range.rows all hshape
    by_cases hb : ∃ px ∈ rasterPixels rgb.rows range.rows, 6 * rgb.rows.length ≤ px.col ∧ ∃ r, ValidRange px.range r
    · rw [k1 hb]
      exact ⟨⟨fun _ => hb, fun _ => rfl⟩, ⟨fun ⟨_, h⟩ => (nomatch h), fun h => absurd hb h⟩⟩
    · obtain ⟨cloud, hc⟩ := k2 hb
      rw [hc]
      exact ⟨⟨fun h => (nomatch h), fun h => absurd h hb⟩, ⟨fun _ => hb, fun _ => ⟨cloud, rfl⟩⟩⟩
  · intro h
    unfold createPointCloudOf
    rw [if_neg (by simpa using hshape)]
    cases h1 : rgb.contiguous <;> cases h2 : range.contiguous <;> simp_all

/-- A slice of one pixel. -/
example : createPointCloudOf ⟨[[⟨0, 0, 0⟩]], false⟩ ⟨[[.fin 1]], true⟩ false = .error .undefined :=
  (C105_slices _ _ _ rfl).2 (by simp)

/-- Both cases of the theorem occur. -/
example : ∃ cloud, createPointCloud [List.replicate 7 ⟨0, 0, 0⟩] [List.replicate 6 (.fin 1) ++ [.nan]] false = .ok cloud := by
  refine (C105_outcome_partial _ _ _ (by simp)).2 ?_
  rintro ⟨px, hp, h1, r, h2, _⟩
  simp [rasterPixels, List.zipIdx] at hp
  rcases hp with rfl | rfl | rfl | rfl | rfl | rfl | rfl <;> simp_all

namespace Gltf

/-! ### C106: update_materials -/

/-- The materials of the primitives can be read. -/
def Readable (M : Model) : Prop := ∀ p ∈ M.meshes.flatten, ∃ a, M.readMaterial p = .ok a

theorem loadTexture_ok {fs : ImageFiles} {M : Model} {uri dir : String} {bytes : List UInt8}
    (h : fs.read (dir ++ "/" ++ uri) = some bytes) (hb : bytes ≠ []) : ∃ M' t, M.loadTexture fs uri dir = (M', .ok t) := by
  unfold Model.loadTexture
  rw [h]
  cases bytes with
  | nil => exact absurd rfl hb
  | cons b bs => exact ⟨_, _, rfl⟩

theorem updateStep_outcome {fs : ImageFiles} {M : Model} {dir : String} {i : ℕ} {u : Option Model.MaterialUpdate}
    {r : Except PyErr Unit} (hM : Readable M) (hi : i < M.numPrimitiveMeshes) (h : EntryOutcome fs dir u r) :
    (M.updateStep fs dir i u).2 = r := by
  unfold Model.updateStep
  rw [if_pos hi]
  rw [numPrimitiveMeshes_eq] at hi
  have hp : M.meshes.flatten[i]? = some M.meshes.flatten[i] := List.getElem?_eq_getElem hi
  obtain ⟨a, ha⟩ := hM _ (List.getElem_mem hi)
  cases h with
  | keep => rfl
  | noColor uri => rfl
  | noUri color => rfl
  | noPicture color =>
    simp only [Model.updateMaterial, numPrimitiveMeshes_eq, if_neg (not_le.2 hi), Model.getPrimitiveMesh, hp, ha]
    rfl
  | picture color uri bytes h1 h2 h3 =>
    obtain ⟨M', t, ht⟩ := loadTexture_ok (M := M) h2 h3
    have hu : uri.length ≠ 0 := by simpa using h1
    simp only [Model.updateMaterial, numPrimitiveMeshes_eq, if_neg (not_le.2 hi), Model.getPrimitiveMesh, hp, ha,
      if_pos hu, ht]
    rfl
  | missing color uri h1 h2 =>
    have hu : uri.length ≠ 0 := by simpa using h1
    simp only [Model.updateMaterial, numPrimitiveMeshes_eq, if_neg (not_le.2 hi), Model.getPrimitiveMesh, hp, ha,
      if_pos hu, Model.loadTexture, h2]
    rfl
  | empty color uri h1 h2 =>
    have hu : uri.length ≠ 0 := by simpa using h1
    simp only [Model.updateMaterial, numPrimitiveMeshes_eq, if_neg (not_le.2 hi), Model.getPrimitiveMesh, hp, ha,
      if_pos hu, Model.loadTexture, h2]
    rfl

theorem readable_step {fs : ImageFiles} {M M' : Model} {dir : String} {i : ℕ} {u : Option Model.MaterialUpdate}
    (hM : Readable M) (h : M.updateStep fs dir i u = (M', .ok ())) : Readable M' := by
  obtain ⟨e, h1, h2, h3⟩ := updateStep_spec h
  intro p' hp'
  obtain ⟨j, hj, rfl⟩ := List.getElem_of_mem hp'
  have hj' : j < M.meshes.flatten.length := by omega
  have hp : M.meshes.flatten[j]? = some M.meshes.flatten[j] := List.getElem?_eq_getElem hj'
  obtain ⟨a, ha⟩ := hM _ (List.getElem_mem hj')
  by_cases hji : j = i
  · subst hji
    obtain ⟨q, q1, q2, q3, q4, q5⟩ := h3 _ hp
    rw [List.getElem?_eq_getElem hj] at q1
    simp only [Option.some.injEq] at q1
    rw [q1]
    cases u with
    | none =>
      have q5' : q = M.meshes.flatten[j] := q5
      rw [q5']
      exact ⟨a, readMaterial_ext e ha⟩
    | some u =>
      obtain ⟨_, _, _, b, _, _, _, c4, _⟩ := q5
      exact ⟨b, c4⟩
  · have := h2 j _ hji hp
    rw [List.getElem?_eq_getElem hj] at this
    simp only [Option.some.injEq] at this
    rw [this]
    exact ⟨a, readMaterial_ext e ha⟩

/-- Entries before the first bad one are applied; the first bad one decides. -/
theorem updateFrom_outcome {fs : ImageFiles} {dir : String} : ∀ (us : List (Option Model.MaterialUpdate)) (M : Model) (i : ℕ),
    Readable M →
    ((∀ j u, i + j < M.numPrimitiveMeshes → us[j]? = some u → EntryOutcome fs dir u (.ok ())) →
      (Model.updateFrom fs dir M i us).2 = .ok ()) ∧
    (∀ j u e, i + j < M.numPrimitiveMeshes → us[j]? = some u → EntryOutcome fs dir u (.error e) →
      (∀ k v, k < j → us[k]? = some v → EntryOutcome fs dir v (.ok ())) →
      (Model.updateFrom fs dir M i us).2 = .error e) := by
  intro us
  induction us with
  | nil => intro M i _; exact ⟨fun _ => rfl, fun j u e _ h => by simp at h⟩
  | cons u us ih =>
    intro M i hM
    have next : ∀ M', M.updateStep fs dir i u = (M', .ok ()) →
        Readable M' ∧ M'.numPrimitiveMeshes = M.numPrimitiveMeshes ∧
        Model.updateFrom fs dir M i (u :: us) = Model.updateFrom fs dir M' (i + 1) us := by
      intro M' h
      refine ⟨readable_step hM h, ?_, ?_⟩
      · obtain ⟨_, h1, _⟩ := updateStep_spec h
        rw [numPrimitiveMeshes_eq, numPrimitiveMeshes_eq, h1]
      · conv_lhs => unfold Model.updateFrom
        rw [h]
    have step : (i < M.numPrimitiveMeshes → EntryOutcome fs dir u (.ok ())) →
        ∃ M', M.updateStep fs dir i u = (M', .ok ()) := by
      intro h
      by_cases hi : i < M.numPrimitiveMeshes
      · have := updateStep_outcome hM hi (h hi)
        exact ⟨(M.updateStep fs dir i u).1, Prod.ext rfl this⟩
      · unfold Model.updateStep
        rw [if_neg hi]
        exact ⟨M, rfl⟩
    constructor
    · intro h
      obtain ⟨M', hs⟩ := step fun hi => h 0 u (by simpa using hi) rfl
      obtain ⟨n1, n2, n3⟩ := next M' hs
      rw [n3]
      refine (ih M' (i + 1) n1).1 fun j v hj hv => h (j + 1) v ?_ (by simpa using hv)
      rw [n2] at hj; omega
    · intro j v e hj hv hbad hgood
      cases j with
      | zero =>
        simp only [List.getElem?_cons_zero, Option.some.injEq] at hv
        subst hv
        have := updateStep_outcome hM (by simpa using hj) hbad
        unfold Model.updateFrom
        cases hs : M.updateStep fs dir i u with
        | mk M1 r =>
          rw [hs] at this
          dsimp only at this
          subst this
          rfl
      | succ j =>
        obtain ⟨M', hs⟩ := step fun _ => hgood 0 u (by omega) rfl
        obtain ⟨n1, n2, n3⟩ := next M' hs
        rw [n3]
        refine (ih M' (i + 1) n1).2 j v e (by rw [n2]; omega) (by simpa using hv) hbad fun k w hk hw =>
          hgood (k + 1) w (by omega) (by simpa using hw)

/-- **C106** (what holds).  For a model whose meshes can be extracted: `update_materials` succeeds if all entries (up to the
number of meshes) are good; otherwise the first bad one decides: a missing key raises `KeyError`; a picture file that is missing
or empty ends the Python process. -/
theorem C106_outcome_partial (fs : ImageFiles) (dir : String) (M : Model) (us : List (Option Model.MaterialUpdate))
    (hM : ∀ i < M.numPrimitiveMeshes, ∃ m, M.extractPrimitiveMesh i = .ok m) :
    ((∀ i u, i < M.numPrimitiveMeshes → us[i]? = some u → EntryOutcome fs dir u (.ok ())) →
      (M.updateMaterials fs dir us).2 = .ok ()) ∧
    (∀ i u e, i < M.numPrimitiveMeshes → us[i]? = some u → EntryOutcome fs dir u (.error e) →
      (∀ k v, k < i → us[k]? = some v → EntryOutcome fs dir v (.ok ())) →
      (M.updateMaterials fs dir us).2 = .error e) := by
  have hr : Readable M := by
    intro p hp
    obtain ⟨j, hj, rfl⟩ := List.getElem_of_mem hp
    obtain ⟨m, hm⟩ := hM j (by rw [numPrimitiveMeshes_eq]; exact hj)
    have hg : M.getPrimitiveMesh j = .ok M.meshes.flatten[j] := by
      unfold Model.getPrimitiveMesh
      rw [List.getElem?_eq_getElem hj]
    rw [extractPrimitiveMesh_eq hg] at hm
    unfold extractPlain at hm
    obtain ⟨_, _, hm⟩ := except_bind_ok.1 hm
    obtain ⟨_, _, hm⟩ := except_bind_ok.1 hm
    obtain ⟨_, _, hm⟩ := except_bind_ok.1 hm
    obtain ⟨_, _, hm⟩ := except_bind_ok.1 hm
    obtain ⟨_, _, hm⟩ := except_bind_ok.1 hm
    obtain ⟨mat, hmat, _⟩ := except_bind_ok.1 hm
    exact ⟨mat, hmat⟩
  have := updateFrom_outcome (fs := fs) (dir := dir) us M 0 hr
  simpa only [Nat.zero_add, Model.updateMaterials] using this

/-- The specification covers every entry, and only one outcome is specified for each. -/
theorem C106_covers (fs : ImageFiles) (dir : String) (u : Option Model.MaterialUpdate) :
    ∃ r, EntryOutcome fs dir u r ∧ ∀ r', EntryOutcome fs dir u r' → r' = r := by
  rcases u with _ | ⟨_ | color, _ | uri⟩
  · exact ⟨_, .keep, fun r' h => by cases h; rfl⟩
  · exact ⟨_, .noColor _, fun r' h => by cases h; rfl⟩
  · exact ⟨_, .noColor _, fun r' h => by cases h; rfl⟩
  · exact ⟨_, .noUri _, fun r' h => by cases h; rfl⟩
  · by_cases hu : uri = ""
    · subst hu
      exact ⟨_, .noPicture _, fun r' h => by cases h <;> first | rfl | contradiction⟩
    · cases hf : fs.read (dir ++ "/" ++ uri) with
      | none => exact ⟨_, .missing _ _ hu hf, fun r' h => by cases h <;> simp_all⟩
      | some bytes =>
        cases bytes with
        | nil => exact ⟨_, .empty _ _ hu hf, fun r' h => by cases h <;> simp_all⟩
        | cons b bs => exact ⟨_, .picture _ _ _ hu hf (by simp), fun r' h => by cases h <;> simp_all⟩

set_option maxRecDepth 8000 in
/-- **C106 is false of the code**: naming a picture file that does not exist ends the process. -/
theorem C106_false : (exModel.updateMaterials exFiles "dir" [none, some ⟨some ⟨0, 0, 0⟩, some "gone.png"⟩]).2 =
    .error .terminated := by
  refine (C106_outcome_partial exFiles "dir" exModel _ ?_).2 1 _ _ (by decide) rfl
    (.missing _ _ (by decide) (by decide)) ?_
  · intro i hi
    have hi : i < 2 := hi
    interval_cases i
    · exact ⟨_, rfl⟩
    · exact ⟨_, rfl⟩
  · intro k v hk hv
    have : k = 0 := by omega
    subst this
    simp only [List.getElem?_cons_zero, Option.some.injEq] at hv
    subst hv
    exact .keep

/-! ### C107: adding a textured mesh -/

/-- The material has the keys of the textures there are. -/
def KeysMatch (m : TexturedMesh F32 Mat3b) : Prop :=
  (m.baseColor.isEmpty = false → m.material.values.has "baseColorTexture" = true) ∧
  (m.metallicRoughness.isEmpty = false → m.material.values.has "metallicRoughnessTexture" = true)

theorem KeysMatch.of_eq {m m' : TexturedMesh F32 Mat3b} (h : KeysMatch m) (h1 : m'.material = m.material)
    (h2 : m'.baseColor = m.baseColor) (h3 : m'.metallicRoughness = m.metallicRoughness) : KeysMatch m' := by
  unfold KeysMatch
  rw [h1, h2, h3]
  exact h

theorem merge_material {K I : Type} {m m2 m' : TexturedMesh K I} {k : ℕ} (h : m.merge m2 k = some m') :
    m'.material = m.material ∧ m'.baseColor = m.baseColor ∧ m'.metallicRoughness = m.metallicRoughness := by
  unfold TexturedMesh.merge Mesh.merge at h
  dsimp only at h
  split_ifs at h <;> simp only [Option.some.injEq] at h <;> subst h <;> exact ⟨rfl, rfl, rfl⟩

theorem materialTexture_key {M : Model} {mat : GltfMaterial} {key : String} {img : Mat3b}
    (h : M.materialTexture mat key = .ok img) (hi : img.isEmpty = false) : mat.values.has key = true := by
  unfold Model.materialTexture at h
  cases hk : mat.values.get? key with
  | none =>
    rw [hk] at h
    simp only [Except.ok.injEq] at h
    subst h
    simp [Mat3b.isEmpty, Mat3b.none] at hi
  | some p => exact (Dict.has_iff _ _).2 ⟨p, hk⟩

theorem obtainable_keys {m : TexturedMesh F32 Mat3b} (h : Obtainable m) : KeysMatch m := by
  induction h with
  | constructed h =>
    unfold TexturedMesh.create at h
    split_ifs at h
    simp only [Except.ok.injEq] at h
    subst h
    constructor
    · intro _
      show (TexturedMesh.defaultMaterial _).values.has _ = true
      unfold TexturedMesh.defaultMaterial
      dsimp only
      split_ifs <;> rfl
    · intro h
      dsimp only at h ⊢
      rw [h]
      rfl
  | @extracted M l m h hm =>
    rw [primitiveMeshes_eq, mapM_ok_iff] at h
    obtain ⟨p, hi⟩ : ∃ p, extractAny M p = .ok (.inr m) := by
      have h := List.forall₂_iff_get.1 h
      obtain ⟨j, hj, e⟩ := List.getElem_of_mem hm
      refine ⟨_, (h.2 j (by rw [h.1]; exact hj) hj).trans ?_⟩
      rw [← e]; rfl
    unfold extractAny at hi
    split_ifs at hi
    · obtain ⟨t, ht, he⟩ := except_map_ok.1 hi
      have he : t = m := by simpa using he
      subst he
      unfold extractTextured at ht
      obtain ⟨mesh, h1, ht⟩ := except_bind_ok.1 ht
      obtain ⟨_, _, ht⟩ := except_bind_ok.1 ht
      obtain ⟨_, _, ht⟩ := except_bind_ok.1 ht
      obtain ⟨mat, h2, ht⟩ := except_bind_ok.1 ht
      obtain ⟨c, h3, ht⟩ := except_bind_ok.1 ht
      obtain ⟨r, h4, ht⟩ := except_bind_ok.1 ht
      simp only [pure, Except.pure, Except.ok.injEq] at ht
      subst ht
      have hm : mesh.material = mat := by
        unfold extractPlain at h1
        obtain ⟨_, _, h1⟩ := except_bind_ok.1 h1
        obtain ⟨_, _, h1⟩ := except_bind_ok.1 h1
        obtain ⟨_, _, h1⟩ := except_bind_ok.1 h1
        obtain ⟨_, _, h1⟩ := except_bind_ok.1 h1
        obtain ⟨_, _, h1⟩ := except_bind_ok.1 h1
        obtain ⟨_, h5, h1⟩ := except_bind_ok.1 h1
        simp only [pure, Except.pure, Except.ok.injEq] at h1
        rw [h2] at h5
        simp only [Except.ok.injEq] at h5
        rw [← h1, h5]
      constructor
      · intro hc; dsimp only at hc ⊢; rw [hm]; exact materialTexture_key h3 hc
      · intro hc; dsimp only at hc ⊢; rw [hm]; exact materialTexture_key h4 hc
    · obtain ⟨t, ht, he⟩ := except_map_ok.1 hi
      cases he
  | merged _ h ih =>
    obtain ⟨h1, h2, h3⟩ := merge_material h
    exact ih.of_eq h1 h2 h3
  | renumbered _ h ih =>
    unfold TexturedMesh.renumber at h
    simp only [bind, Option.bind_eq_some_iff, Option.some.injEq] at h
    obtain ⟨_, _, _, _, _, _, rfl⟩ := h
    exact ih.of_eq rfl rfl rfl
  | @replaced h h' i j k _ hr ih =>
    unfold TexturedMesh.replaceGeometry at hr
    simp only [bind, Option.bind_eq_some_iff, Option.some.injEq] at hr
    obtain ⟨m, hm, rfl⟩ := hr
    by_cases hk : k = i
    · subst hk
      rw [Function.update_self]
      obtain ⟨h1, h2, h3⟩ := merge_material hm
      rw [Function.update_self] at h1 h2 h3
      exact (ih k).of_eq h1 h2 h3
    · rw [Function.update_of_ne hk, Function.update_of_ne hk]
      exact ih k

/-- **C107.**  Whatever textured mesh a Python program has and whatever the model: adding the mesh succeeds; the
"inconsistent material" exceptions, which would end the process, cannot occur. -/
theorem C107_add_never_fails (M : Model) {m : TexturedMesh F32 Mat3b} (h : Obtainable m) :
    ∃ M', M.addMesh (some (.inr m)) = (M', .ok ()) := by
  obtain ⟨h1, h2⟩ := obtainable_keys h
  have add : ∀ (N : Model) (mat : GltfMaterial) (key : String) (img : Mat3b),
      (img.isEmpty = false → mat.values.has key = true) →
      ∃ N' mat', N.addMaterialTexture mat key img = (N', .ok mat') ∧
        ∀ k, mat.values.has k = true → mat'.values.has k = true := by
    intro N mat key img hk
    unfold Model.addMaterialTexture
    split_ifs with a b
    · exact ⟨_, _, rfl, fun _ h => h⟩
    · refine ⟨_, _, rfl, fun k hk => ?_⟩
      obtain ⟨v, hv⟩ := (Dict.has_iff _ _).1 hk
      refine (Dict.has_iff _ _).2 ?_
      dsimp only
      rw [get?_mapSet]
      split_ifs
      · exact ⟨_, rfl⟩
      · exact ⟨v, hv⟩
    · exact absurd (hk (by simpa using a)) b
  show ∃ M', ((M.addTexturedPrimitiveMesh m).1, unguarded (M.addTexturedPrimitiveMesh m).2) = (M', .ok ())
  refine ⟨(M.addTexturedPrimitiveMesh m).1, Prod.ext rfl (unguarded_ok.2 ?_)⟩
  unfold Model.addTexturedPrimitiveMesh
  dsimp only
  split
  · next N e he =>
    obtain ⟨N1, mat1, e1, -⟩ := add _ m.material _ _ h1
    rw [e1] at he
    cases he
  · next N mat he =>
    obtain ⟨N1, mat1, e1, k1⟩ := add _ m.material _ _ h1
    rw [e1] at he
    cases he
    obtain ⟨N2, mat2, e2, -⟩ := add N mat _ _ fun h => k1 _ (h2 h)
    rw [e2]

/-- Textured meshes of all kinds: constructed, extracted from a model, merged. -/
example : Obtainable exTextured ∧ (∃ l m, (({} : Model).addTexturedPrimitiveMesh exTextured).1.primitiveMeshes = .ok l ∧
    .inr m ∈ l ∧ m.uvCoords = exTextured.uvCoords) ∧ ∃ m, exTextured.merge exTextured 0 = some m ∧ Obtainable m := by
  have h : Obtainable exTextured := .constructed (i := [0, 0, 0]) (v := [exV]) (n := [exV]) (uv := [(⟨0⟩, ⟨0⟩)])
    (b := exPic) (r := exPic2) rfl
  refine ⟨h, ⟨_, _, rfl, List.mem_cons_self, rfl⟩, _, rfl, .merged (m2 := exTextured) (k := 0) h rfl⟩

end Gltf
end Sumo
