import Verif.Props.Category
import Verif.Props.BBox
import Verif.Props.Mesh
import Verif.Props.Tiff
import Verif.Props.Gltf

/-! # Edge cases of C32, C71, C72, C86 and C90, and the textures of loaded models (C115) -/

namespace Sumo

/-! ### Category tables -/

open ColoredCategory in
/-- **C72.** With colours of different lengths the table has no lookup array: converting any image raises `ValueError`. -/
theorem C72_ragged (entries : List CategoryEntry) (h : ∀ e ∈ entries, e.color ≠ []) {a b : CategoryEntry} (ha : a ∈ entries)
    (hb : b ∈ entries) (hab : a.color.length ≠ b.color.length) :
    ∃ s, ColoredCategory.new (some (entries.map CategoryEntry.row)) = .ok s ∧
      ∀ im, s.convertToRgbIm im = .error .valueError := by
  refine ⟨_, new_entries entries h, fun im => ?_⟩
  have hl : getLut ⟨entries.map CategoryEntry.toRow, reverseData (entries.map CategoryEntry.toRow), []⟩ = .error .valueError := by
    cases entries with
    | nil => simp at ha
    | cons e l =>
      have hall : ¬ ((l.map CategoryEntry.toRow).all fun y => decide (y.color.length = e.toRow.color.length)) = true := by
        rw [List.all_eq_true]
        intro hx
        have key : ∀ c ∈ e :: l, c.color.length = e.color.length := by
          intro c hc
          rcases List.mem_cons.1 hc with rfl | hc
          · rfl
          · simpa [CategoryEntry.toRow] using hx c.toRow (List.mem_map_of_mem hc)
        exact hab ((key a ha).trans (key b hb).symm)
      unfold getLut
      simp only [List.length_nil, if_true, List.map_cons, if_neg hall]
  unfold convertToRgbIm
  rw [hl]
  rfl

/-- Two colours of different lengths. -/
example : ∃ s, ColoredCategory.new (some ([⟨"0", "bed", "True", [1, 2, 3]⟩, ⟨"1", "sofa", "True", [4, 5]⟩].map
    CategoryEntry.row)) = .ok s ∧ ∀ im, s.convertToRgbIm im = .error .valueError :=
  C72_ragged _ (by decide) (a := ⟨"0", "bed", "True", [1, 2, 3]⟩) (b := ⟨"1", "sofa", "True", [4, 5]⟩) (by simp) (by simp)
    (by decide)

/-- An integer as Python writes it. -/
def writeInt : ℤ → List Char
  | .ofNat n => decimal n
  | .negSucc n => '-' :: decimal (n + 1)

theorem pyInt_writeInt (i : ℤ) : pyInt (writeInt i) = .ok i := by
  cases i with
  | ofNat n => exact pyInt_decimal n
  | negSucc n =>
    have h : ∀ c ∈ '-' :: decimal (n + 1), Char.isWhitespace c = false := by
      intro c hc
      rcases List.mem_cons.1 hc with rfl | hc
      · decide
      · obtain ⟨d, hd, rfl⟩ := mem_decimal (n + 1) c hc
        exact digitChar_not_whitespace d hd
    have hs : pyStrip ('-' :: decimal (n + 1)) = '-' :: decimal (n + 1) := by
      unfold pyStrip
      rw [dropWhile_eq_self h, dropWhile_eq_self (fun c hc => h c (List.mem_reverse.1 hc)), List.reverse_reverse]
    simp only [writeInt, pyInt, hs, pyDigits_decimal, Option.map_some]
    rfl

/-- A row of a table whose colour is a list of integers of any sign. -/
def signedRow (id name evaluated : String) (color : List ℤ) : CsvRow :=
  [("id", some id), ("category", some name), ("is_evaluated", some evaluated),
    ("color", some (String.ofList (List.intercalate [';'] (color.map writeInt))))]

/-- **C90** Integers of any sign: the loaded colours are the integers written. -/
theorem C90_signed (rows : List (String × String × String × List ℤ)) (h : ∀ r ∈ rows, r.2.2.2 ≠ []) :
    ∃ s, ColoredCategory.new (some (rows.map fun r => signedRow r.1 r.2.1 r.2.2.1 r.2.2.2)) = .ok s ∧
      s.data = rows.map (fun r => ⟨some r.2.1, some r.2.2.1, r.2.2.2⟩) ∧
      ∀ (i : ℕ) r, rows[i]? = some r → s.categoryIdToRgb i = .ok r.2.2.2 := by
  have hrow : ∀ r ∈ rows, ColoredCategory.parseRow (signedRow r.1 r.2.1 r.2.2.1 r.2.2.2) =
      .ok ⟨some r.2.1, some r.2.2.1, r.2.2.2⟩ := by
    intro r hr
    have hc : ColoredCategory.parseColor (some (String.ofList (List.intercalate [';'] (r.2.2.2.map writeInt)))) =
        .ok r.2.2.2 := by
      unfold ColoredCategory.parseColor
      simp only [String.toList_ofList]
      rw [List.splitOn_intercalate]
      · rw [mapM_ok_iff]
        generalize r.2.2.2 = color
        induction color with
        | nil => simp
        | cons a l ih => exact .cons (pyInt_writeInt a) ih
      · intro l hl
        obtain ⟨i, -, rfl⟩ := List.mem_map.1 hl
        cases i with
        | ofNat n => exact semicolon_not_mem_decimal n
        | negSucc n =>
          intro hm
          rcases List.mem_cons.1 hm with hm | hm
          · exact absurd hm (by decide)
          · exact semicolon_not_mem_decimal _ hm
      · simpa using h r hr
    unfold ColoredCategory.parseRow
    have h1 : (Dict.get (signedRow r.1 r.2.1 r.2.2.1 r.2.2.2) "category") = .ok (some r.2.1) := rfl
    have h2 : (Dict.get (signedRow r.1 r.2.1 r.2.2.1 r.2.2.2) "is_evaluated") = .ok (some r.2.2.1) := rfl
    have h3 : (Dict.get (signedRow r.1 r.2.1 r.2.2.1 r.2.2.2) "color") =
      .ok (some (String.ofList (List.intercalate [';'] (r.2.2.2.map writeInt)))) := rfl
    simp only [h1, h2, h3, hc, bind, Except.bind, pure, Except.pure]
  have hm : (rows.map fun r => signedRow r.1 r.2.1 r.2.2.1 r.2.2.2).mapM ColoredCategory.parseRow =
      .ok (rows.map fun r => ⟨some r.2.1, some r.2.2.1, r.2.2.2⟩) := by
    rw [mapM_ok_iff]
    clear h
    induction rows with
    | nil => simp
    | cons r l ih => exact .cons (hrow r (by simp)) (ih fun x hx => hrow x (by simp [hx]))
  refine ⟨⟨_, _, []⟩, by simp only [ColoredCategory.new, hm, bind, Except.bind, pure, Except.pure]; rfl, rfl, ?_⟩
  intro i r hi
  have hlt : i < rows.length := (List.getElem?_eq_some_iff.1 hi).1
  unfold ColoredCategory.categoryIdToRgb
  rw [if_neg (by simp only [List.length_map]; omega)]
  simp [hi]

/-- A negative colour component. -/
example : ∃ s, ColoredCategory.new (some [[("id", some "0"), ("category", some "void"), ("is_evaluated", some "False"),
    ("color", some "-1;-20;300")]]) = .ok s ∧ s.categoryIdToRgb 0 = .ok [-1, -20, 300] := ⟨_, rfl, rfl⟩

/-! ### Bounding boxes without volume -/

section
set_option linter.unusedSectionVars false
variable {K : Type} [Field K] [LinearOrder K] [IsStrictOrderedRing K]

/-- **C32** With an intersection no larger than either solid, the similarity is NaN exactly if the axis-aligned boxes of the
posed boxes touch and both solids have no volume. -/
theorem C32_flat (iv : List (Vec3 K) × List ℕ → List (Vec3 K) × List ℕ → K) (e1 e2 : BoxedElement K)
    (h1 : |iv (bbox2pymesh e1) (bbox2pymesh e2)| ≤ |meshVolume (bbox2pymesh e1).1 (bbox2pymesh e1).2|)
    (h2 : |iv (bbox2pymesh e1) (bbox2pymesh e2)| ≤ |meshVolume (bbox2pymesh e2).1 (bbox2pymesh e2).2|) :
    bbSimilarity iv e1 e2 = none ↔ bbReject (posedBbox e1) (posedBbox e2) = false ∧
      meshVolume (bbox2pymesh e1).1 (bbox2pymesh e1).2 = 0 ∧ meshVolume (bbox2pymesh e2).1 (bbox2pymesh e2).2 = 0 := by
  unfold bbSimilarity
  have a1 := abs_nonneg (iv (bbox2pymesh e1) (bbox2pymesh e2))
  by_cases hr : bbReject (posedBbox e1) (posedBbox e2) = true
  · simp [hr]
  · rw [if_neg hr]
    dsimp only
    constructor
    · intro h
      split_ifs at h with hu
      refine ⟨by simpa using hr, abs_eq_zero.1 ?_, abs_eq_zero.1 ?_⟩
      · have := abs_nonneg (meshVolume (bbox2pymesh e1).1 (bbox2pymesh e1).2)
        linarith
      · have := abs_nonneg (meshVolume (bbox2pymesh e2).1 (bbox2pymesh e2).2)
        linarith
    · rintro ⟨-, h3, h4⟩
      rw [h3, abs_zero] at h1
      have hi : |iv (bbox2pymesh e1) (bbox2pymesh e2)| = 0 := le_antisymm h1 a1
      rw [if_pos]
      rw [h3, h4, hi, abs_zero]
      simp

/-- Two unit squares in the plane z = 0. -/
example : bbSimilarity (fun _ _ => (0 : ℚ)) ⟨⟨⟨0, 0, 0⟩, ⟨1, 1, 0⟩⟩, Pose3.identity⟩ ⟨⟨⟨0, 0, 0⟩, ⟨1, 1, 0⟩⟩, Pose3.identity⟩ = none := by
  rw [C32_flat] <;> decide +kernel

/-! ### Cubes -/

/-- **C86** A texture that is not six squares side by side is refused with `AssertionError`. -/
theorem C86_cube_texture {I : Type} (isEmpty : I → Bool) (rows cols : ℕ) (tex mr : I) (h : cols ≠ 6 * rows) :
    (TexturedMesh.cube isEmpty rows cols tex mr : Except PyErr (TexturedMesh K I)) = .error .assertionError := by
  unfold TexturedMesh.cube
  rw [if_pos h]

example : (TexturedMesh.cube (fun _ => false) 10 70 () () : Except PyErr (TexturedMesh ℚ Unit)) = .error .assertionError :=
  C86_cube_texture _ _ _ _ _ (by decide)

end

/-! ### Multi-page TIFF files -/

namespace Tiff
section
set_option linter.unusedSectionVars false
variable {K : Type} [Field K] [LinearOrder K] [IsStrictOrderedRing K] [FloorRing K]

/-- **C71** The colour image is looked at first, then depth, before any page is converted: a missing colour image is a
`KeyError`; a colour image, or else a depth image, of another type is a `ValueError`, whatever the other entries are. -/
theorem C71_validated_first (ρ : Rounding K) (writable : String → Bool) (files : TiffFiles K) (d : Dict String (NpImage K))
    (path : String) (near : K) :
    (d.get? "rgb" = none → save ρ writable files d path near = (files, .error .keyError)) ∧
    (∀ im, d.get? "rgb" = some im → (∀ rows, im ≠ .rgb8 rows ∧ im ≠ .rgb8s rows) → save ρ writable files d path near = (files, .error .valueError)) ∧
    (∀ rows im, (d.get? "rgb" = some (.rgb8 rows) ∨ d.get? "rgb" = some (.rgb8s rows)) → d.get? "depth" = some im → (∀ r, im ≠ .f32 r) →
      save ρ writable files d path near = (files, .error .valueError)) := by
  refine ⟨fun h => ?_, fun im h hne => ?_, fun rows im h hd hne => ?_⟩
  · have : d.get "rgb" = .error .keyError := by unfold Dict.get; rw [h]
    unfold save validate
    simp only [this, bind, Except.bind]
  · have hg : d.get "rgb" = .ok im := Dict.get_eq_ok.2 h
    unfold save validate
    cases im with
    | rgb8 r => exact absurd rfl (hne r).1
    | rgb8s r => exact absurd rfl (hne r).2
    | _ => simp only [hg, bind, Except.bind]
  · rcases h with h | h
    · have hg : d.get "rgb" = .ok (.rgb8 rows) := Dict.get_eq_ok.2 h
      unfold save validate
      cases im with
      | f32 r => exact absurd rfl (hne r)
      | _ => simp only [hg, bind, Except.bind, hd]
    · have hg : d.get "rgb" = .ok (.rgb8s rows) := Dict.get_eq_ok.2 h
      unfold save validate
      cases im with
      | f32 r => exact absurd rfl (hne r)
      | _ => simp only [hg, bind, Except.bind, hd]

/-- A colour image of the wrong type beside an instance image of the wrong type: `ValueError`, not a null pointer. -/
example (ρ : Rounding ℚ) (files : TiffFiles ℚ) :
    save ρ (fun _ => true) files [("instance", .f32 [[.nan]]), ("rgb", .other)] "p" 1 = (files, .error .valueError) :=
  (C71_validated_first ρ _ files _ "p" 1).2.1 .other rfl (by intro r; constructor <;> (intro h; cases h))

/-- **C71** A file without metadata, or with metadata that do not name the near plane, has the near plane 1: its 16 bit depth page
comes back as the depths the codes stand for with that plane. -/
theorem C71_no_metadata (ρ : Rounding K) (files : TiffFiles K) (path : String) (n1 n2 : Option String)
    (desc desc2 : Description K) (hdesc : desc = .missing ∨ desc = .object none) (a : List (List (ℕ × ℕ × ℕ))) (pa : HasPixels a)
    (b : List (List ℕ)) (pb : HasPixels b) (hn1 : n1 = none ∨ n1 = some "rgb")
    (hn2 : n2 = none ∨ n2 = some "inv_depth" ∨ n2 = some "depth")
    (hf : files path = some [⟨n1, desc, .rgb8 a⟩, ⟨n2, desc2, .gray16 b⟩]) :
    load ρ files path =
      .ok [("rgb", .rgb8 a), ("depth", .f32 (b.map fun row => row.map fun c => depthOfInverseDepth ρ c 1))] := by
  have h1 : readMetadata ρ desc = .ok 1 := by rcases hdesc with rfl | rfl <;> rfl
  have h2 : ∀ pm : PageMap, readImage (K := K) pm ⟨n1, desc, .rgb8 a⟩ = .ok (pm.put .rgb (.c3 a)) := by
    intro pm; rcases hn1 with rfl | rfl <;> rfl
  have h3 : ∀ pm : PageMap, readImage (K := K) pm ⟨n2, desc2, .gray16 b⟩ = .ok (pm.put .inverseDepth (.c16 b)) := by
    intro pm; rcases hn2 with rfl | rfl | rfl <;> rfl
  have ea : (CvMat.c3 a).isEmpty = false := hasPixels_iff.1 pa
  have eb : (CvMat.c16 b).isEmpty = false := hasPixels_iff.1 pb
  unfold load readRgbdTiff
  rw [hf]
  simp only [h1, readImages, h2, h3, bind, Except.bind, PageType.all, loadLoop, loadStep, PageMap.put, ea, eb,
    Bool.false_eq_true, reduceCtorEq, if_true, if_false]
  rfl

/-- A colour page and a depth page of one pixel each, without names and metadata. -/
example (ρ : Rounding ℚ) : load ρ (fun _ => some [⟨none, .missing, .rgb8 [[(1, 2, 3)]]⟩, ⟨none, .missing, .gray16 [[7]]⟩]) "p" =
    .ok [("rgb", .rgb8 [[(1, 2, 3)]]), ("depth", .f32 [[depthOfInverseDepth ρ 7 1]])] :=
  C71_no_metadata ρ _ "p" none none .missing .missing (.inl rfl) [[(1, 2, 3)]] ⟨[(1, 2, 3)], by simp, by simp⟩ [[7]]
    ⟨[7], by simp, by simp⟩ (.inl rfl) (.inl rfl) rfl

end
end Tiff

/-! ### Textures of loaded models -/

namespace Gltf
namespace Model

theorem dropAlpha_spec (n : ℕ) : ∀ l : List UInt8, l.length = 4 * n →
    (dropAlpha l).length = 3 * n ∧ ∀ p < n, ∀ c < 3, (dropAlpha l)[3 * p + c]? = l[4 * p + c]? := by
  induction n with
  | zero => intro l h; rw [List.length_eq_zero_iff.1 h]; exact ⟨rfl, by simp⟩
  | succ n ih =>
    intro l h
    match l, h with
    | r :: g :: b :: a :: l, h =>
      obtain ⟨i1, i2⟩ := ih l (by simp only [List.length_cons] at h; omega)
      refine ⟨by simp only [dropAlpha, List.length_cons, i1]; omega, ?_⟩
      intro p hp c hc
      cases p with
      | zero =>
        interval_cases c <;> rfl
      | succ p =>
        have e1 : 3 * (p + 1) + c = 3 * p + c + 1 + 1 + 1 := by ring
        have e2 : 4 * (p + 1) + c = 4 * p + c + 1 + 1 + 1 + 1 := by ring
        rw [e1, e2]
        simp only [dropAlpha, List.getElem?_cons_succ]
        exact i2 p (by omega) c hc

/-- **C115** The texture extracted for a picture of three or four components has the picture's size, and each of its pixels has
the picture's red, green and blue values, in this order; transparency is left out. -/
theorem C115_texture (M : Model) (id src w h k : ℕ) (t : Texture) (img : Image) (ht : M.textures[id]? = some t)
    (hs : t.source = src) (hi : M.images[src]? = some img) (hw : img.width = w) (hh : img.height = h) (hk : img.component = k)
    (hk34 : k = 3 ∨ k = 4) (hl : img.image.length = w * h * k) :
    ∃ mat, M.extractTexture id = .ok mat ∧ mat.rows = h ∧ mat.cols = w ∧ mat.data.length = 3 * (w * h) ∧
      ∀ p < w * h, ∀ c < 3, mat.data[3 * p + c]? = img.image[k * p + c]? := by
  refine ⟨⟨h, w, if img.component = 3 then img.image else dropAlpha img.image⟩, ?_, rfl, rfl, ?_, ?_⟩
  · unfold extractTexture
    rw [if_neg (by omega), Int.toNat_natCast, ht]
    dsimp only
    rw [if_neg (by omega), hs, Int.toNat_natCast, hi]
    dsimp only
    unfold cvImageFromImage
    rw [if_neg (by rw [hk]; omega), if_neg (by rw [hl, hw, hh, hk]; push_cast; simp), if_neg (by omega), hw, hh]
    simp only [Int.toNat_natCast]
  · rcases hk34 with rfl | rfl
    · rw [hk]; simp only [Nat.cast_ofNat, if_true]; omega
    · rw [hk]
      simp only [Nat.cast_ofNat]
      rw [if_neg (by decide)]
      exact (dropAlpha_spec (w * h) _ (by omega)).1
  · intro p hp c hc
    rcases hk34 with rfl | rfl
    · rw [hk]; simp only [Nat.cast_ofNat, if_true]
    · rw [hk]
      simp only [Nat.cast_ofNat]
      rw [if_neg (by decide)]
      exact (dropAlpha_spec (w * h) _ (by omega)).2 p hp c hc

/-- **C115** (partial: textures that name a picture.) What is refused: a texture number out of range is a `ValueError`; a texture whose picture is not there, a picture of
another number of components, or one whose data do not fit its size is a `RuntimeError`. -/
theorem C115_refused_partial (M : Model) (id : ℤ) :
    (id < 0 ∨ (M.textures.length : ℤ) ≤ id → M.extractTexture id = .error .valueError) ∧
    ∀ t, 0 ≤ id → M.textures[id.toNat]? = some t →
      ((M.images.length : ℤ) ≤ t.source → M.extractTexture id = .error .runtimeError) ∧
      ∀ img, 0 ≤ t.source → M.images[t.source.toNat]? = some img →
        (img.component ≠ 3 ∧ img.component ≠ 4 ∨ (img.image.length : ℤ) ≠ img.width * img.height * img.component) →
        M.extractTexture id = .error .runtimeError := by
  constructor
  · intro h
    unfold extractTexture
    by_cases h0 : id < 0
    · rw [if_pos h0]
    · rw [if_neg h0, List.getElem?_eq_none (by omega)]
  · intro t h0 ht
    have hu : M.extractTexture id = if t.source < 0 then .error .undefined
        else match M.images[t.source.toNat]? with
          | none => .error .runtimeError
          | some img => cvImageFromImage img := by
      unfold extractTexture
      rw [if_neg (by omega), ht]
      rfl
    constructor
    · intro h
      rw [hu, if_neg (by omega), List.getElem?_eq_none (by omega)]
    · intro img hsrc hi h
      rw [hu, if_neg (by omega), hi]
      dsimp only
      unfold cvImageFromImage
      split_ifs with h1 h2
      · rfl
      · rfl
      · rfl
      · exact absurd h (by tauto)

/-- **C115** is false of a texture without source (the default of the file format, stored as -1): the picture before the first
is read, which is undefined. -/
theorem C115_false : ∃ M : Model, M.textures = [⟨0, -1⟩] ∧ M.extractTexture 0 = .error .undefined :=
  ⟨{ textures := [⟨0, -1⟩] }, rfl, rfl⟩

/-- **C115** The base colour of an extracted mesh is the texture its material names; without one it is empty. -/
theorem C115_base_color {M : Model} {i : ℕ} {m : TexturedMesh F32 Mat3b} (h : M.extractTexturedPrimitiveMesh i = .ok m) :
    ∃ p mat, M.getPrimitiveMesh i = .ok p ∧ M.materials[p.material.toNat]? = some mat ∧
      (mat.values.get? "baseColorTexture" = none → m.baseColor.isEmpty = true) ∧
      (∀ tex (id : ℕ), mat.values.get? "baseColorTexture" = some tex → tex.num.get? "index" = some (id : ℚ) →
        M.extractTexture id = .ok m.baseColor) ∧
      (mat.values.get? "metallicRoughnessTexture" = none → m.metallicRoughness.isEmpty = true) ∧
      (∀ tex (id : ℕ), mat.values.get? "metallicRoughnessTexture" = some tex → tex.num.get? "index" = some (id : ℚ) →
        M.extractTexture id = .ok m.metallicRoughness) := by
  have key : ∀ (mat : GltfMaterial) (k : String) (c : Mat3b), M.materialTexture mat k = .ok c →
      (mat.values.get? k = none → c.isEmpty = true) ∧
      ∀ tex (id : ℕ), mat.values.get? k = some tex → tex.num.get? "index" = some (id : ℚ) → M.extractTexture id = .ok c := by
    intro mat k c hc
    unfold materialTexture at hc
    constructor
    · intro hn
      rw [hn] at hc
      cases hc
      rfl
    · intro tex id h1 h2
      rw [h1] at hc
      dsimp only at hc
      rw [h2] at hc
      dsimp only at hc
      have : toInt (id : ℚ) = id := by simp [toInt]
      rwa [this] at hc
  unfold extractTexturedPrimitiveMesh at h
  simp only [bind, Except.bind, pure, Except.pure] at h
  split at h
  · simp at h
  split at h
  · simp at h
  rename_i p hp
  split_ifs at h with ht
  split at h
  · simp at h
  split at h
  · simp at h
  split at h
  · simp at h
  rename_i mat hmat
  split at h
  · simp at h
  rename_i c hc
  split at h
  · simp at h
  rename_i r hr
  simp only [Except.ok.injEq] at h
  subst h
  have hm : M.materials[p.material.toNat]? = some mat := by
    unfold readMaterial at hmat
    split_ifs at hmat
    split at hmat
    · rename_i x hx; cases hmat; exact hx
    · cases hmat
  exact ⟨p, mat, hp, hm, (key mat _ _ hc).1, (key mat _ _ hc).2, (key mat _ _ hr).1, (key mat _ _ hr).2⟩

/-- A model with one transparent picture of 1×2 pixels. -/
def pictureExample : Model := {
  textures := [⟨0, 0⟩], images := [⟨"i", "i.png", 2, 1, 4, [1, 2, 3, 255, 4, 5, 6, 0], ""⟩] }

example : pictureExample.extractTexture 0 = .ok ⟨1, 2, [1, 2, 3, 4, 5, 6]⟩ ∧
    pictureExample.extractTexture 1 = .error .valueError := by decide

end Model
end Gltf

end Sumo
