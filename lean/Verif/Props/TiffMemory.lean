import Verif.Lemmas.TiffMemory

/-!
# Loading and saving TIFF files leaves memory and files behind (C151)
-/

namespace Sumo
namespace Tiff

variable {K : Type} [Field K] [LinearOrder K] [FloorRing K]

/-- A page that is refused: neither 1 nor 3 samples, neither 8 nor 16 bits, or an unknown name. -/
def Unreadable (p : Page K) : Prop := (p.raster = .oddSamples ∨ p.raster = .oddBits) ∨
  ∃ s, p.pageName = some s ∧ s ∉ ["rgb", "depth", "inv_depth", "category", "semantic", "instance"]

/-- **C151** the model with memory returns what the model without returns. -/
theorem C151_same_load (ρ : Rounding K) (files : TiffFiles K) (path : String) : (loadN ρ files path).2 = load ρ files path := by
  unfold loadN load readRgbdTiffN readRgbdTiff
  cases files path with
  | none => rfl
  | some l =>
    cases l with
    | nil => rfl
    | cons p l =>
      simp only [bind, Except.bind]
      cases readMetadata ρ p.description with
      | error e => rfl
      | ok near =>
        simp only [readImagesN_eq]
        rcases readImagesN (fun _ => none) (p :: l) with ⟨pm, e | u⟩
        · rfl
        · dsimp only
          have h := loadLoopN_eq ρ pm PageType.all ⟨filledMats pm, 0⟩ ([], near)
          rw [← h]
          rcases loadLoopN ρ pm ⟨filledMats pm, 0⟩ ([], near) PageType.all with ⟨n, e | ⟨images, near'⟩⟩
          · rfl
          · dsimp only
            cases images.get "depth" with
            | error e => rfl
            | ok im => cases im <;> rfl

/-- **C151** likewise for saving. -/
theorem C151_same_save (ρ : Rounding K) (writable : String → Bool) (files : TiffFiles K) (d : Dict String (NpImage K)) (path : String)
    (near : K) : (saveN ρ writable files d path near).2 = save ρ writable files d path near := by
  unfold saveN save
  cases validate d with
  | error e => rfl
  | ok u =>
    dsimp only
    rw [← (saveLoopN_spec d 0 (fun _ => none)).1]
    rcases saveLoopN ρ near 0 (fun _ => none) d with ⟨lost, e | pm⟩
    · rfl
    · dsimp only
      rcases writeRgbdTiff writable files pm path (ρ.f32 near) with ⟨f, e | u⟩ <;> rfl

/-- **C151** (partial: a call that returns still leaves objects, see `C151_false`.)  A `load` that returns leaves no file open and no
pixels in memory.  It leaves one empty `cv::Mat` for each of the four images that it does not return. -/
theorem C151_load_partial {ρ : Rounding K} {files : TiffFiles K} {path : String} {n : Native} {images : Dict String (NpImage K)}
    (h : loadN ρ files path = (n, .ok images)) : n.openFiles = 0 ∧ (∀ t m, n.mats t = some m → m.isEmpty = true) ∧
      n.left + images.length = 4 := by
  unfold loadN at h
  rcases hr : readRgbdTiffN ρ files path with ⟨n0, e | ⟨pm, near⟩⟩
  · rw [hr] at h; simp at h
  rw [hr] at h
  have h0 : n0 = ⟨filledMats pm, 0⟩ := by
    unfold readRgbdTiffN at hr
    cases hf : files path with
    | none => rw [hf] at hr; simp at hr
    | some l =>
      rw [hf] at hr
      cases l with
      | nil => simp at hr
      | cons p l =>
        dsimp only at hr
        cases hm : readMetadata ρ p.description with
        | error e => rw [hm] at hr; simp at hr
        | ok near' =>
          rw [hm] at hr
          dsimp only at hr
          rcases hi : readImagesN (fun _ => none) (p :: l) with ⟨pm', e | u⟩ <;> rw [hi] at hr
          · simp at hr
          · simp only [Prod.mk.injEq, Except.ok.injEq] at hr
            rw [← hr.1, hr.2.1]
  subst h0
  dsimp only at h
  rcases hl : loadLoopN ρ pm ⟨filledMats pm, 0⟩ ([], near) PageType.all with ⟨n1, e | ⟨im1, near1⟩⟩
  · rw [hl] at h; simp at h
  rw [hl] at h
  dsimp only at h
  have hof := loadLoopN_openFiles ρ pm PageType.all ⟨filledMats pm, 0⟩ ([], near)
  rw [hl] at hof
  obtain ⟨hm, hlen⟩ := loadLoopN_spec (by decide) (by simp [Dict.keys]) hl
  have hd : ∃ codes, im1.get "depth" = .ok (.u16 codes) ∧ n1 = n ∧
      images = im1.set "depth" (.f32 (depthImageOfInverseDepthMap ρ codes near1)) := by
    cases hg : im1.get "depth" with
    | error e => rw [hg] at h; simp at h
    | ok im =>
      rw [hg] at h
      cases im with
      | u16 codes =>
        simp only [Prod.mk.injEq, Except.ok.injEq] at h
        exact ⟨codes, rfl, h.1, h.2.symm⟩
      | _ => simp at h
  obtain ⟨codes, hg, rfl, rfl⟩ := hd
  have hkey : "depth" ∈ im1.keys := by
    rw [← Dict.has_iff_mem_keys, Dict.has_iff]
    exact ⟨_, Dict.get_eq_ok.1 hg⟩
  have hset : (im1.set "depth" (.f32 (depthImageOfInverseDepthMap ρ codes near1))).length = im1.length := by
    have := congrArg List.length (Dict.keys_set im1 "depth" (.f32 (depthImageOfInverseDepthMap ρ codes near1)))
    rw [if_pos hkey] at this
    simpa [Dict.keys] using this
  have mem : ∀ t, t ∈ PageType.all := by intro t; cases t <;> decide
  refine ⟨hof, ?_, ?_⟩
  · intro t m ht
    rw [hm t] at ht
    by_cases he : ((pm t).getD (.c8 [])).isEmpty = false
    · rw [if_pos ⟨mem t, he⟩] at ht; simp at ht
    · rw [if_neg (fun h => he h.2)] at ht
      simp only [filledMats, Option.some.injEq] at ht
      rw [← ht]; simpa using he
  · rw [hset, hlen]
    have e : (fun t => (n1.mats t).isSome) = fun t => ((pm t).getD (.c8 [])).isEmpty := by
      funext t
      rw [hm t]
      cases he : ((pm t).getD (.c8 [])).isEmpty <;> simp [mem t, filledMats]
    unfold Native.left
    rw [e]
    have := length_filter_add (fun t => ((pm t).getD (.c8 [])).isEmpty) PageType.all
    simp only [List.length_nil, Nat.zero_add]
    rw [this]; rfl

/-- **C151** when a file stays open: exactly when `load` gives up on it after opening it, because of its metadata or of a page. -/
theorem C151_open_files {ρ : Rounding K} {files : TiffFiles K} {path : String} (h : load ρ files path ≠ .error .undefined) :
    (loadN ρ files path).1.openFiles ≤ 1 ∧ ((loadN ρ files path).1.openFiles = 1 ↔
      ∃ p l, files path = some (p :: l) ∧ (p.description = .corrupt ∨ ∃ q ∈ p :: l, Unreadable q)) := by
  have pages : ∀ (l : List (Page K)) (pm : PageMap), (readImagesN pm l).2 ≠ .error .undefined →
      ((∃ e, (readImagesN pm l).2 = .error e) ↔ ∃ q ∈ l, Unreadable q) := by
    intro l
    induction l with
    | nil => intro pm _; simp [readImagesN]
    | cons p l ih =>
      intro pm hne
      have hre := readImage_error pm p
      simp only [readImagesN] at hne ⊢
      cases hp : readImage pm p with
      | error e =>
        rw [hp] at hne hre
        have hu : Unreadable p := hre.1 ⟨e, rfl, fun h' => hne (by rw [h'])⟩
        exact ⟨fun _ => ⟨p, by simp, hu⟩, fun _ => ⟨e, rfl⟩⟩
      | ok pm' =>
        rw [hp] at hne hre
        have hu : ¬ Unreadable p := fun hu => by
          obtain ⟨e, he, -⟩ := hre.2 hu
          simp at he
        rw [ih pm' hne]
        simp [hu]
  rw [← C151_same_load] at h
  have hN : (loadN ρ files path).1.openFiles = (readRgbdTiffN ρ files path).1.openFiles ∧
      ((readRgbdTiffN ρ files path).2 ≠ .error .undefined) := by
    unfold loadN at h ⊢
    rcases hr : readRgbdTiffN ρ files path with ⟨n, e | ⟨pm, near⟩⟩
    · rw [hr] at h
      exact ⟨rfl, fun h' => h (by simpa using h')⟩
    · refine ⟨?_, by simp⟩
      have hof := loadLoopN_openFiles ρ pm PageType.all n ([], near)
      dsimp only
      rcases hl : loadLoopN ρ pm n ([], near) PageType.all with ⟨n', e | ⟨images, near'⟩⟩ <;> rw [hl] at hof
      · exact hof
      · dsimp only at hof ⊢
        cases images.get "depth" with
        | error e => exact hof
        | ok im => cases im <;> exact hof
  rw [hN.1]
  replace h := hN.2
  clear hN
  unfold readRgbdTiffN at h ⊢
  cases hf : files path with
  | none => simp
  | some l =>
    rw [hf] at h
    cases l with
    | nil => simp
    | cons p l =>
      dsimp only at h ⊢
      cases hm : readMetadata ρ p.description with
      | error e =>
        have hc : p.description = .corrupt := by
          revert hm
          cases p.description with
          | corrupt => exact fun _ => rfl
          | missing => simp [readMetadata]
          | object o => cases o <;> simp [readMetadata]
        exact ⟨le_refl 1, fun _ => ⟨p, l, rfl, Or.inl hc⟩, fun _ => rfl⟩
      | ok near =>
        have hc : p.description ≠ .corrupt := by
          intro hc; rw [hc] at hm; simp [readMetadata] at hm
        rw [hm] at h
        dsimp only at h ⊢
        have hp := pages (p :: l) (fun _ => none)
        rcases hi : readImagesN (fun _ => none) (p :: l) with ⟨pm, e | u⟩
        · rw [hi] at h hp
          have hun := (hp (by simpa using h)).1 ⟨e, rfl⟩
          exact ⟨le_refl 1, fun _ => ⟨p, l, rfl, Or.inr hun⟩, fun _ => rfl⟩
        · rw [hi] at hp
          have hno : ¬ ∃ q ∈ p :: l, Unreadable q := fun hq => by
            obtain ⟨e, he⟩ := (hp (by simp)).2 hq
            simp at he
          refine ⟨Nat.zero_le 1, fun h1 => absurd h1 (by simp), ?_⟩
          rintro ⟨q, l', h1, h2⟩
          simp only [Option.some.injEq, List.cons.injEq] at h1
          obtain ⟨rfl, rfl⟩ := h1
          exact (h2.elim hc hno).elim

/-- **C151 is false** of files that are refused: the file stays open, or the pixels stay in memory. -/
theorem C151_refused_false (ρ : Rounding K) (rows : List (List (ℕ × ℕ × ℕ))) (hr : HasPixels rows) :
    (∀ files : TiffFiles K, files "x.tif" = some [⟨none, .corrupt, .rgb8 rows⟩] → load ρ files "x.tif" = .error .runtimeError ∧
      (loadN ρ files "x.tif").1.openFiles = 1) ∧
    (∀ files : TiffFiles K, files "x.tif" = some [⟨some "inv_depth", .missing, .rgb8 rows⟩] →
      load ρ files "x.tif" = .error .valueError ∧ (loadN ρ files "x.tif").1.mats .inverseDepth = some (.c3 rows)) := by
  have he : rows.all List.isEmpty = false := hasPixels_iff.1 hr
  constructor
  · intro files hf
    rw [← C151_same_load]
    simp [loadN, readRgbdTiffN, hf, readMetadata]
  · intro files hf
    rw [← C151_same_load]
    simp [loadN, readRgbdTiffN, hf, readMetadata, readImagesN, readImage, readPageType, strToPageType, bind, Except.bind, loadLoopN,
      PageType.all, loadStep, PageMap.put, CvMat.isEmpty, he, filledMats]

variable [IsStrictOrderedRing K]

/-- **C151 is false** of loading, however well behaved the files: every `Rgbd360` that is saved and loaded leaves two `cv::Mat` objects
behind, each time it is loaded. -/
theorem C151_false {ρ : Rounding K} (hρ : ρ.Lawful) (writable : String → Bool) (files : TiffFiles K)
    {a : List (List (ℕ × ℕ × ℕ))} {im : List (List (FVal K))} {x : Rgbd360 K} (hx : Rgbd360.init (.rgb8 a) (.f32 im) = .ok x)
    (pa : HasPixels a) (pim : HasPixels im) {path : String} (hw : writable path = true) {near : K} (hn : 0 < near)
    (hs : ρ.IsSingle (ρ.f32 near)) (times : ℕ) :
    loadAllN ρ (x.save ρ writable files path near).1 (List.replicate times path) = (2 * times, 0) := by
  cases hx
  have hd : Valid ([("rgb", .rgb8 a), ("depth", .f32 im)] : Dict String (NpImage K)) :=
    ⟨by unfold Dict.NodupKeys Dict.keys; simp, by simp [Dict.keys], ⟨a, rfl, pa⟩, ⟨im, rfl, pim⟩, by
      intro k hk v hv
      simp only [List.mem_cons, List.not_mem_nil, or_false] at hk
      rcases hk with rfl | rfl <;> simp [Dict.get?] at hv⟩
  obtain ⟨a', im', b, c, e, ha, him, -, -, -, -, hc, he, h1, h2⟩ := save_valid hρ writable files hd hw hn hs
  have hc' : c = none := by cases c <;> simp [Dict.get?] at hc ⊢
  have he' : e = none := by cases e <;> simp [Dict.get?] at he ⊢
  subst hc' he'
  rw [← C151_same_load] at h2
  have h3 := C151_load_partial (n := (loadN ρ (save ρ writable files [("rgb", .rgb8 a), ("depth", .f32 im)] path near).1 path).1)
    (Prod.ext rfl h2)
  have h4 : (loadN ρ (save ρ writable files [("rgb", .rgb8 a), ("depth", .f32 im)] path near).1 path).1.left = 2 := by
    have := h3.2.2
    simp at this
    omega
  unfold loadAllN Rgbd360.save
  simp only [List.map_replicate, List.sum_replicate, h4, h3.1]
  simp [Nat.mul_comm]

/-- **C151** saving: a `save` that returns leaves nothing, unless it was given both a depth and an inverse depth image; one that cannot
write the file leaves one `cv::Mat` for every image. -/
theorem C151_save {ρ : Rounding K} {writable : String → Bool} {files : TiffFiles K} {d : Dict String (NpImage K)} (hd : d.NodupKeys)
    {path : String} {near : K} :
    ((save ρ writable files d path near).2 = .ok () →
      (saveN ρ writable files d path near).1 = if "depth" ∈ d.keys ∧ "invdepth" ∈ d.keys then 1 else 0) ∧
    ((∀ kv ∈ d, Typed kv) → "rgb" ∈ d.keys → ("depth" ∉ d.keys ∧ "invdepth" ∉ d.keys ∨ writable path = false) →
      (saveN ρ writable files d path near).1 = d.length) := by
  have spec := saveLoopN_spec (ρ := ρ) (near := near) d 0 (fun _ => none)
  have keyMem : ∀ k, k ∈ d.keys ↔ ∃ kv ∈ d, kv.1 = k := fun k => by simp [Dict.keys]
  have known : ∀ kv : String × NpImage K, Typed kv → kv.1 ∈ ["rgb", "depth", "invdepth", "category", "instance"] := by
    rintro ⟨k, im⟩ h
    cases im <;> simp [Typed] at h ⊢ <;> tauto
  have sizeZero : PageMap.size (fun _ => none) = 0 := by simp [PageMap.size]
  constructor
  · intro hok
    obtain ⟨htyped, hrgb, hdep, hw⟩ := (C71_accepts_iff ρ writable files hd path near).1 hok
    rw [← C151_same_save] at hok
    unfold saveN at hok ⊢
    cases hv : validate d with
    | error e => rw [hv] at hok; simp at hok
    | ok u =>
      rw [hv] at hok
      dsimp only at hok ⊢
      rcases hl : saveLoopN ρ near 0 (fun _ => none) d with ⟨lost, e | pm⟩
      · rw [hl] at hok; simp at hok
      · rw [hl] at hok spec
        obtain ⟨-, spec⟩ := spec
        obtain ⟨s1, s2⟩ := spec pm rfl
        dsimp only at hok s1 ⊢
        rcases hwr : writeRgbdTiff writable files pm path (ρ.f32 near) with ⟨f, e | u⟩
        · rw [hwr] at hok; simp at hok
        dsimp only
        rw [sizeZero, length_of_keys hd (fun k hk => by
          obtain ⟨kv, h1, rfl⟩ := (keyMem k).1 hk
          exact known kv (htyped kv h1))] at s1
        have t1 : (pm .rgb).isSome = decide ("rgb" ∈ d.keys) := by
          rw [s2, Bool.eq_iff_iff]; simp only [Option.isSome_none, Bool.false_or, List.any_eq_true, decide_eq_true_eq, keyMem]
          exact exists_congr fun kv => and_congr_right fun h => by unfold typeOf; split_ifs <;> simp_all
        have t2 : (pm .inverseDepth).isSome = (decide ("depth" ∈ d.keys) || decide ("invdepth" ∈ d.keys)) := by
          rw [s2, Bool.eq_iff_iff]
          simp only [Option.isSome_none, Bool.false_or, Bool.or_eq_true, List.any_eq_true, decide_eq_true_eq, keyMem, ← exists_or, ← and_or_left]
          exact exists_congr fun kv => and_congr_right fun h => by unfold typeOf; split_ifs <;> simp_all
        have t3 : (pm .category).isSome = decide ("category" ∈ d.keys) := by
          rw [s2, Bool.eq_iff_iff]; simp only [Option.isSome_none, Bool.false_or, List.any_eq_true, decide_eq_true_eq, keyMem]
          exact exists_congr fun kv => and_congr_right fun h => by unfold typeOf; split_ifs <;> simp_all
        have t4 : (pm .instance_).isSome = decide ("instance" ∈ d.keys) := by
          rw [s2, Bool.eq_iff_iff]; simp only [Option.isSome_none, Bool.false_or, List.any_eq_true, decide_eq_true_eq, keyMem]
          exact exists_congr fun kv => and_congr_right fun h => by unfold typeOf; split_ifs <;> simp_all
        unfold PageMap.size PageType.all at s1
        simp only [List.filter_cons, List.filter_nil, t1, t2, t3, t4] at s1
        by_cases k1 : "rgb" ∈ d.keys <;> by_cases k2 : "depth" ∈ d.keys <;> by_cases k3 : "invdepth" ∈ d.keys <;>
          by_cases k4 : "category" ∈ d.keys <;> by_cases k5 : "instance" ∈ d.keys <;> simp [k1, k2, k3, k4, k5] at s1 ⊢ <;> omega
  · intro htyped hrgb hno
    have hfail : ¬ (save ρ writable files d path near).2 = .ok () := by
      rw [C71_accepts_iff ρ writable files hd path near]
      rintro ⟨-, -, h1, h2⟩
      rcases hno with ⟨h3, h4⟩ | h3
      · exact h1.elim h3 h4
      · rw [h3] at h2; simp at h2
    have hval : validate d = .ok () := by
      have hg : ∃ rows, d.get? "rgb" = some (.rgb8 rows) := by
        obtain ⟨kv, h1, h2⟩ := (keyMem "rgb").1 hrgb
        have ht := htyped kv h1
        obtain ⟨k, im⟩ := kv
        simp only at h2
        subst h2
        cases im <;> simp [Typed] at ht
        exact ⟨_, Dict.get?_of_mem hd h1⟩
      obtain ⟨rows, hg⟩ := hg
      have hdp : ∀ im, d.get? "depth" = some im → ∃ rows, im = .f32 rows := by
        intro im h
        have ht := htyped _ (Dict.mem_of_get? h)
        cases im <;> simp [Typed] at ht ⊢
      have hid : ∀ im, d.get? "invdepth" = some im → ∃ rows, im = .u16 rows := by
        intro im h
        have ht := htyped _ (Dict.mem_of_get? h)
        cases im <;> simp [Typed] at ht ⊢
      unfold validate
      simp only [Dict.get, hg, bind, Except.bind]
      cases h1 : d.get? "depth" with
      | some im => obtain ⟨r, rfl⟩ := hdp im h1; rfl
      | none =>
        dsimp only
        cases h2 : d.get? "invdepth" with
        | some im => obtain ⟨r, rfl⟩ := hid im h2; rfl
        | none => rfl
    obtain ⟨pm, hpm, -⟩ := (saveLoop_spec ρ near d (fun _ => none)).1 (fun kv h => matOf_isSome_iff.2 (htyped kv h))
    rw [← C151_same_save] at hfail
    unfold saveN at hfail ⊢
    rw [hval] at hfail ⊢
    dsimp only at hfail ⊢
    rcases hl : saveLoopN ρ near 0 (fun _ => none) d with ⟨lost, e | pm'⟩
    · rw [hl] at spec; rw [hpm] at spec; simp at spec
    · rw [hl] at spec hfail
      obtain ⟨s1, -⟩ := spec.2 pm' rfl
      dsimp only at hfail s1 ⊢
      rcases hwr : writeRgbdTiff writable files pm' path (ρ.f32 near) with ⟨f, e | u⟩
      · dsimp only
        rw [s1, sizeZero]; omega
      · rw [hwr] at hfail; simp at hfail

/-- A case of `C151_save` with both depths: one object is lost. -/
example (ρ : Rounding K) (files : TiffFiles K) :
    (saveN ρ (fun _ => true) files [("rgb", .rgb8 [[(1, 2, 3)]]), ("depth", .f32 [[.fin 2]]), ("invdepth", .u16 [[7]])] "x.tif" 1).1 = 1 := by
  rw [(C151_save (by unfold Dict.NodupKeys Dict.keys; simp)).1]
  · simp [Dict.keys]
  · rw [C71_accepts_iff _ _ _ (by unfold Dict.NodupKeys Dict.keys; simp)]
    refine ⟨?_, by simp [Dict.keys], by simp [Dict.keys], rfl⟩
    intro kv hkv
    simp only [List.mem_cons, List.not_mem_nil, or_false] at hkv
    rcases hkv with rfl | rfl | rfl <;> simp [Typed]

/-- A case where the file cannot be written: both objects are lost. -/
example (ρ : Rounding K) (files : TiffFiles K) :
    (saveN ρ (fun _ => false) files [("rgb", .rgb8 [[(1, 2, 3)]]), ("depth", .f32 [[.fin 2]])] "x.tif" 1).1 = 2 := by
  rw [(C151_save (by unfold Dict.NodupKeys Dict.keys; simp)).2 _ (by simp [Dict.keys]) (Or.inr rfl)]
  · rfl
  · intro kv hkv
    simp only [List.mem_cons, List.not_mem_nil, or_false] at hkv
    rcases hkv with rfl | rfl <;> simp [Typed]

/-- The hypotheses of `C151_false` are met. -/
example : HasPixels [[((1 : ℕ), (2 : ℕ), (3 : ℕ))]] ∧ HasPixels [[(FVal.fin 2 : FVal ℚ)]] ∧
    ∃ x, Rgbd360.init (.rgb8 [[(1, 2, 3)]]) (.f32 [[(FVal.fin 2 : FVal ℚ)]]) = .ok x :=
  ⟨⟨_, List.mem_singleton_self _, by simp⟩, ⟨_, List.mem_singleton_self _, by simp⟩, _, rfl⟩

end Tiff
end Sumo
