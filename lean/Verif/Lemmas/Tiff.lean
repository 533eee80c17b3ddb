import Verif.Spec.Tiff
import Verif.Lemmas.Dict
import Verif.Props.InverseDepth

/-! # Lemmas about TIFF files -/

namespace Sumo
namespace Tiff

set_option linter.unusedSectionVars false

variable {K : Type} [Field K] [LinearOrder K] [IsStrictOrderedRing K] [FloorRing K]

/-- What `saveStep` stores for an entry. -/
def matOf (ρ : Rounding K) (near : K) (kv : String × NpImage K) : Option (PageType × CvMat) :=
  match kv.2 with
  | .f32 rows => if kv.1 = "depth" then
      some (.inverseDepth, .c16 (inverseDepthMapOfDepthImage ρ rows (ρ.f32 near))) else none
  | .rgb8 rows => if kv.1 = "rgb" then some (.rgb, .c3 rows) else none
  | .u16 rows =>
    if kv.1 = "invdepth" then some (.inverseDepth, .c16 rows)
    else if kv.1 = "category" then some (.category, .c16 rows)
    else if kv.1 = "instance" then some (.instance_, .c16 rows)
    else none
  | .rgb8s _ => none
  | .u16s _ => none
  | .other => none

theorem saveStep_eq (ρ : Rounding K) (near : K) (pm : PageMap) (kv : String × NpImage K) :
    (∀ t m, matOf ρ near kv = some (t, m) → saveStep ρ near pm kv = .ok (pm.put t m)) ∧
    (matOf ρ near kv = none → ∃ e, saveStep ρ near pm kv = .error e) := by
  obtain ⟨k, im⟩ := kv
  by_cases k1 : k = "depth"
  · subst k1
    cases im <;> simp +contextual [matOf, saveStep, eq_comm]
  by_cases k2 : k = "invdepth"
  · subst k2
    cases im <;> simp +contextual [matOf, saveStep, eq_comm]
  by_cases k3 : k = "rgb"
  · subst k3
    cases im <;> simp +contextual [matOf, saveStep, eq_comm]
  by_cases k4 : k = "category"
  · subst k4
    cases im <;> simp +contextual [matOf, saveStep, eq_comm]
  by_cases k5 : k = "instance"
  · subst k5
    cases im <;> simp +contextual [matOf, saveStep, eq_comm]
  cases im <;> simp [matOf, saveStep, k1, k2, k3, k4, k5]

/-- The loop stores, for each page type, what belongs there. -/
theorem saveLoop_spec (ρ : Rounding K) (near : K) (l : List (String × NpImage K)) (pm : PageMap) :
    ((∀ kv ∈ l, (matOf ρ near kv).isSome) →
      ∃ pm', saveLoop ρ near pm l = .ok pm' ∧ ∀ t,
        (∀ m, (∃ kv ∈ l, matOf ρ near kv = some (t, m)) → (∀ kv ∈ l, ∀ m', matOf ρ near kv = some (t, m') → m' = m) →
          pm' t = some m) ∧
        ((∀ kv ∈ l, ∀ m', matOf ρ near kv ≠ some (t, m')) → pm' t = pm t)) ∧
    ((∃ kv ∈ l, matOf ρ near kv = none) → ∃ e, saveLoop ρ near pm l = .error e) := by
  induction l generalizing pm with
  | nil => exact ⟨fun _ => ⟨pm, rfl, fun t => ⟨fun m h => by simp at h, fun _ => rfl⟩⟩, fun h => by simp at h⟩
  | cons kv l ih =>
    constructor
    · intro h
      obtain ⟨⟨t0, m0⟩, h0⟩ := Option.isSome_iff_exists.1 (h kv (by simp))
      obtain ⟨pm', h1, h2⟩ := (ih (pm.put t0 m0)).1 (fun x hx => h x (by simp [hx]))
      refine ⟨pm', ?_, fun t => ⟨fun m hex hun => ?_, fun hno => ?_⟩⟩
      · simp only [saveLoop, (saveStep_eq ρ near pm kv).1 t0 m0 h0, bind, Except.bind]; exact h1
      · by_cases hl : ∃ x ∈ l, matOf ρ near x = some (t, m)
        · exact (h2 t).1 m hl (fun x hx => hun x (by simp [hx]))
        · have hno : ∀ x ∈ l, ∀ m', matOf ρ near x ≠ some (t, m') := fun x hx m' hm' =>
            hl ⟨x, hx, by rw [hm', hun x (by simp [hx]) m' hm']⟩
          rw [(h2 t).2 hno]
          obtain ⟨x, hx, hm⟩ := hex
          rcases List.mem_cons.1 hx with rfl | hx
          · rw [h0] at hm
            simp only [Option.some.injEq, Prod.mk.injEq] at hm
            obtain ⟨rfl, rfl⟩ := hm
            simp [PageMap.put]
          · exact absurd ⟨x, hx, hm⟩ hl
      · rw [(h2 t).2 (fun x hx => hno x (by simp [hx]))]
        have : t ≠ t0 := fun e => hno kv (by simp) m0 (e ▸ h0)
        simp [PageMap.put, this]
    · rintro ⟨x, hx, hn⟩
      cases h0 : matOf ρ near kv with
      | none =>
        obtain ⟨e, he⟩ := (saveStep_eq ρ near pm kv).2 h0
        exact ⟨e, by simp only [saveLoop, he, bind, Except.bind]⟩
      | some tm =>
        obtain ⟨t0, m0⟩ := tm
        rcases List.mem_cons.1 hx with rfl | hx
        · rw [h0] at hn; cases hn
        · obtain ⟨e, he⟩ := (ih (pm.put t0 m0)).2 ⟨x, hx, hn⟩
          exact ⟨e, by simp only [saveLoop, (saveStep_eq ρ near pm kv).1 t0 m0 h0, bind, Except.bind]; exact he⟩

/-- Every depth has a code, and its decoded value is the quantised depth. -/
theorem encode_quantised {ρ : Rounding K} (hρ : ρ.Lawful) {near : K} (hn : 0 < near) (hs : ρ.IsSingle near) (x : FVal K) :
    inverseDepthOfDepth ρ x near ≤ 65535 ∧
      Quantised near x (depthOfInverseDepth ρ (inverseDepthOfDepth ρ x near) near) := by
  have hzero : depthOfInverseDepth ρ 0 near = .posInf := by simp [depthOfInverseDepth]
  have hmax : depthOfInverseDepth ρ 65535 near = .fin near := by
    obtain ⟨_, _, -, -, -, -, h, -⟩ := C70_decode16 ρ hρ near hn hs 65535 (by norm_num) le_rfl
    exact h
  have key : ∀ c, inverseDepthOfDepth ρ x near = c → c ≤ 65535 → Quantised near x (depthOfInverseDepth ρ c near) →
      inverseDepthOfDepth ρ x near ≤ 65535 ∧
        Quantised near x (depthOfInverseDepth ρ (inverseDepthOfDepth ρ x near) near) := by
    rintro c rfl h1 h2; exact ⟨h1, h2⟩
  cases x with
  | nan => exact key 0 (code_nan ρ near) (by norm_num) hzero
  | posInf => exact key 0 (code_of_body (half_toUint (by norm_num))) (by norm_num) hzero
  | negInf => exact key 65535 rfl le_rfl hmax
  | fin x =>
    by_cases h0 : x = 0
    · exact key 0 (code_of_body (by simp [inverseDepthBody, h0])) (by norm_num)
        (by simp only [Quantised, if_pos h0]; exact hzero)
    by_cases hle : x ≤ near
    · exact key 65535 (code_of_body (by simp [inverseDepthBody, h0, hle])) le_rfl (by
        simp only [Quantised, if_neg h0, if_pos hle]; exact hmax)
    have hpos : 0 < x := hn.trans (not_le.1 hle)
    obtain ⟨n, h1, h2, -, h4⟩ := C70_error16 ρ hρ near x hn hpos
    refine key n h1 h2 ?_
    simp only [Quantised, if_neg h0, if_neg hle]
    refine ⟨n, h2, h4 (not_le.1 hle), fun e => by rw [e]; exact hzero, fun e => ?_⟩
    obtain ⟨d, _, k1, -, -, -, -, k6, -⟩ := C70_decode16 ρ hρ near hn hs n e h2
    exact ⟨d, k1, k6⟩

/-- The codes of an image. -/
theorem codes_quantised {ρ : Rounding K} (hρ : ρ.Lawful) {near : K} (hn : 0 < near) (hs : ρ.IsSingle near)
    (im : List (List (FVal K))) :
    Values16 (inverseDepthMapOfDepthImage ρ im near) ∧
      (inverseDepthMapOfDepthImage ρ im near).map List.length = im.map List.length ∧
      QuantisedImage near im (depthImageOfInverseDepthMap ρ (inverseDepthMapOfDepthImage ρ im near) near) := by
  refine ⟨?_, by simp [inverseDepthMapOfDepthImage, mapImage, Function.comp_def], ?_⟩
  · intro row hrow c hc
    obtain ⟨r, -, rfl⟩ := List.mem_map.1 hrow
    obtain ⟨x, -, rfl⟩ := List.mem_map.1 hc
    exact (encode_quantised hρ hn hs x).1
  · unfold QuantisedImage depthImageOfInverseDepthMap inverseDepthMapOfDepthImage mapImage
    rw [List.map_map, List.forall₂_map_right_iff, List.forall₂_same]
    intro row _
    simp only [Function.comp]
    rw [List.map_map, List.forall₂_map_right_iff, List.forall₂_same]
    intro x _
    exact (encode_quantised hρ hn hs x).2

theorem hasPixels_iff {α : Type} {rows : List (List α)} : HasPixels rows ↔ rows.all List.isEmpty = false := by
  rw [List.all_eq_false]
  simp [HasPixels]

theorem hasPixels_of_lengths {α β : Type} {a : List (List α)} {b : List (List β)} (h : a.map List.length = b.map List.length)
    (hb : HasPixels b) : HasPixels a := by
  induction a generalizing b with
  | nil =>
    cases b with
    | nil => obtain ⟨r, hr, -⟩ := hb; simp at hr
    | cons x b => simp at h
  | cons y a ih =>
    cases b with
    | nil => simp at h
    | cons x b =>
      simp only [List.map_cons, List.cons.injEq] at h
      obtain ⟨r, hr, hne⟩ := hb
      rcases List.mem_cons.1 hr with rfl | hr
      · refine ⟨y, by simp, fun e => hne ?_⟩
        rw [e] at h
        exact List.length_eq_zero_iff.1 h.1.symm
      · obtain ⟨r', h1, h2⟩ := ih h.2 ⟨r, hr, hne⟩
        exact ⟨r', by simp [h1], h2⟩

/-- Loading the pages of a map of the right types. -/
theorem load_pagesOf {ρ : Rounding K} {files : TiffFiles K} {path : String} {pm : PageMap} {near : K}
    (hf : files path = some (pagesOf pm near)) (hs : ρ.f32 near = near) {a : List (List (ℕ × ℕ × ℕ))}
    {b : List (List ℕ)} {c e : Option (List (List ℕ))} (ha : pm .rgb = some (.c3 a)) (hb : pm .inverseDepth = some (.c16 b))
    (hc : pm .category = c.map .c16) (he : pm .instance_ = e.map .c16) (pa : HasPixels a) (pb : HasPixels b)
    (pc : ∀ x, c = some x → HasPixels x) (pe : ∀ x, e = some x → HasPixels x) :
    load ρ files path = .ok ([("rgb", .rgb8 a), ("depth", .f32 (depthImageOfInverseDepthMap ρ b near))] ++
      (c.map fun x => ("category", NpImage.u16 x)).toList ++ (e.map fun x => ("instance", NpImage.u16 x)).toList) := by
  have hread : readRgbdTiff ρ files path = .ok (pm, near) := by
    have hpm : ∀ pm' : PageMap, (∀ t, pm' t = pm t) → pm' = pm := fun pm' h => funext h
    unfold readRgbdTiff
    rw [hf]
    cases c <;> cases e <;>
      simp only [pagesOf, PageType.all, List.filterMap_cons, List.filterMap_nil, ha, hb, hc, he, Option.map_some,
        Option.map_none, rasterOf, List.zipIdx_cons, List.zipIdx_nil, List.map_cons, List.map_nil, readMetadata, hs, bind,
        Except.bind, readImages, readImage, readPageType, pageTypeToStr, strToPageType, if_true] <;>
      simp [bind, Except.bind] <;>
      (apply hpm; intro t; cases t <;> simp [PageMap.put, ha, hb, hc, he])
  have na := hasPixels_iff.1 pa
  have nb := hasPixels_iff.1 pb
  unfold load
  rw [hread]
  cases c with
  | none =>
    cases e with
    | none =>
      simp only [bind, Except.bind, PageType.all, loadLoop, loadStep, ha, hb, hc, he, CvMat.isEmpty, na, nb, Option.map_none]
      rfl
    | some e =>
      have ne := hasPixels_iff.1 (pe e rfl)
      simp only [bind, Except.bind, PageType.all, loadLoop, loadStep, ha, hb, hc, he, CvMat.isEmpty, na, nb, ne,
        Option.map_none, Option.map_some]
      rfl
  | some c =>
    have nc := hasPixels_iff.1 (pc c rfl)
    cases e with
    | none =>
      simp only [bind, Except.bind, PageType.all, loadLoop, loadStep, ha, hb, hc, he, CvMat.isEmpty, na, nb, nc,
        Option.map_none, Option.map_some]
      rfl
    | some e =>
      have ne := hasPixels_iff.1 (pe e rfl)
      simp only [bind, Except.bind, PageType.all, loadLoop, loadStep, ha, hb, hc, he, CvMat.isEmpty, na, nb, nc, ne,
        Option.map_some]
      rfl

end Tiff
end Sumo
