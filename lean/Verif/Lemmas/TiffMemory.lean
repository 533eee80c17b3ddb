import Verif.Model.TiffMemory
import Verif.Props.Tiff

/-! What loading and saving TIFF files leaves behind. -/

namespace Sumo
namespace Tiff

variable {K : Type} [Field K] [LinearOrder K] [FloorRing K]

/-! ### Loading -/

theorem readImagesN_eq (l : List (Page K)) (pm : PageMap) :
    readImages pm l = match readImagesN pm l with | (pm', .ok ()) => .ok pm' | (_, .error e) => .error e := by
  induction l generalizing pm with
  | nil => rfl
  | cons p l ih =>
    simp only [readImages, readImagesN, bind, Except.bind]
    cases readImage pm p with
    | error e => rfl
    | ok pm' => exact ih pm'

theorem loadLoopN_eq (ρ : Rounding K) (pm : PageMap) (l : List PageType) (n : Native) (st : Dict String (NpImage K) × K) :
    (loadLoopN ρ pm n st l).2 = loadLoop ρ pm st l := by
  induction l generalizing n st with
  | nil => rfl
  | cons t l ih =>
    simp only [loadLoop, loadLoopN, bind, Except.bind]
    cases loadStep ρ pm st t with
    | error e => rfl
    | ok st' =>
      dsimp only
      split_ifs
      · exact ih ..
      · exact ih ..

theorem loadLoopN_openFiles (ρ : Rounding K) (pm : PageMap) (l : List PageType) (n : Native) (st : Dict String (NpImage K) × K) :
    (loadLoopN ρ pm n st l).1.openFiles = n.openFiles := by
  induction l generalizing n st with
  | nil => rfl
  | cons t l ih =>
    simp only [loadLoopN]
    cases loadStep ρ pm st t with
    | error e => rfl
    | ok st' =>
      dsimp only
      split_ifs
      · exact ih ..
      · exact ih ..

/-- The key under which `load` returns an image. -/
def keyOf : PageType → String
  | .rgb => "rgb"
  | .inverseDepth => "depth"
  | .category => "category"
  | .instance_ => "instance"

theorem keyOf_inj {s t : PageType} (h : keyOf s = keyOf t) : s = t := by
  revert h; cases s <;> cases t <;> decide

theorem loadStep_ok {ρ : Rounding K} {pm : PageMap} {st st' : Dict String (NpImage K) × K} {t : PageType}
    (h : loadStep ρ pm st t = .ok st') :
    if ((pm t).getD (.c8 [])).isEmpty then st'.1 = st.1 else ∃ im, st'.1 = st.1.set (keyOf t) im := by
  unfold loadStep at h
  cases hm : pm t with
  | none =>
    rw [hm] at h
    simp only [Except.ok.injEq] at h
    simp [CvMat.isEmpty, h]
  | some m =>
    rw [hm] at h
    simp only [Option.getD_some]
    dsimp only at h
    split_ifs at h ⊢ with he
    · simp only [Except.ok.injEq] at h; rw [h]
    · cases t <;> cases m <;> simp only [Except.ok.injEq, reduceCtorEq] at h <;> exact ⟨_, by rw [← h]; rfl⟩

/-- After the loop: a type is deleted if it was in the list and not empty, and the images returned are as many. -/
theorem loadLoopN_spec {ρ : Rounding K} {pm : PageMap} {l : List PageType} (hl : l.Nodup) {n n' : Native}
    {st st' : Dict String (NpImage K) × K} (hk : ∀ t ∈ l, keyOf t ∉ st.1.keys) (h : loadLoopN ρ pm n st l = (n', .ok st')) :
    (∀ t, n'.mats t = if t ∈ l ∧ ((pm t).getD (.c8 [])).isEmpty = false then none else n.mats t) ∧
    st'.1.length = st.1.length + (l.filter fun t => !((pm t).getD (.c8 [])).isEmpty).length := by
  induction l generalizing n st with
  | nil =>
    simp only [loadLoopN, Prod.mk.injEq, Except.ok.injEq] at h
    obtain ⟨rfl, rfl⟩ := h
    simp
  | cons t l ih =>
    obtain ⟨hne, hl'⟩ := List.nodup_cons.1 hl
    simp only [loadLoopN] at h
    cases hs : loadStep ρ pm st t with
    | error e => rw [hs] at h; simp at h
    | ok st1 =>
      rw [hs] at h
      dsimp only at h
      have h1 := loadStep_ok hs
      by_cases he : ((pm t).getD (.c8 [])).isEmpty = true
      · rw [if_pos he] at h h1
        obtain ⟨a, b⟩ := ih hl' (fun s hs => by rw [h1]; exact hk s (by simp [hs])) h
        refine ⟨fun s => ?_, ?_⟩
        · rw [a s]
          by_cases hst : s = t
          · subst hst; simp [hne, he]
          · simp [hst]
        · rw [b, h1]; simp [he]
      · rw [if_neg he] at h h1
        obtain ⟨im, h1⟩ := h1
        have hkt : keyOf t ∉ st.1.keys := hk t (by simp)
        obtain ⟨a, b⟩ := ih hl' (fun s hs => by
          rw [h1, Dict.mem_keys_set]
          rintro (h' | h')
          · exact hne (keyOf_inj h' ▸ hs)
          · exact hk s (by simp [hs]) h') h
        refine ⟨fun s => ?_, ?_⟩
        · rw [a s]
          by_cases hst : s = t
          · subst hst; simp [hne, he]
          · simp [hst]
        · rw [b, h1, Dict.set_of_not_mem hkt]; simp [he]; omega

theorem length_filter_add {α : Type} (p : α → Bool) (l : List α) : (l.filter p).length + (l.filter fun a => !p a).length = l.length := by
  induction l with
  | nil => rfl
  | cons a l ih => cases h : p a <;> simp [h] <;> omega

/-- A page `readImage` can read. -/
theorem readImage_error (pm : PageMap) (p : Page K) : (∃ e, readImage pm p = .error e ∧ e ≠ .undefined) ↔
    ((p.raster = .oddSamples ∨ p.raster = .oddBits) ∨
      ∃ s, p.pageName = some s ∧ s ∉ ["rgb", "depth", "inv_depth", "category", "semantic", "instance"]) := by
  have name : ∀ s, (∃ t, strToPageType s = .ok t) ∧ s ∈ ["rgb", "depth", "inv_depth", "category", "semantic", "instance"] ∨
      strToPageType s = .error .indexError ∧ s ∉ ["rgb", "depth", "inv_depth", "category", "semantic", "instance"] := by
    intro s
    unfold strToPageType
    split_ifs <;> simp_all
  obtain ⟨nm, d, r⟩ := p
  cases nm with
  | none => cases r <;> simp [readImage, readPageType, bind, Except.bind]; split_ifs <;> simp_all
  | some s =>
    rcases name s with ⟨⟨t, h1⟩, h2⟩ | ⟨h1, h2⟩
    · have h3 : ¬s = "rgb" → ¬s = "depth" → ¬s = "inv_depth" → ¬s = "category" → ¬s = "semantic" → s = "instance" := by
        simp only [List.mem_cons, List.not_mem_nil, or_false] at h2; tauto
      cases r <;> simp [readImage, readPageType, bind, Except.bind, h1]
      all_goals first | exact h3 | (split_ifs <;> simp <;> exact h3)
    · cases r <;> simp [readImage, readPageType, bind, Except.bind, h1]
      all_goals simpa using h2

/-! ### Saving -/

/-- Where `save` enters an image. -/
def typeOf (k : String) : Option PageType :=
  if k = "depth" then some .inverseDepth else if k = "invdepth" then some .inverseDepth else if k = "rgb" then some .rgb
  else if k = "category" then some .category else if k = "instance" then some .instance_ else none

theorem saveStep_put {ρ : Rounding K} {near : K} {pm pm' : PageMap} {kv : String × NpImage K} (h : saveStep ρ near pm kv = .ok pm') :
    ∃ t m, typeOf kv.1 = some t ∧ pm' = pm.put t m := by
  unfold saveStep at h
  unfold typeOf
  split_ifs at h ⊢ <;> (try split at h) <;> first | (simp at h; done) | (simp only [Except.ok.injEq] at h; exact ⟨_, _, rfl, h.symm⟩)

theorem size_put (pm : PageMap) (t : PageType) (m : CvMat) : (pm.put t m).size = if (pm t).isSome then pm.size else pm.size + 1 := by
  unfold PageMap.size PageMap.put PageType.all
  cases t <;> cases h1 : pm .rgb <;> cases h2 : pm .inverseDepth <;> cases h3 : pm .category <;> cases h4 : pm .instance_ <;> simp [h1, h2, h3, h4]

theorem saveLoopN_spec {ρ : Rounding K} {near : K} (l : List (String × NpImage K)) (lost : ℕ) (pm : PageMap) :
    (saveLoopN ρ near lost pm l).2 = saveLoop ρ near pm l ∧
    (∀ pm', (saveLoopN ρ near lost pm l).2 = .ok pm' → (saveLoopN ρ near lost pm l).1 + pm'.size = lost + pm.size + l.length ∧
      ∀ t, (pm' t).isSome = ((pm t).isSome || l.any fun kv => typeOf kv.1 = some t)) := by
  induction l generalizing lost pm with
  | nil =>
    refine ⟨rfl, ?_⟩
    intro pm' h
    simp only [saveLoopN, Except.ok.injEq] at h
    subst h
    simp [saveLoopN]
  | cons kv l ih =>
    simp only [saveLoopN, saveLoop, bind, Except.bind]
    cases hs : saveStep ρ near pm kv with
    | error e => exact ⟨rfl, by simp⟩
    | ok pm1 =>
      dsimp only
      obtain ⟨t, m, ht, rfl⟩ := saveStep_put hs
      obtain ⟨a, b⟩ := ih (lost + 1 + pm.size - (pm.put t m).size) (pm.put t m)
      refine ⟨a, ?_⟩
      intro pm' h
      obtain ⟨c, d⟩ := b pm' h
      have hz := size_put pm t m
      refine ⟨?_, ?_⟩
      · rw [c]
        simp only [List.length_cons]
        split_ifs at hz <;> omega
      · intro s
        rw [d s]
        simp only [PageMap.put, List.any_cons, ht, Option.some.injEq]
        by_cases hst : s = t
        · simp [hst]
        · have : ¬ t = s := fun e => hst e.symm
          simp [hst, this]

/-- How many images a page map has, if all its keys are known. -/
theorem length_of_keys {υ : Type} {d : Dict String υ} (hn : d.NodupKeys) (hk : ∀ k ∈ d.keys, k ∈ ["rgb", "depth", "invdepth", "category", "instance"]) :
    d.length = (["rgb", "depth", "invdepth", "category", "instance"].filter fun k => decide (k ∈ d.keys)).length := by
  have h : d.keys.Perm (["rgb", "depth", "invdepth", "category", "instance"].filter fun k => decide (k ∈ d.keys)) := by
    rw [List.perm_ext_iff_of_nodup hn (List.Nodup.filter _ (by decide))]
    intro k
    rw [List.mem_filter]
    exact ⟨fun h => ⟨hk k h, by simpa using h⟩, fun h => by simpa using h.2⟩
  have := h.length_eq
  rw [← this]
  simp [Dict.keys]

end Tiff
end Sumo
