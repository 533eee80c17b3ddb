import Verif.Lemmas.Tiff

/-!
# Properties of multi-page TIFF files (C71, C100)

`ρ` is any lawful rounding; `near` is a positive number whose single precision value is a single precision number.
-/

namespace Sumo
namespace Tiff

set_option linter.unusedSectionVars false

variable {K : Type} [Field K] [LinearOrder K] [IsStrictOrderedRing K] [FloorRing K]

/-! ### Refusing -/

/-- **C71.** A save that raises has changed no file; a save that succeeds has changed no other file. -/
theorem C71_refused_unwritten (ρ : Rounding K) (writable : String → Bool) (files : TiffFiles K)
    (d : Dict String (NpImage K)) (path : String) (near : K) :
    (∀ e, (save ρ writable files d path near).2 = .error e → (save ρ writable files d path near).1 = files) ∧
    (∀ p, p ≠ path → (save ρ writable files d path near).1 p = files p) := by
  unfold save
  cases validate d with
  | error e => exact ⟨fun _ _ => rfl, fun _ _ => rfl⟩
  | ok u =>
    dsimp only
    cases saveLoop ρ near (fun _ => none) d with
    | error e => exact ⟨fun _ _ => rfl, fun _ _ => rfl⟩
    | ok pm =>
      dsimp only
      unfold writeRgbdTiff
      split_ifs
      · exact ⟨fun _ _ => rfl, fun _ _ => rfl⟩
      · exact ⟨fun _ _ => rfl, fun _ _ => rfl⟩
      · exact ⟨fun _ _ => rfl, fun _ _ => rfl⟩
      · refine ⟨fun e h => by simp at h, fun p hp => ?_⟩
        show (if p = path then _ else files p) = _
        rw [if_neg hp]

theorem f32_pos {ρ : Rounding K} (hρ : ρ.Lawful) {near : K} (hn : 0 < near) : 0 < ρ.f32 near :=
  (relErr32 hρ hn.le).pos hn (by norm_num)

/-- An entry is stored exactly if it has a known key and the type for it. -/
theorem matOf_isSome_iff {ρ : Rounding K} {near : K} {kv : String × NpImage K} : (matOf ρ near kv).isSome ↔ Typed kv := by
  obtain ⟨k, im⟩ := kv
  cases im with
  | f32 rows => by_cases h : k = "depth" <;> simp [matOf, Typed, h]
  | rgb8 rows => by_cases h : k = "rgb" <;> simp [matOf, Typed, h]
  | u16 rows =>
    simp only [matOf, Typed]
    split_ifs with h1 h2 h3 <;> simp [*]
  | rgb8s rows => simp [matOf, Typed]
  | u16s rows => simp [matOf, Typed]
  | other => simp [matOf, Typed]

/-- **C71.** Exactly the following page maps are saved: colour is there, depth or inverse depth is there, every
page is of a known kind and has the array type documented for it, and the file can be written. -/
theorem C71_accepts_iff (ρ : Rounding K) (writable : String → Bool) (files : TiffFiles K)
    {d : Dict String (NpImage K)} (hd : d.NodupKeys) (path : String) (near : K) :
    (save ρ writable files d path near).2 = .ok () ↔
      (∀ kv ∈ d, Typed kv) ∧ "rgb" ∈ d.keys ∧ ("depth" ∈ d.keys ∨ "invdepth" ∈ d.keys) ∧ writable path = true := by
  have hm : ∀ kv ∈ d, ((matOf ρ near kv).isSome ↔ Typed kv) := fun kv _ => matOf_isSome_iff
  have hloop := saveLoop_spec ρ near d (fun _ => none)
  by_cases hall : ∀ kv ∈ d, Typed kv
  · obtain ⟨pm, hpm, hspec⟩ := hloop.1 (fun kv hkv => (hm kv hkv).2 (hall kv hkv))
    have hrgb : "rgb" ∈ d.keys ↔ ∃ rows, d.get? "rgb" = some (.rgb8 rows) := by
      constructor
      · intro h
        obtain ⟨v, hv⟩ := Dict.mem_keys.1 h
        have := hall _ hv
        cases v with
        | rgb8 rows => exact ⟨rows, Dict.get?_of_mem hd hv⟩
        | f32 rows => simp [Typed] at this
        | u16 rows => simp [Typed] at this
        | rgb8s rows => simp [Typed] at this
        | u16s rows => simp [Typed] at this
        | other => simp [Typed] at this
      · rintro ⟨rows, h⟩
        exact Dict.mem_keys.2 ⟨_, Dict.mem_of_get? h⟩
    have hdep : ∀ v, d.get? "depth" = some v → ∃ rows, v = .f32 rows := by
      intro v hv
      have := hall _ (Dict.mem_of_get? hv)
      cases v with
      | f32 rows => exact ⟨rows, rfl⟩
      | rgb8 rows => simp [Typed] at this
      | u16 rows => simp [Typed] at this
      | rgb8s rows => simp [Typed] at this
      | u16s rows => simp [Typed] at this
      | other => simp [Typed] at this
    have hinv : ∀ v, d.get? "invdepth" = some v → ∃ rows, v = .u16 rows := by
      intro v hv
      have := hall _ (Dict.mem_of_get? hv)
      cases v with
      | f32 rows => simp [Typed] at this
      | rgb8 rows => simp [Typed] at this
      | u16 rows => exact ⟨rows, rfl⟩
      | rgb8s rows => simp [Typed] at this
      | u16s rows => simp [Typed] at this
      | other => simp [Typed] at this
    have hval : "rgb" ∈ d.keys → validate d = .ok () := by
      intro h
      obtain ⟨rows, hr⟩ := hrgb.1 h
      unfold validate
      rw [show d.get "rgb" = .ok (.rgb8 rows) from Dict.get_eq_ok.2 hr]
      simp only [bind, Except.bind]
      cases h1 : d.get? "depth" with
      | some v => obtain ⟨r, rfl⟩ := hdep v h1; rfl
      | none =>
        cases h2 : d.get? "invdepth" with
        | some v => obtain ⟨r, rfl⟩ := hinv v h2; rfl
        | none => rfl
    have hR : (pm .rgb).isNone ↔ "rgb" ∉ d.keys := by
      constructor
      · intro hnone hk
        obtain ⟨rows, hr⟩ := hrgb.1 hk
        have hmem := Dict.mem_of_get? hr
        have := (hspec .rgb).1 (.c3 rows) ⟨_, hmem, by simp [matOf]⟩ (by
          rintro ⟨k, im⟩ hkv m' hm'
          cases im with
          | rgb8 r =>
            simp only [matOf] at hm'
            split_ifs at hm' with hk'
            simp only [Option.some.injEq, Prod.mk.injEq, true_and] at hm'
            have hk'' : k = "rgb" := hk'
            subst hk''
            have e := Dict.get?_of_mem hd hkv
            rw [hr] at e
            simp only [Option.some.injEq, NpImage.rgb8.injEq] at e
            rw [← hm', e]
          | f32 r => simp only [matOf] at hm'; split_ifs at hm'; simp at hm'
          | u16 r => simp only [matOf] at hm'; split_ifs at hm' <;> simp at hm'
          | rgb8s r => simp [matOf] at hm'
          | u16s r => simp [matOf] at hm'
          | other => simp [matOf] at hm')
        rw [this] at hnone
        simp at hnone
      · intro hk
        rw [(hspec .rgb).2 (by
          rintro ⟨k, im⟩ hkv m' hm'
          cases im with
          | rgb8 r =>
            simp only [matOf] at hm'
            split_ifs at hm' with hk'
            exact hk (Dict.mem_keys.2 ⟨_, by rw [← show k = "rgb" from hk']; exact hkv⟩)
          | f32 r => simp only [matOf] at hm'; split_ifs at hm'; simp at hm'
          | u16 r => simp only [matOf] at hm'; split_ifs at hm' <;> simp at hm'
          | rgb8s r => simp [matOf] at hm'
          | u16s r => simp [matOf] at hm'
          | other => simp [matOf] at hm')]
        rfl
    have hD : (pm .inverseDepth).isNone ↔ ("depth" ∉ d.keys ∧ "invdepth" ∉ d.keys) := by
      constructor
      · intro hnone
        by_contra hk
        have hex : ∃ kv ∈ d, ∃ m, matOf ρ near kv = some (.inverseDepth, m) := by
          by_cases h1 : "depth" ∈ d.keys
          · obtain ⟨v, hv⟩ := Dict.mem_keys.1 h1
            obtain ⟨rows, rfl⟩ := hdep v (Dict.get?_of_mem hd hv)
            exact ⟨_, hv, _, by simp [matOf]; rfl⟩
          · have h2 : "invdepth" ∈ d.keys := by
              by_contra h2; exact hk ⟨h1, h2⟩
            obtain ⟨v, hv⟩ := Dict.mem_keys.1 h2
            obtain ⟨rows, rfl⟩ := hinv v (Dict.get?_of_mem hd hv)
            exact ⟨_, hv, .c16 rows, by simp [matOf]⟩
        have key : ∀ (l : List (String × NpImage K)) (pm0 pm1 : PageMap), saveLoop ρ near pm0 l = .ok pm1 →
            ((∃ kv ∈ l, ∃ m, matOf ρ near kv = some (.inverseDepth, m)) ∨ (pm0 .inverseDepth).isSome) →
            (pm1 .inverseDepth).isSome := by
          intro l
          induction l with
          | nil =>
            intro pm0 pm1 h hor
            simp only [saveLoop, Except.ok.injEq] at h
            subst h
            rcases hor with ⟨x, hx, -⟩ | h
            · simp at hx
            · exact h
          | cons x l ih =>
            intro pm0 pm1 h hor
            cases hx : matOf ρ near x with
            | none =>
              obtain ⟨e, he⟩ := (saveStep_eq ρ near pm0 x).2 hx
              simp only [saveLoop, he, bind, Except.bind] at h
              cases h
            | some tm =>
              obtain ⟨t0, m0⟩ := tm
              simp only [saveLoop, (saveStep_eq ρ near pm0 x).1 t0 m0 hx, bind, Except.bind] at h
              refine ih _ _ h ?_
              by_cases ht : t0 = .inverseDepth
              · right; subst ht; simp [PageMap.put]
              · rcases hor with ⟨y, hy, m, hm⟩ | h
                · rcases List.mem_cons.1 hy with rfl | hy
                  · rw [hx] at hm
                    simp only [Option.some.injEq, Prod.mk.injEq] at hm
                    exact absurd hm.1 ht
                  · left; exact ⟨y, hy, m, hm⟩
                · right
                  simp only [PageMap.put]
                  rw [if_neg (fun e => ht e.symm)]
                  exact h
        have := key d _ pm hpm (.inl hex)
        rw [Option.isNone_iff_eq_none] at hnone
        rw [hnone] at this
        simp at this
      · rintro ⟨hk1, hk2⟩
        rw [(hspec .inverseDepth).2 (by
          rintro ⟨k, im⟩ hkv m' hm'
          cases im with
          | rgb8 r => simp only [matOf] at hm'; split_ifs at hm'; simp at hm'
          | f32 r =>
            simp only [matOf] at hm'
            split_ifs at hm' with hk'
            exact hk1 (Dict.mem_keys.2 ⟨_, by rw [← show k = "depth" from hk']; exact hkv⟩)
          | u16 r =>
            simp only [matOf] at hm'
            split_ifs at hm' with hk'
            · exact hk2 (Dict.mem_keys.2 ⟨_, by rw [← show k = "invdepth" from hk']; exact hkv⟩)
            · simp at hm'
            · simp at hm'
          | rgb8s r => simp [matOf] at hm'
          | u16s r => simp [matOf] at hm'
          | other => simp [matOf] at hm')]
        rfl
    by_cases hk : "rgb" ∈ d.keys
    · unfold save
      rw [hval hk]
      simp only [hpm]
      unfold writeRgbdTiff
      rw [if_neg (fun h => hR.1 h hk)]
      by_cases hkd : "depth" ∈ d.keys ∨ "invdepth" ∈ d.keys
      · rw [if_neg (fun h => by obtain ⟨a, b⟩ := hD.1 h; rcases hkd with h | h; exacts [a h, b h])]
        cases writable path <;> simp [hk, hkd] <;> exact fun a b => hall (a, b)
      · rw [if_pos (hD.2 (by push Not at hkd; exact hkd))]
        simp [hkd]
    · have : ∃ e, validate d = .error e := by
        unfold validate
        rw [Dict.get_eq_error.2 ⟨(Dict.get?_eq_none_iff d "rgb").2 hk, rfl⟩]
        exact ⟨_, rfl⟩
      obtain ⟨e, he⟩ := this
      unfold save
      rw [he]
      simp [hk]
  · have hbad : ∃ kv ∈ d, matOf ρ near kv = none := by
      push Not at hall
      obtain ⟨kv, h1, h2⟩ := hall
      refine ⟨kv, h1, ?_⟩
      rw [← Option.not_isSome_iff_eq_none, hm kv h1]
      exact h2
    obtain ⟨e, he⟩ := hloop.2 hbad
    have : (save ρ writable files d path near).2 ≠ .ok () := by
      unfold save
      split
      · simp
      · rw [he]; simp
    exact ⟨fun h => absurd h this, fun h => absurd h.1 hall⟩

/-- **C71** (partial: for page maps whose colour, inverse depth and label pages are contiguous arrays of the documented types.)
A save ends normally or with a Python exception. -/
theorem C71_defined_partial (ρ : Rounding K) (writable : String → Bool) (files : TiffFiles K) (d : Dict String (NpImage K))
    (hd : ∀ kv ∈ d, kv.1 = "rgb" ∨ kv.1 = "invdepth" ∨ kv.1 = "category" ∨ kv.1 = "instance" → Typed kv) (path : String)
    (near : K) : (save ρ writable files d path near).2 ≠ .error .undefined := by
  have hstep : ∀ (pm : PageMap) (kv : String × NpImage K),
      (kv.1 = "rgb" ∨ kv.1 = "invdepth" ∨ kv.1 = "category" ∨ kv.1 = "instance" → Typed kv) →
      saveStep ρ near pm kv ≠ .error .undefined := by
    rintro pm ⟨k, im⟩ h
    unfold saveStep
    dsimp only at h ⊢
    split_ifs with h1 h2 h3 h4 h5
    · cases im <;> simp
    · cases im <;> simp [Typed, h2] at h ⊢
    · cases im <;> simp [Typed, h3] at h ⊢
    · cases im <;> simp [Typed, h4] at h ⊢
    · cases im <;> simp [Typed, h5] at h ⊢
    · simp
  have hloop : ∀ (l : List (String × NpImage K)) (pm : PageMap),
      (∀ kv ∈ l, kv.1 = "rgb" ∨ kv.1 = "invdepth" ∨ kv.1 = "category" ∨ kv.1 = "instance" → Typed kv) →
      saveLoop ρ near pm l ≠ .error .undefined := by
    intro l
    induction l with
    | nil => intro pm _; simp [saveLoop]
    | cons kv l ih =>
      intro pm h
      simp only [saveLoop, bind, Except.bind]
      cases hs : saveStep ρ near pm kv with
      | error e => exact fun h' => hstep pm kv (h kv (by simp)) (by rw [hs]; exact h')
      | ok pm' => exact ih pm' (fun x hx => h x (by simp [hx]))
  have hval : validate d ≠ .error .undefined := by
    unfold validate
    cases hg : d.get "rgb" with
    | error e => rw [(Dict.get_eq_error.1 hg).2]; simp [bind, Except.bind]
    | ok im =>
      cases h1 : d.get? "depth" with
      | some v => cases im <;> cases v <;> simp [bind, Except.bind]
      | none =>
        cases h2 : d.get? "invdepth" with
        | some v => cases im <;> cases v <;> simp [bind, Except.bind]
        | none => cases im <;> simp [bind, Except.bind]
  unfold save
  cases hv : validate d with
  | error e => exact fun h => hval (by rw [hv]; exact h)
  | ok u =>
    dsimp only
    cases hl : saveLoop ρ near (fun _ => none) d with
    | error e =>
      intro h
      have h' : e = .undefined := by simpa using h
      exact hloop d _ hd (by rw [hl, h'])
    | ok pm =>
      dsimp only
      unfold writeRgbdTiff
      split_ifs <;> simp

/-- **C71** is false as a guarantee that a page of another type is refused with an exception: a label page of another type, or
a colour image that is a slice of a larger one (which the constructor of `Rgbd360` accepts), makes `save` go on with a null
pointer. -/
theorem C71_false (ρ : Rounding K) (files : TiffFiles K) :
    save ρ (fun _ => true) files [("rgb", .rgb8 [[(1, 2, 3)]]), ("depth", .f32 [[.fin 2]]), ("category", .f32 [[.fin 1]])] "x.tif" 1 =
      (files, .error .undefined) ∧
    ∃ im, Rgbd360.init (.rgb8s [[(1, 2, 3)]]) (.f32 [[.fin (2 : K)]]) = .ok im ∧
      im.save ρ (fun _ => true) files "x.tif" 1 = (files, .error .undefined) :=
  ⟨rfl, _, rfl, rfl⟩

/-! ### Round trip -/

/-- What is stored of a page map with colour, one kind of depth and possibly labels. -/
theorem save_core {ρ : Rounding K} (writable : String → Bool) (files : TiffFiles K)
    {d : Dict String (NpImage K)} (hnd : d.NodupKeys) {kd : String} (hkd : kd = "depth" ∨ kd = "invdepth")
    (hkeys : ∀ k ∈ d.keys, k ∈ ["rgb", kd, "category", "instance"])
    {a : List (List (ℕ × ℕ × ℕ))} (ha : d.get? "rgb" = some (.rgb8 a)) (pa : HasPixels a) {v : NpImage K}
    (hv : d.get? kd = some v) {near : K} {b : List (List ℕ)} (hmv : matOf ρ near (kd, v) = some (.inverseDepth, .c16 b))
    (pb : HasPixels b)
    (labels : ∀ k ∈ ["category", "instance"], ∀ im, d.get? k = some im → ∃ rows, im = .u16 rows ∧ HasPixels rows)
    {path : String} (hw : writable path = true) (hs : ρ.f32 (ρ.f32 near) = ρ.f32 near) :
    ∃ (c e : Option (List (List ℕ))), d.get? "category" = c.map .u16 ∧ d.get? "instance" = e.map .u16 ∧
      (save ρ writable files d path near).2 = .ok () ∧
      load ρ (save ρ writable files d path near).1 path =
        .ok ([("rgb", .rgb8 a), ("depth", .f32 (depthImageOfInverseDepthMap ρ b (ρ.f32 near)))] ++
          (c.map fun x => ("category", NpImage.u16 x)).toList ++ (e.map fun x => ("instance", NpImage.u16 x)).toList) := by
  have hlab : ∀ k ∈ ["category", "instance"], ∃ c : Option (List (List ℕ)), d.get? k = c.map .u16 ∧
      ∀ x, c = some x → HasPixels x := by
    intro k hk
    cases h : d.get? k with
    | none => exact ⟨none, rfl, by simp⟩
    | some v =>
      obtain ⟨rows, rfl, hp⟩ := labels k hk v h
      exact ⟨some rows, rfl, fun x hx => by cases hx; exact hp⟩
  obtain ⟨c, hc, pc⟩ := hlab "category" (by simp)
  obtain ⟨e, he, pe⟩ := hlab "instance" (by simp)
  have hval : validate d = .ok () := by
    unfold validate
    rw [show d.get "rgb" = .ok (.rgb8 a) from Dict.get_eq_ok.2 ha]
    rcases hkd with rfl | rfl
    · cases v with
      | f32 im => simp only [bind, Except.bind, hv]
      | rgb8 r => simp [matOf] at hmv
      | u16 r => simp [matOf] at hmv
      | rgb8s r => simp [matOf] at hmv
      | u16s r => simp [matOf] at hmv
      | other => simp [matOf] at hmv
    · have hno : d.get? "depth" = none := (Dict.get?_eq_none_iff d _).2 (fun h => by simpa using hkeys _ h)
      cases v with
      | f32 im => simp [matOf] at hmv
      | rgb8 r => simp [matOf] at hmv
      | u16 r => simp only [bind, Except.bind, hno, hv]
      | rgb8s r => simp [matOf] at hmv
      | u16s r => simp [matOf] at hmv
      | other => simp [matOf] at hmv
  have only : ∀ {k w}, (k, w) ∈ d → (k = "rgb" ∧ w = .rgb8 a) ∨ (k = kd ∧ w = v) ∨
      (k = "category" ∧ ∃ x, c = some x ∧ w = .u16 x) ∨ (k = "instance" ∧ ∃ x, e = some x ∧ w = .u16 x) := by
    intro k w hv'
    have hg := Dict.get?_of_mem hnd hv'
    have hk := hkeys k (Dict.mem_keys.2 ⟨w, hv'⟩)
    simp only [List.mem_cons, List.not_mem_nil, or_false] at hk
    rcases hk with rfl | rfl | rfl | rfl
    · rw [ha] at hg; cases hg; exact .inl ⟨rfl, rfl⟩
    · rw [hv] at hg; cases hg; exact .inr (.inl ⟨rfl, rfl⟩)
    · rw [hc] at hg
      cases c with
      | none => simp at hg
      | some x => simp only [Option.map_some, Option.some.injEq] at hg; exact .inr (.inr (.inl ⟨rfl, x, rfl, hg.symm⟩))
    · rw [he] at hg
      cases e with
      | none => simp at hg
      | some x => simp only [Option.map_some, Option.some.injEq] at hg; exact .inr (.inr (.inr ⟨rfl, x, rfl, hg.symm⟩))
  have hmat : ∀ kv ∈ d, ∃ t m, matOf ρ near kv = some (t, m) ∧
      ((t = .rgb ∧ m = .c3 a) ∨ (t = .inverseDepth ∧ m = .c16 b) ∨ (t = .category ∧ ∃ x, c = some x ∧ m = .c16 x) ∨
        (t = .instance_ ∧ ∃ x, e = some x ∧ m = .c16 x)) := by
    rintro ⟨k, w⟩ hkv
    rcases only hkv with ⟨rfl, rfl⟩ | ⟨rfl, rfl⟩ | ⟨rfl, x, hx, rfl⟩ | ⟨rfl, x, hx, rfl⟩
    · exact ⟨_, _, by simp [matOf], .inl ⟨rfl, rfl⟩⟩
    · exact ⟨_, _, hmv, .inr (.inl ⟨rfl, rfl⟩)⟩
    · exact ⟨_, _, by simp [matOf], .inr (.inr (.inl ⟨rfl, x, hx, rfl⟩))⟩
    · exact ⟨_, _, by simp [matOf], .inr (.inr (.inr ⟨rfl, x, hx, rfl⟩))⟩
  obtain ⟨pm, hpm, hspec⟩ := (saveLoop_spec ρ near d (fun _ => none)).1 (fun kv hkv => by
    obtain ⟨t, m, h, -⟩ := hmat kv hkv; rw [h]; rfl)
  have key : ∀ t m, (∃ kv ∈ d, matOf ρ near kv = some (t, m)) → pm t = some m := by
    intro t m hex
    refine (hspec t).1 m hex (fun kv hkv m' hm' => ?_)
    obtain ⟨x, hx, hxm⟩ := hex
    obtain ⟨t1, m1, h1, k1⟩ := hmat x hx
    obtain ⟨t2, m2, h2, k2⟩ := hmat kv hkv
    rw [hxm] at h1
    rw [hm'] at h2
    simp only [Option.some.injEq, Prod.mk.injEq] at h1 h2
    obtain ⟨rfl, rfl⟩ := h1
    obtain ⟨rfl, rfl⟩ := h2
    rcases k1 with ⟨rfl, rfl⟩ | ⟨rfl, rfl⟩ | ⟨rfl, x1, e1, rfl⟩ | ⟨rfl, x1, e1, rfl⟩ <;>
      rcases k2 with ⟨h, rfl⟩ | ⟨h, rfl⟩ | ⟨h, x2, e2, rfl⟩ | ⟨h, x2, e2, rfl⟩ <;> first | (exact absurd h (by decide)) | rfl | skip
    · rw [e1] at e2; cases e2; rfl
    · rw [e1] at e2; cases e2; rfl
  have p1 : pm .rgb = some (.c3 a) := key _ _ ⟨_, Dict.mem_of_get? ha, by simp [matOf]⟩
  have p2 : pm .inverseDepth = some (.c16 b) := key _ _ ⟨_, Dict.mem_of_get? hv, hmv⟩
  have p3 : pm .category = c.map .c16 := by
    cases c with
    | some x => exact key _ _ ⟨_, Dict.mem_of_get? hc, by simp [matOf]⟩
    | none =>
      refine (hspec .category).2 (fun kv hkv m' hm' => ?_)
      obtain ⟨t, m, h, k⟩ := hmat kv hkv
      rw [hm'] at h
      simp only [Option.some.injEq, Prod.mk.injEq] at h
      obtain ⟨rfl, rfl⟩ := h
      rcases k with ⟨h, -⟩ | ⟨h, -⟩ | ⟨-, x, h, -⟩ | ⟨h, -⟩ <;> cases h
  have p4 : pm .instance_ = e.map .c16 := by
    cases e with
    | some x => exact key _ _ ⟨_, Dict.mem_of_get? he, by simp [matOf]⟩
    | none =>
      refine (hspec .instance_).2 (fun kv hkv m' hm' => ?_)
      obtain ⟨t, m, h, k⟩ := hmat kv hkv
      rw [hm'] at h
      simp only [Option.some.injEq, Prod.mk.injEq] at h
      obtain ⟨rfl, rfl⟩ := h
      rcases k with ⟨h, -⟩ | ⟨h, -⟩ | ⟨h, -⟩ | ⟨-, x, h, -⟩ <;> cases h
  have hsave : save ρ writable files d path near =
      (fun p => if p = path then some (pagesOf pm (ρ.f32 near)) else files p, .ok ()) := by
    unfold save
    rw [hval]
    simp only [hpm]
    unfold writeRgbdTiff
    rw [p1, p2, hw]
    rfl
  refine ⟨c, e, hc, he, by rw [hsave], ?_⟩
  rw [hsave]
  exact load_pagesOf (by simp) hs p1 p2 p3 p4 pa pb pc pe

/-- What is stored of a valid page map. -/
theorem save_valid {ρ : Rounding K} (hρ : ρ.Lawful) (writable : String → Bool) (files : TiffFiles K)
    {d : Dict String (NpImage K)} (hd : Valid d) {path : String} (hw : writable path = true) {near : K} (hn : 0 < near)
    (hs : ρ.IsSingle (ρ.f32 near)) :
    ∃ (a : List (List (ℕ × ℕ × ℕ))) (im : List (List (FVal K))) (b : List (List ℕ)) (c e : Option (List (List ℕ))), d.get? "rgb" = some (.rgb8 a) ∧ d.get? "depth" = some (.f32 im) ∧
      inverseDepthMapOfDepthImage ρ im (ρ.f32 near) = b ∧ Values16 b ∧ HasPixels b ∧
      QuantisedImage (ρ.f32 near) im (depthImageOfInverseDepthMap ρ b (ρ.f32 near)) ∧
      d.get? "category" = c.map .u16 ∧ d.get? "instance" = e.map .u16 ∧
      (save ρ writable files d path near).2 = .ok () ∧
      load ρ (save ρ writable files d path near).1 path =
        .ok ([("rgb", .rgb8 a), ("depth", .f32 (depthImageOfInverseDepthMap ρ b (ρ.f32 near)))] ++
          (c.map fun x => ("category", NpImage.u16 x)).toList ++ (e.map fun x => ("instance", NpImage.u16 x)).toList) := by
  obtain ⟨a, ha, pa⟩ := hd.rgb
  obtain ⟨im, him, pim⟩ := hd.depth
  obtain ⟨b, hb⟩ : ∃ b, inverseDepthMapOfDepthImage ρ im (ρ.f32 near) = b := ⟨_, rfl⟩
  obtain ⟨h16, hlen, hq⟩ := codes_quantised hρ (f32_pos hρ hn) hs im
  rw [hb] at h16 hlen hq
  have pb := hasPixels_of_lengths hlen pim
  obtain ⟨c, e, hc, he, h1, h2⟩ := save_core writable files hd.nodup (kd := "depth") (.inl rfl) hd.keys ha pa him
    (near := near) (ρ := ρ) (b := b) (by simp [matOf, hb]) pb hd.labels hw hs.single
  exact ⟨a, im, b, c, e, ha, him, hb, h16, pb, hq, hc, he, h1, h2⟩

/-- **C71.** A valid page map is saved, and loading it returns the same pages and no others, depth quantised. -/
theorem C71_round_trip {ρ : Rounding K} (hρ : ρ.Lawful) (writable : String → Bool) (files : TiffFiles K)
    {d : Dict String (NpImage K)} (hd : Valid d) {path : String} (hw : writable path = true) {near : K} (hn : 0 < near)
    (hs : ρ.IsSingle (ρ.f32 near)) :
    (save ρ writable files d path near).2 = .ok () ∧
    ∃ d', load ρ (save ρ writable files d path near).1 path = .ok d' ∧ (∀ k, k ≠ "depth" → d'.get? k = d.get? k) ∧
      ∃ im im', d.get? "depth" = some (.f32 im) ∧ d'.get? "depth" = some (.f32 im') ∧
        QuantisedImage (ρ.f32 near) im im' := by
  obtain ⟨a, im, b, c, e, ha, him, -, -, -, hq, hc, he, h1, h2⟩ := save_valid hρ writable files hd hw hn hs
  refine ⟨h1, _, h2, ?_, im, _, him, ?_, hq⟩
  · intro k hk
    by_cases k1 : k = "rgb"
    · rw [k1, ha]; rfl
    by_cases k2 : k = "category"
    · rw [k2, hc]
      cases c <;> cases e <;> rfl
    by_cases k3 : k = "instance"
    · rw [k3, he]
      cases c <;> cases e <;> rfl
    have : d.get? k = none := (Dict.get?_eq_none_iff d k).2 (fun h => by
      have := hd.keys k h
      simp [hk, k1, k2, k3] at this)
    rw [this]
    have n1 : ¬ "rgb" = k := fun h => k1 h.symm
    have n2 : ¬ "depth" = k := fun h => hk h.symm
    have n3 : ¬ "category" = k := fun h => k2 h.symm
    have n4 : ¬ "instance" = k := fun h => k3 h.symm
    cases c <;> cases e <;> simp [Dict.get?, n1, n2, n3, n4]
  · cases c <;> cases e <;> rfl

/-- **C71.** What was loaded can be saved and loaded again, with the same near plane, without any further change. -/
theorem C71_stable {ρ : Rounding K} (hρ : ρ.Lawful) (writable : String → Bool) (files : TiffFiles K)
    {d : Dict String (NpImage K)} (hd : Valid d) {path : String} (hw : writable path = true) {near : K} (hn : 0 < near)
    (hs : ρ.IsSingle (ρ.f32 near)) {d' : Dict String (NpImage K)}
    (h : load ρ (save ρ writable files d path near).1 path = .ok d') (files' : TiffFiles K) {path' : String}
    (hw' : writable path' = true) :
    Valid d' ∧ load ρ (save ρ writable files' d' path' near).1 path' = .ok d' := by
  obtain ⟨a, im, b, c, e, ha, him, hb, h16, pb, hq, hc, he, h1, h2⟩ := save_valid hρ writable files hd hw hn hs
  rw [h] at h2
  simp only [Except.ok.injEq] at h2
  have pa : HasPixels a := by
    obtain ⟨rows, hr, hp⟩ := hd.rgb
    rw [ha] at hr; cases hr; exact hp
  have hlab : ∀ k ∈ ["category", "instance"], ∀ x : List (List ℕ), d.get? k = some (.u16 x) → HasPixels x := by
    intro k hk x hx
    obtain ⟨rows, h1, h2⟩ := hd.labels k hk _ hx
    cases h1; exact h2
  have hlen : (depthImageOfInverseDepthMap ρ b (ρ.f32 near)).map List.length = b.map List.length :=
    (C70_image_roundtrip ρ hρ _ (f32_pos hρ hn) b h16).2
  have hv : Valid d' := by
    rw [h2]
    refine ⟨?_, ?_, ⟨a, rfl, pa⟩, ⟨_, ?_, hasPixels_of_lengths hlen pb⟩, ?_⟩
    · cases c <;> cases e <;> (unfold Dict.NodupKeys Dict.keys; simp)
    · intro k hk
      cases c <;> cases e <;> simp [Dict.keys] at hk ⊢ <;> tauto
    · cases c <;> cases e <;> rfl
    · intro k hk x hx
      simp only [List.mem_cons, List.not_mem_nil, or_false] at hk
      rcases hk with rfl | rfl
      · cases c with
        | none => cases e <;> simp [Dict.get?] at hx
        | some c =>
          have : x = .u16 c := by
            cases e <;> simp [Dict.get?] at hx <;> exact hx.symm
          exact ⟨c, this, hlab "category" (by simp) c hc⟩
      · cases e with
        | none => cases c <;> simp [Dict.get?] at hx
        | some e =>
          have : x = .u16 e := by
            cases c <;> simp [Dict.get?] at hx <;> exact hx.symm
          exact ⟨e, this, hlab "instance" (by simp) e he⟩
  refine ⟨hv, ?_⟩
  obtain ⟨a', im', b', c', e', ha', him', hb', -, -, -, hc', he', -, h2'⟩ := save_valid hρ writable files' hv hw' hn hs
  rw [h2', h2]
  have ea : a' = a := by
    rw [h2] at ha'
    have : (some (NpImage.rgb8 a) : Option (NpImage K)) = some (.rgb8 a') := ha' ▸ rfl
    cases this; rfl
  have eim : im' = depthImageOfInverseDepthMap ρ b (ρ.f32 near) := by
    rw [h2] at him'
    have : (some (NpImage.f32 (depthImageOfInverseDepthMap ρ b (ρ.f32 near))) : Option (NpImage K)) = some (.f32 im') := by
      rw [← him']; cases c <;> cases e <;> rfl
    simp only [Option.some.injEq, NpImage.f32.injEq] at this
    exact this.symm
  have ec : c' = c := by
    rw [h2] at hc'
    cases c <;> cases e <;> cases c' <;> simp [Dict.get?] at hc' <;> simp [hc']
  have ee : e' = e := by
    rw [h2] at he'
    cases c <;> cases e <;> cases e' <;> simp [Dict.get?] at he' <;> simp [he']
  have eb : b' = b := by
    rw [eim, (C70_image_roundtrip ρ hρ _ (f32_pos hρ hn) b h16).1] at hb'
    exact hb'.symm
  rw [ea, eb, ec, ee]

/-- **C71.** Inverse depth images are stored as they are; they come back as the depths they stand for. -/
theorem C71_inverse_depth {ρ : Rounding K} (writable : String → Bool) (files : TiffFiles K)
    {d : Dict String (NpImage K)} (hnd : d.NodupKeys) (hkeys : ∀ k ∈ d.keys, k ∈ ["rgb", "invdepth", "category", "instance"])
    {a : List (List (ℕ × ℕ × ℕ))} (ha : d.get? "rgb" = some (.rgb8 a)) (pa : HasPixels a) {b : List (List ℕ)}
    (hb : d.get? "invdepth" = some (.u16 b)) (pb : HasPixels b)
    (labels : ∀ k ∈ ["category", "instance"], ∀ im, d.get? k = some im → ∃ rows, im = .u16 rows ∧ HasPixels rows)
    {path : String} (hw : writable path = true) {near : K} (hs : ρ.IsSingle (ρ.f32 near)) :
    (save ρ writable files d path near).2 = .ok () ∧
    ∃ d', load ρ (save ρ writable files d path near).1 path = .ok d' ∧
      (∀ k, k ≠ "depth" → k ≠ "invdepth" → d'.get? k = d.get? k) ∧ d'.get? "invdepth" = none ∧
      d'.get? "depth" = some (.f32 (b.map fun row => row.map fun c => depthOfInverseDepth ρ c (ρ.f32 near))) := by
  obtain ⟨c, e, hc, he, h1, h2⟩ := save_core writable files hnd (kd := "invdepth") (.inr rfl) hkeys ha pa hb (near := near)
    (ρ := ρ) (b := b) (by simp [matOf]) pb labels hw hs.single
  refine ⟨h1, _, h2, ?_, ?_, ?_⟩
  · intro k hk hki
    by_cases k1 : k = "rgb"
    · rw [k1, ha]; rfl
    by_cases k2 : k = "category"
    · rw [k2, hc]
      cases c <;> cases e <;> rfl
    by_cases k3 : k = "instance"
    · rw [k3, he]
      cases c <;> cases e <;> rfl
    have : d.get? k = none := (Dict.get?_eq_none_iff d k).2 (fun h => by
      have := hkeys k h
      simp [hki, k1, k2, k3] at this)
    rw [this]
    have n1 : ¬ "rgb" = k := fun h => k1 h.symm
    have n2 : ¬ "depth" = k := fun h => hk h.symm
    have n3 : ¬ "category" = k := fun h => k2 h.symm
    have n4 : ¬ "instance" = k := fun h => k3 h.symm
    cases c <;> cases e <;> simp [Dict.get?, n1, n2, n3, n4]
  · cases c <;> cases e <;> rfl
  · cases c <;> cases e <;> rfl

/-- **C71**, `Rgbd360`: what its constructor accepts comes back, the range quantised. -/
theorem C71_rgbd360 {ρ : Rounding K} (hρ : ρ.Lawful) (writable : String → Bool) (files : TiffFiles K)
    {a : List (List (ℕ × ℕ × ℕ))} {im : List (List (FVal K))} {x : Rgbd360 K}
    (hx : Rgbd360.init (.rgb8 a) (.f32 im) = .ok x) (pa : HasPixels a) (pim : HasPixels im)
    {path : String} (hw : writable path = true) {near : K} (hn : 0 < near)
    (hs : ρ.IsSingle (ρ.f32 near)) :
    (x.save ρ writable files path near).2 = .ok () ∧
    ∃ im', Rgbd360.load ρ (x.save ρ writable files path near).1 path = .ok ⟨.rgb8 a, .f32 im'⟩ ∧
      QuantisedImage (ρ.f32 near) im im' := by
  cases hx
  have hd : Valid ([("rgb", .rgb8 a), ("depth", .f32 im)] : Dict String (NpImage K)) :=
    ⟨by unfold Dict.NodupKeys Dict.keys; simp, by simp [Dict.keys], ⟨a, rfl, pa⟩, ⟨im, rfl, pim⟩, by
      intro k hk y hy
      simp only [List.mem_cons, List.not_mem_nil, or_false] at hk
      rcases hk with rfl | rfl <;> simp [Dict.get?] at hy⟩
  obtain ⟨h1, d', h2, h3, i1, im', h4, h5, h6⟩ := C71_round_trip hρ writable files hd hw hn hs
  cases (h4 : some (NpImage.f32 im) = some (.f32 i1))
  refine ⟨h1, im', ?_, h6⟩
  unfold Rgbd360.load Rgbd360.save
  rw [h2]
  have hr : d'.get "rgb" = .ok (.rgb8 a) := Dict.get_eq_ok.2 (h3 "rgb" (by decide))
  have hr2 : d'.get "depth" = .ok (.f32 im') := Dict.get_eq_ok.2 h5
  simp only [bind, Except.bind, hr, hr2]
  rfl

/-- **C71**, `Rgbdci360`: the same, with the labels unchanged. -/
theorem C71_rgbdci360 {ρ : Rounding K} (hρ : ρ.Lawful) (writable : String → Bool) (files : TiffFiles K)
    {a : List (List (ℕ × ℕ × ℕ))} {im : List (List (FVal K))} {c e : List (List ℕ)} {x : Rgbdci360 K}
    (hx : Rgbdci360.init (.rgb8 a) (.f32 im) (.u16 c) (.u16 e) = .ok x) (pa : HasPixels a) (pim : HasPixels im)
    (pc : HasPixels c) (pe : HasPixels e)
    {path : String} (hw : writable path = true) {near : K} (hn : 0 < near)
    (hs : ρ.IsSingle (ρ.f32 near)) :
    (x.save ρ writable files path near).2 = .ok () ∧
    ∃ im', Rgbdci360.load ρ (x.save ρ writable files path near).1 path = .ok ⟨.rgb8 a, .f32 im', .u16 c, .u16 e⟩ ∧
      QuantisedImage (ρ.f32 near) im im' := by
  cases hx
  have hd : Valid ([("rgb", .rgb8 a), ("depth", .f32 im), ("category", .u16 c), ("instance", .u16 e)] :
      Dict String (NpImage K)) :=
    ⟨by unfold Dict.NodupKeys Dict.keys; simp, by simp [Dict.keys], ⟨a, rfl, pa⟩, ⟨im, rfl, pim⟩, by
      intro k hk y hy
      simp only [List.mem_cons, List.not_mem_nil, or_false] at hk
      rcases hk with rfl | rfl
      · cases (hy : some (NpImage.u16 c) = some y); exact ⟨c, rfl, pc⟩
      · cases (hy : some (NpImage.u16 e) = some y); exact ⟨e, rfl, pe⟩⟩
  obtain ⟨h1, d', h2, h3, i1, im', h4, h5, h6⟩ := C71_round_trip hρ writable files hd hw hn hs
  cases (h4 : some (NpImage.f32 im) = some (.f32 i1))
  refine ⟨h1, im', ?_, h6⟩
  unfold Rgbdci360.load Rgbdci360.save
  rw [h2]
  have hr : d'.get "rgb" = .ok (.rgb8 a) := Dict.get_eq_ok.2 (h3 "rgb" (by decide))
  have hr2 : d'.get "depth" = .ok (.f32 im') := Dict.get_eq_ok.2 h5
  have hr3 : d'.get "category" = .ok (.u16 c) := Dict.get_eq_ok.2 (h3 "category" (by decide))
  have hr4 : d'.get "instance" = .ok (.u16 e) := Dict.get_eq_ok.2 (h3 "instance" (by decide))
  simp only [bind, Except.bind, hr, hr2, hr3, hr4]
  rfl

/-- `Rgbdci360.load` of a file without label pages raises a `KeyError`, although saving and loading `Rgbd360` works. -/
theorem C71_rgbdci360_needs_labels {ρ : Rounding K} (hρ : ρ.Lawful) (writable : String → Bool) (files : TiffFiles K)
    {x : Rgbd360 K} {a : List (List (ℕ × ℕ × ℕ))} {im : List (List (FVal K))}
    (hx : Rgbd360.init (.rgb8 a) (.f32 im) = .ok x) (pa : HasPixels a) (pim : HasPixels im)
    {path : String} (hw : writable path = true) {near : K} (hn : 0 < near)
    (hs : ρ.IsSingle (ρ.f32 near)) :
    Rgbdci360.load ρ (x.save ρ writable files path near).1 path = .error .keyError := by
  cases hx
  have hd : Valid ([("rgb", .rgb8 a), ("depth", .f32 im)] : Dict String (NpImage K)) :=
    ⟨by unfold Dict.NodupKeys Dict.keys; simp, by simp [Dict.keys], ⟨a, rfl, pa⟩, ⟨im, rfl, pim⟩, by
      intro k hk y hy
      simp only [List.mem_cons, List.not_mem_nil, or_false] at hk
      rcases hk with rfl | rfl <;> simp [Dict.get?] at hy⟩
  obtain ⟨h1, d', h2, h3, i1, im', h4, h5, h6⟩ := C71_round_trip hρ writable files hd hw hn hs
  unfold Rgbdci360.load Rgbd360.save
  rw [h2]
  have hr : d'.get "rgb" = .ok (.rgb8 a) := Dict.get_eq_ok.2 (h3 "rgb" (by decide))
  have hr2 : d'.get "depth" = .ok (.f32 im') := Dict.get_eq_ok.2 h5
  have hr3 : d'.get "category" = .error .keyError := Dict.get_eq_error.2 ⟨h3 "category" (by decide), rfl⟩
  simp only [bind, Except.bind, hr, hr2, hr3]

/-! ### Files written by earlier versions -/

/-- **C71.** A file with an unnamed colour page and an unnamed 8 bit depth page, without metadata, loads; the depth of code `c`
is that of the 16 bit code nearest to `255 / c` metres (within `1/2 + 1/32` of a code). -/
theorem C71_legacy {ρ : Rounding K} (hρ : ρ.Lawful) {a : List (List (ℕ × ℕ × ℕ))} {b : List (List ℕ)} (pa : HasPixels a)
    (pb : HasPixels b) (h8 : ∀ row ∈ b, ∀ c ∈ row, c ≤ 255) {files : TiffFiles K} {path : String}
    (hf : files path = some [⟨none, .missing, .rgb8 a⟩, ⟨none, .missing, .gray8 b⟩]) :
    ∃ codes : List (List ℕ), load ρ files path =
        .ok [("rgb", .rgb8 a), ("depth", .f32 (depthImageOfInverseDepthMap ρ codes (ρ.f32 defaultNear)))] ∧
      List.Forall₂ (List.Forall₂ fun (c n : ℕ) => (c = 0 → n = 0) ∧
        (c ≠ 0 → |(n : K) - 65535 * (3 / 10) / (255 / c)| ≤ 1 / 2 + 1 / 32)) b codes := by
  have cell : ∀ c : ℕ, c ≤ 255 → (c = 0 → inverseDepthFromUint8 ρ defaultNear c (1 : K) = 0) ∧
      (c ≠ 0 → |(inverseDepthFromUint8 ρ defaultNear c (1 : K) : K) - 65535 * (3 / 10) / (255 / c)| ≤ 1 / 2 + 1 / 32) := by
    intro c hc
    by_cases h0 : c = 0
    · subst h0
      refine ⟨fun _ => ?_, fun h => absurd rfl h⟩
      simp only [inverseDepthFromUint8, depthOfUint8InverseDepth, if_true]
      exact code_of_body (half_toUint (by norm_num))
    · obtain ⟨n, h1, h2⟩ := C70_upgrade_legacy ρ hρ (1 : K) (by norm_num) c h0 hc
      exact ⟨fun h => absurd h h0, fun _ => by rw [one_mul] at h2; rw [h1]; exact h2⟩
  refine ⟨uint16OfUint8InverseDepthMap ρ b 1, ?_, ?_⟩
  rotate_left
  · unfold uint16OfUint8InverseDepthMap mapImage
    rw [List.forall₂_map_right_iff, List.forall₂_same]
    intro row hrow
    rw [List.forall₂_map_right_iff, List.forall₂_same]
    intro c hc
    exact cell c (h8 row hrow c hc)
  have na := hasPixels_iff.1 pa
  have nb := hasPixels_iff.1 pb
  unfold load readRgbdTiff
  rw [hf]
  simp only [bind, Except.bind, readMetadata, readImages, readImage, readPageType, if_true,
    if_neg (show ¬ (1 = 3) by decide), PageType.all, loadLoop, loadStep, PageMap.put,
    if_neg (show ¬ (PageType.rgb = PageType.inverseDepth) by decide),
    if_neg (show ¬ (PageType.category = PageType.inverseDepth) by decide),
    if_neg (show ¬ (PageType.category = PageType.rgb) by decide),
    if_neg (show ¬ (PageType.instance_ = PageType.inverseDepth) by decide),
    if_neg (show ¬ (PageType.instance_ = PageType.rgb) by decide), CvMat.isEmpty, na, nb]
  rfl

/-! ### C100: arbitrary files -/

/-- **C100** (partial: for files without 16 bit colour pages and without colour pages labelled as categories or instances.)
Whatever the file, `load` returns images or raises a Python exception. -/
theorem C100_partial (ρ : Rounding K) (files : TiffFiles K) (path : String)
    (hh : ∀ l, files path = some l → ∀ p ∈ l, Harmless p) :
    load ρ files path ≠ .error .undefined := by
  let Good : PageMap → Prop := fun pm =>
    (∀ r, pm .category ≠ some (.c3 r)) ∧ (∀ r, pm .instance_ ≠ some (.c3 r))
  have hname : ∀ (s : String), strToPageType s ≠ .error .undefined := by
    intro s; unfold strToPageType; split_ifs <;> simp
  have hcat : ∀ {s : String} {t : PageType}, strToPageType s = .ok t → t = .category ∨ t = .instance_ →
      s = "category" ∨ s = "semantic" ∨ s = "instance" := by
    intro s t h ht
    unfold strToPageType at h
    split_ifs at h <;> simp_all <;> (subst h; simp at ht)
  have step : ∀ (pm : PageMap) (p : Page K), Good pm → Harmless p →
      (∃ pm', readImage pm p = .ok pm' ∧ Good pm') ∨ ∃ e, readImage pm p = .error e ∧ e ≠ .undefined := by
    intro pm p hg hp
    have htype : ∀ n, (∃ t, readPageType p n = .ok t ∧ ((∃ rows, p.raster = .rgb8 rows) → n = 3 → t ≠ .category ∧ t ≠ .instance_)) ∨
        ∃ e, readPageType p n = .error e ∧ e ≠ .undefined := by
      intro n
      unfold readPageType
      cases hpn : p.pageName with
      | none =>
        left
        refine ⟨_, rfl, fun _ hn => ?_⟩
        rw [if_pos hn]
        exact ⟨by simp, by simp⟩
      | some s =>
        dsimp only
        cases hs : strToPageType s with
        | error e => exact .inr ⟨e, rfl, fun h => hname s (h ▸ hs)⟩
        | ok t =>
          refine .inl ⟨t, rfl, fun hr _ => ?_⟩
          obtain ⟨rows, hr⟩ := hr
          obtain ⟨n1, n2, n3⟩ := hp.2 rows hr
          rw [hpn] at n1 n2 n3
          constructor <;> (intro ht; rcases hcat hs (by simp [ht]) with e | e | e <;> simp [e] at n1 n2 n3)
    unfold readImage
    cases hr : p.raster with
    | oddSamples => exact .inr ⟨_, rfl, by simp⟩
    | oddBits => exact .inr ⟨_, rfl, by simp⟩
    | rgb16 rows => exact absurd hr (hp.1 rows)
    | rgb8 rows =>
      rcases htype 3 with ⟨t, ht, hno⟩ | ⟨e, he, hne⟩
      · left
        refine ⟨pm.put t (.c3 rows), by simp only [ht, bind, Except.bind], ?_⟩
        obtain ⟨n1, n2⟩ := hno ⟨rows, hr⟩ rfl
        obtain ⟨g1, g2⟩ := hg
        refine ⟨fun r => ?_, fun r => ?_⟩
        · rw [PageMap.put, if_neg (Ne.symm n1)]; exact g1 r
        · rw [PageMap.put, if_neg (Ne.symm n2)]; exact g2 r
      · exact .inr ⟨e, by simp only [he, bind, Except.bind], hne⟩
    | gray8 rows =>
      rcases htype 1 with ⟨t, ht, hno⟩ | ⟨e, he, hne⟩
      · left
        refine ⟨pm.put t (.c8 rows), by simp only [ht, bind, Except.bind], ?_⟩
        obtain ⟨g1, g2⟩ := hg
        refine ⟨fun r => ?_, fun r => ?_⟩
        · unfold PageMap.put; split_ifs; exacts [by simp, g1 r]
        · unfold PageMap.put; split_ifs; exacts [by simp, g2 r]
      · exact .inr ⟨e, by simp only [he, bind, Except.bind], hne⟩
    | gray16 rows =>
      rcases htype 1 with ⟨t, ht, hno⟩ | ⟨e, he, hne⟩
      · left
        refine ⟨pm.put t (.c16 rows), by simp only [ht, bind, Except.bind], ?_⟩
        obtain ⟨g1, g2⟩ := hg
        refine ⟨fun r => ?_, fun r => ?_⟩
        · unfold PageMap.put; split_ifs; exacts [by simp, g1 r]
        · unfold PageMap.put; split_ifs; exacts [by simp, g2 r]
      · exact .inr ⟨e, by simp only [he, bind, Except.bind], hne⟩
  have loop : ∀ (l : List (Page K)) (pm : PageMap), Good pm →
      (∀ p ∈ l, Harmless p) →
      (∃ pm', readImages pm l = .ok pm' ∧ Good pm') ∨ ∃ e, readImages pm l = .error e ∧ e ≠ .undefined := by
    intro l
    induction l with
    | nil => intro pm hg _; exact .inl ⟨pm, rfl, hg⟩
    | cons p l ih =>
      intro pm hg hl
      rcases step pm p hg (hl p (by simp)) with ⟨pm', h1, h2⟩ | ⟨e, h1, h2⟩
      · simp only [readImages, h1, bind, Except.bind]
        exact ih pm' h2 (fun q hq => hl q (by simp [hq]))
      · exact .inr ⟨e, by simp only [readImages, h1, bind, Except.bind], h2⟩
  have hload : ∀ (pm : PageMap) (st : Dict String (NpImage K) × K) (t : PageType), Good pm →
      loadStep ρ pm st t ≠ .error .undefined := by
    intro pm st t hg
    obtain ⟨g1, g2⟩ := hg
    unfold loadStep
    cases hm : pm t with
    | none => simp
    | some m =>
      dsimp only
      split_ifs
      · simp
      · cases t with
        | rgb => cases m <;> simp
        | inverseDepth =>
          cases m <;> simp
        | category =>
          cases m with
          | c3 r => exact absurd hm (g1 r)
          | c8 r => simp
          | c16 r => simp
        | instance_ =>
          cases m with
          | c3 r => exact absurd hm (g2 r)
          | c8 r => simp
          | c16 r => simp
  have hloads : ∀ (pm : PageMap), Good pm → ∀ (l : List PageType) (st : Dict String (NpImage K) × K),
      loadLoop ρ pm st l ≠ .error .undefined := by
    intro pm hg l
    induction l with
    | nil => intro st; simp [loadLoop]
    | cons t l ih =>
      intro st
      simp only [loadLoop, bind, Except.bind]
      cases h : loadStep ρ pm st t with
      | error e => exact fun h' => hload pm st t hg (by rw [h]; exact h')
      | ok st' => exact ih st'
  unfold load readRgbdTiff
  cases hfp : files path with
  | none => simp [bind, Except.bind]
  | some l =>
    cases l with
    | nil => simp [bind, Except.bind]
    | cons p l =>
      dsimp only
      cases hmeta : readMetadata ρ p.description with
      | error e =>
        have : e = .runtimeError := by
          unfold readMetadata at hmeta
          split at hmeta <;> simp at hmeta
          exact hmeta.symm
        simp [bind, Except.bind, this]
      | ok near =>
        rcases loop (p :: l) (fun _ => none) ⟨by simp, by simp⟩ (hh _ hfp) with ⟨pm, h1, h2⟩ | ⟨e, h1, h2⟩
        · simp only [bind, Except.bind, h1]
          cases h3 : loadLoop ρ pm ([], near) PageType.all with
          | error e =>
            intro h'
            simp only [Except.error.injEq] at h'
            exact hloads pm h2 _ _ (by rw [h3, h'])
          | ok st =>
            simp only
            cases h4 : st.1.get "depth" with
            | error e => rw [(Dict.get_eq_error.1 h4).2]; simp
            | ok im => cases im <;> simp
        · simp only [bind, Except.bind, h1]
          simpa using h2

/-- **C100** is false: reading a 16 bit colour page writes behind the end of its buffer. -/
theorem C100_false (ρ : Rounding K) :
    load ρ (fun _ => some [⟨none, .missing, .rgb16 [[(1, 2, 3)]]⟩, ⟨none, .missing, .gray16 [[7]]⟩]) "x.tif" =
      .error .undefined := rfl

/-! ### Non-vacuity -/

/-- A page map with one row of pixels. -/
def exImages : Dict String (NpImage ℚ) :=
  [("rgb", .rgb8 [[(1, 2, 3), (4, 5, 6)]]), ("instance", .u16 [[7, 8]]),
    ("depth", .f32 [[.fin 2, .posInf], [.fin 0, .fin (1 / 10)]])]

example : Valid exImages := by
  refine ⟨?_, ?_, ⟨_, rfl, _, List.mem_singleton.2 rfl, by simp⟩, ⟨_, rfl, ⟨_, List.mem_cons_self, by simp⟩⟩, ?_⟩
  · unfold Dict.NodupKeys Dict.keys exImages; decide
  · unfold Dict.keys exImages; decide
  · intro k hk im him
    simp only [List.mem_cons, List.not_mem_nil, or_false] at hk
    rcases hk with rfl | rfl
    · simp [exImages, Dict.get?] at him
    · cases (him : some (NpImage.u16 [[7, 8]]) = some im)
      exact ⟨_, rfl, _, List.mem_singleton.2 rfl, by simp⟩

example : (Rounding.exact ℚ).Lawful ∧ (Rounding.exact ℚ).IsSingle ((Rounding.exact ℚ).f32 (3 / 10)) :=
  ⟨exact_lawful, exact_isSingle _⟩

/-- A depth of two metres is kept to within its code: 9830 at near plane 0.3. -/
example : Quantised (3 / 10 : ℚ) (.fin 2) (.fin (3 / 10 * 65535 / 9830)) := by
  simp only [Quantised]
  rw [if_neg (by norm_num), if_neg (by norm_num)]
  refine ⟨9830, by norm_num, ?_, by norm_num, fun _ => ⟨_, rfl, ?_⟩⟩
  · norm_num [abs_le]
  · norm_num

example : ∀ p ∈ ([⟨some "rgb", .object (some 1), .rgb8 [[(1, 2, 3)]]⟩, ⟨some "category", .missing, .gray8 [[9]]⟩] :
    List (Page ℚ)), Harmless p := by
  intro p hp
  simp only [List.mem_cons, List.not_mem_nil, or_false] at hp
  rcases hp with rfl | rfl
  · exact ⟨by simp, by intro r h; decide⟩
  · exact ⟨by simp, by simp⟩

end Tiff
end Sumo
