import Verif.Lemmas.PointCloud
import Mathlib.Data.Rat.Defs

/-! # Properties of point clouds (C56, C91) -/

namespace Sumo

open PointCloud

variable {K : Type}

/-! ## Building -/

/-- Every cloud the constructor returns is consistent, and holds exactly what it was given; colours that do not match the
points are refused. -/
theorem C56_create (points : Option (List (Vec3 K))) (colors : Option (List Color)) :
    (∀ c, create points colors = .ok c →
      ConsistentCloud c ∧ c.points = points.getD [] ∧ c.colors = colors.getD []) ∧
    ((∃ e, create points colors = .error e) ↔
      ∃ cs, colors = some cs ∧ ∀ ps, points = some ps → ps.length ≠ cs.length) := by
  constructor
  · intro c h
    unfold create at h
    cases colors with
    | none =>
      cases points with
      | none => cases h; exact ⟨.inl rfl, rfl, rfl⟩
      | some ps => cases h; exact ⟨.inl rfl, rfl, rfl⟩
    | some cs =>
      cases points with
      | none => cases h
      | some ps =>
        dsimp only at h
        split_ifs at h with hl
        cases h
        exact ⟨.inr hl.symm, rfl, rfl⟩
  · unfold create
    cases colors with
    | none => cases points <;> simp
    | some cs =>
      cases points with
      | none => simp
      | some ps =>
        dsimp only
        split_ifs with hl
        · simp [hl]
        · simp [hl]

example : create (some [(⟨1, 2, 3⟩ : Vec3 ℚ)]) (some [⟨9, 8, 7⟩]) = .ok ⟨[⟨1, 2, 3⟩], [⟨9, 8, 7⟩]⟩ := rfl

example : create (some [(⟨1, 2, 3⟩ : Vec3 ℚ)]) (some []) = .error .assertionError := rfl

/-! ## Merging -/

/-- Full statement (false): merging consistent clouds gives a consistent cloud or is refused. -/
def C56_statement : Prop :=
  ∀ (a b c : PointCloud ℚ), ConsistentCloud a → ConsistentCloud b → merge a b = .ok c → ConsistentCloud c

/-- **C56 is false of the code**: an uncoloured cloud merged with a coloured one is accepted; the result has two points and
one colour, and its first point now has the other cloud's colour. -/
theorem C56_false : ¬ C56_statement := by
  intro h
  have := h ⟨[⟨0, 0, 0⟩], []⟩ ⟨[⟨1, 1, 1⟩], [⟨255, 0, 0⟩]⟩ ⟨[⟨0, 0, 0⟩, ⟨1, 1, 1⟩], [⟨255, 0, 0⟩]⟩ (.inl rfl) (.inr rfl) rfl
  revert this
  unfold ConsistentCloud
  simp

/-- **C56.** Merging two coloured clouds is the concatenation, each point keeping its colour. -/
theorem C56_merge_partial (a b : PointCloud K) (la lb : List (Vec3 K × Color)) (ha : ColoredCloud a la)
    (hb : ColoredCloud b lb) (hne : la ≠ [] → lb ≠ []) : ∃ c, merge a b = .ok c ∧ ColoredCloud c (la ++ lb) := by
  refine ⟨⟨a.points ++ b.points, a.colors ++ b.colors⟩, ?_, ?_⟩
  · unfold merge append
    rw [if_neg]
    · rfl
    · intro h
      rw [Bool.and_eq_true] at h
      have h1 := hb.colored_iff.2 (hne (ha.colored_iff.1 h.1))
      rw [h1] at h
      simp at h
  · constructor <;> simp [ha.1, ha.2, hb.1, hb.2]

/-- **C56.** Merging two uncoloured clouds is the concatenation. -/
theorem C56_merge_plain (a b : PointCloud K) (la lb : List (Vec3 K)) (ha : PlainCloud a la)
    (hb : PlainCloud b lb) : ∃ c, merge a b = .ok c ∧ PlainCloud c (la ++ lb) := by
  refine ⟨⟨a.points ++ b.points, a.colors ++ b.colors⟩, ?_, ?_⟩
  · unfold merge append
    rw [if_neg]
    · rfl
    · simp [ha.not_colored]
  · constructor <;> simp [ha.1, ha.2, hb.1, hb.2]

/-- **C56.** A merge is refused exactly when the first cloud has colours and the second has none (also if the second cloud
is empty). -/
theorem C56_merge_refused (a b : PointCloud K) :
    (∃ e, merge a b = .error e) ↔ a.colors ≠ [] ∧ b.colors = [] := by
  unfold merge colored
  cases ha : a.colors <;> cases hb : b.colors <;> simp

example : merge (⟨[⟨0, 0, 0⟩], [⟨1, 1, 1⟩]⟩ : PointCloud ℚ) ⟨[⟨1, 2, 3⟩], [⟨2, 2, 2⟩]⟩ =
    .ok ⟨[⟨0, 0, 0⟩, ⟨1, 2, 3⟩], [⟨1, 1, 1⟩, ⟨2, 2, 2⟩]⟩ := rfl

/-- What `sum` does from a cloud on. -/
theorem foldlM_add_colored : ∀ (cs : List (PointCloud K)) (ls : List (List (Vec3 K × Color))) (a : PointCloud K)
    (la : List (Vec3 K × Color)), ColoredCloud a la → List.Forall₂ ColoredCloud cs ls → (∀ l ∈ ls, l ≠ []) →
    ∃ c, cs.foldlM (fun acc c => add acc (.cloud c)) (.cloud a) = .ok (.cloud c) ∧ ColoredCloud c (la ++ ls.flatten) := by
  intro cs ls a la ha h
  induction h generalizing a la with
  | nil => intro _; exact ⟨a, rfl, by simpa using ha⟩
  | @cons b lb cs ls hb _ ih =>
    intro hne
    obtain ⟨c, hc, hcl⟩ := C56_merge_partial a b la lb ha hb fun _ => hne lb (by simp)
    obtain ⟨d, hd, hdl⟩ := ih c (la ++ lb) hcl fun l hl => hne l (by simp [hl])
    refine ⟨d, ?_, by simpa using hdl⟩
    rw [List.foldlM_cons]
    simp only [add, hc, bind, Except.bind, pure, Except.pure]
    exact hd

/-- **C56.** The sum of any list of non-empty coloured clouds is their concatenation, each point keeping its colour. -/
theorem C56_sum (cs : List (PointCloud K)) (ls : List (List (Vec3 K × Color))) (hne : cs ≠ [])
    (h : List.Forall₂ ColoredCloud cs ls) (hls : ∀ l ∈ ls, l ≠ []) :
    ∃ c, PointCloud.sum cs = .ok (.cloud c) ∧ ColoredCloud c ls.flatten := by
  cases h with
  | nil => exact absurd rfl hne
  | @cons a la cs ls ha h =>
    obtain ⟨c, hc, hcl⟩ := foldlM_add_colored cs ls a la ha h fun l hl => hls l (by simp [hl])
    exact ⟨c, hc, by simpa using hcl⟩

example : ∃ ls, List.Forall₂ ColoredCloud [(⟨[⟨0, 0, 0⟩], [⟨1, 1, 1⟩]⟩ : PointCloud ℚ), ⟨[⟨1, 2, 3⟩], [⟨2, 2, 2⟩]⟩] ls ∧
    ∀ l ∈ ls, l ≠ [] :=
  ⟨[[(⟨0, 0, 0⟩, ⟨1, 1, 1⟩)], [(⟨1, 2, 3⟩, ⟨2, 2, 2⟩)]], .cons ⟨rfl, rfl⟩ (.cons ⟨rfl, rfl⟩ .nil), by simp⟩

/-! ## Transforming and registering -/

variable [CommRing K]

/-- **C91.** Transforming keeps the number and order of points and every point's colour. -/
theorem C91_transform (c : PointCloud K) (l : List (Vec3 K × Color)) (h : ColoredCloud c l) (a : Pose3 K) :
    (∃ d, c.transformFrom a = .ok d ∧ ColoredCloud d (l.map fun p => (a.R.mulVec p.1 + a.t, p.2))) ∧
    ∃ d, c.transformTo a = .ok d ∧ ColoredCloud d (l.map fun p => (a.R.transpose.mulVec (p.1 - a.t), p.2)) := by
  have hlen : c.colors.length = c.points.length := by rw [h.1, h.2]; simp
  constructor
  · refine ⟨⟨a.transformAllFrom c.points, c.colors⟩, ?_, ?_⟩
    · unfold PointCloud.transformFrom colored create
      cases hc : c.colors with
      | nil => rfl
      | cons x y =>
        have e : (a.transformAllFrom c.points).length = (x :: y).length := by
          rw [transformAllFrom_eq, List.length_map, ← hlen, hc]
        simp [e]
    · refine ⟨?_, by simp [h.2]⟩
      simp only [transformAllFrom_eq, h.1, List.map_map]
      rfl
  · refine ⟨⟨a.transformAllTo c.points, c.colors⟩, ?_, ?_⟩
    · unfold PointCloud.transformTo colored create
      cases hc : c.colors with
      | nil => rfl
      | cons x y =>
        have e : (a.transformAllTo c.points).length = (x :: y).length := by
          rw [transformAllTo_eq, List.length_map, ← hlen, hc]
        simp [e]
    · refine ⟨?_, by simp [h.2]⟩
      simp only [transformAllTo_eq, h.1, List.map_map]
      rfl

/-- **C91.** The same for clouds without colours. -/
theorem C91_transform_plain (c : PointCloud K) (l : List (Vec3 K)) (h : PlainCloud c l) (a : Pose3 K) :
    (∃ d, c.transformFrom a = .ok d ∧ PlainCloud d (l.map fun p => a.R.mulVec p + a.t)) ∧
    ∃ d, c.transformTo a = .ok d ∧ PlainCloud d (l.map fun p => a.R.transpose.mulVec (p - a.t)) := by
  constructor
  · refine ⟨⟨a.transformAllFrom c.points, []⟩, ?_, ?_, rfl⟩
    · unfold PointCloud.transformFrom create
      rw [h.not_colored]; rfl
    · simp only [transformAllFrom_eq, h.1]
      rfl
  · refine ⟨⟨a.transformAllTo c.points, []⟩, ?_, ?_, rfl⟩
    · unfold PointCloud.transformTo create
      rw [h.not_colored]; rfl
    · simp only [transformAllTo_eq, h.1]
      rfl

/-- The cloud of a successful transformation of any consistent cloud. -/
theorem transformFrom_ok (c : PointCloud K) (hc : ConsistentCloud c) (a : Pose3 K) :
    c.transformFrom a = .ok ⟨c.points.map a.transformFrom, c.colors⟩ := by
  unfold PointCloud.transformFrom colored create
  rw [transformAllFrom_eq]
  rcases hc with hc | hc
  · rw [hc]; rfl
  · cases hcs : c.colors with
    | nil => rfl
    | cons x y => simp [← hc, hcs]

/-- The same for the inverse direction. -/
theorem transformTo_ok (c : PointCloud K) (hc : ConsistentCloud c) (a : Pose3 K) :
    c.transformTo a = .ok ⟨c.points.map a.transformTo, c.colors⟩ := by
  unfold PointCloud.transformTo colored create
  rw [transformAllTo_eq]
  rcases hc with hc | hc
  · rw [hc]; rfl
  · cases hcs : c.colors with
    | nil => rfl
    | cons x y => simp [← hc, hcs]

/-- **C91.** `transform_from` followed by `transform_to` with the same pose gives the cloud back, and the other way round. -/
theorem C91_round_trip (c : PointCloud K) (hc : ConsistentCloud c) (a : Pose3 K) (ha : IsOrthogonal a.R) :
    (do let d ← c.transformFrom a; d.transformTo a) = .ok c ∧ (do let d ← c.transformTo a; d.transformFrom a) = .ok c := by
  constructor
  · rw [transformFrom_ok c hc]
    change PointCloud.transformTo _ a = _
    rw [transformTo_ok _ (by simpa [ConsistentCloud] using hc)]
    simp only [List.map_map, Function.comp_def, transformTo_from a ha, List.map_id']
  · rw [transformTo_ok c hc]
    change PointCloud.transformFrom _ a = _
    rw [transformFrom_ok _ (by simpa [ConsistentCloud] using hc)]
    simp only [List.map_map, Function.comp_def, transformFrom_to a ha, List.map_id']

example : ConsistentCloud (⟨[⟨0, 0, 0⟩], [⟨1, 1, 1⟩]⟩ : PointCloud ℚ) ∧ IsOrthogonal (Pose3.identity : Pose3 ℚ).R :=
  ⟨.inr rfl, isOrthogonal_one⟩

theorem mapM_transform_ok : ∀ (items : List (Pose3 K × PointCloud K)), (∀ i ∈ items, ConsistentCloud i.2) →
    (items.mapM fun i => i.2.transformFrom i.1) =
      .ok (items.map fun i => ⟨i.2.points.map i.1.transformFrom, i.2.colors⟩) := by
  intro items
  induction items with
  | nil => intro _; rfl
  | cons a items ih =>
    intro h
    rw [List.mapM_cons, transformFrom_ok _ (h a (by simp)), ih fun i hi => h i (by simp [hi])]
    rfl

/-- **C56.** Registering clouds with poses succeeds exactly when no cloud has colours, or all clouds with points do; the
result is then the concatenation of the transformed points and of the colours. -/
theorem C56_register (items : List (Pose3 K × PointCloud K)) (h : ∀ i ∈ items, ConsistentCloud i.2) :
    (∀ c, register items = .ok c →
      c.points = items.flatMap (fun i => i.2.points.map fun p => i.1.R.mulVec p + i.1.t) ∧
      c.colors = items.flatMap (fun i => i.2.colors) ∧ ConsistentCloud c) ∧
    ((∃ c, register items = .ok c) ↔
      (∀ i ∈ items, i.2.colors = []) ∨ ∀ i ∈ items, i.2.colors.length = i.2.points.length) := by
  have hle : ∀ i ∈ items, i.2.colors.length ≤ i.2.points.length := fun i hi => by
    rcases h i hi with h | h
    · simp [h]
    · omega
  have hs := sum_eq_forall (fun i : Pose3 K × PointCloud K => i.2.colors.length) (fun i => i.2.points.length) items hle
  have hreg : register items = ofClouds (items.map fun i => ⟨i.2.points.map i.1.transformFrom, i.2.colors⟩) := by
    unfold register
    rw [mapM_transform_ok items h]
    rfl
  have h0 : (items.map fun i => i.2.colors.length).sum = 0 ↔ ∀ i ∈ items, i.2.colors = [] := by
    rw [List.sum_eq_zero_iff]
    simp only [List.mem_map, forall_exists_index, and_imp, forall_apply_eq_imp_iff₂, List.length_eq_zero_iff]
  have h1 : (items.map fun i => i.2.colors.length).sum = (items.map fun i => i.2.points.length).sum ↔
      ∀ i ∈ items, i.2.colors.length = i.2.points.length :=
    ⟨hs.2, fun h => by rw [List.map_congr_left h]⟩
  have hof : register items = if (∀ i ∈ items, i.2.colors = []) ∨ ∀ i ∈ items, i.2.colors.length = i.2.points.length then
      .ok ⟨items.flatMap (fun i => i.2.points.map i.1.transformFrom), items.flatMap (fun i => i.2.colors)⟩
      else .error .assertionError := by
    rw [hreg]
    unfold ofClouds
    simp only [List.map_map, Function.comp_def, List.length_map, List.flatMap_map, h0, h1]
  rw [hof]
  constructor
  · intro c hc
    split_ifs at hc with hcase
    cases hc
    refine ⟨rfl, rfl, ?_⟩
    rcases hcase with hcase | hcase
    · left
      simp only [List.flatMap_eq_nil_iff]
      exact hcase
    · right
      simp only [List.length_flatMap, List.length_map]
      rw [List.map_congr_left hcase]
  · split_ifs with hcase
    · exact ⟨fun _ => hcase, fun _ => ⟨_, rfl⟩⟩
    · exact ⟨fun h => (by obtain ⟨c, hc⟩ := h; cases hc), fun h => absurd h hcase⟩

example : ∀ i ∈ [((Pose3.identity : Pose3 ℚ), (⟨[⟨0, 0, 0⟩], [⟨1, 1, 1⟩]⟩ : PointCloud ℚ))], ConsistentCloud i.2 := by
  simp [ConsistentCloud]

/-! ## Thinning -/

omit [CommRing K] in
theorem select_ok {α : Type} (l : List α) : ∀ (idx : List ℕ), (∀ i ∈ idx, i < l.length) →
    ∃ out, select l idx = .ok out ∧ List.Forall₂ (fun i p => l[i]? = some p) idx out := by
  intro idx
  induction idx with
  | nil => intro _; exact ⟨[], rfl, .nil⟩
  | cons i idx ih =>
    intro h
    obtain ⟨out, h1, h2⟩ := ih fun j hj => h j (by simp [hj])
    have hl : i < l.length := h i (by simp)
    have hi : l[i]? = some l[i] := List.getElem?_eq_getElem hl
    refine ⟨l[i] :: out, ?_, .cons hi h2⟩
    unfold select at h1 ⊢
    rw [List.mapM_cons, hi, h1]
    rfl

omit [CommRing K] in
/-- **C91.** Thinning takes, for every random index drawn, the point at that index with its own colour. -/
theorem C91_thin (c : PointCloud K) (hc : ConsistentCloud c) (idx : List ℕ) (h : ∀ i ∈ idx, i < c.points.length) :
    ∃ d, thin c idx = .ok d ∧ ConsistentCloud d ∧ List.Forall₂ (fun i p => c.points[i]? = some p) idx d.points ∧
      (c.colors ≠ [] → List.Forall₂ (fun i p => c.colors[i]? = some p) idx d.colors) ∧
      (c.colors = [] → d.colors = []) := by
  obtain ⟨ps, h1, h2⟩ := select_ok c.points idx h
  rcases hc with hc | hc
  · refine ⟨⟨ps, []⟩, ?_, .inl rfl, h2, fun h => absurd hc h, fun _ => rfl⟩
    unfold thin
    rw [h1]
    simp only [bind, Except.bind, colored, hc]
    rfl
  · obtain ⟨cs, h3, h4⟩ := select_ok c.colors idx (by rw [hc]; exact h)
    have hl : ps.length = cs.length := by rw [← h2.length_eq, h4.length_eq]
    cases hcs : c.colors with
    | nil =>
      refine ⟨⟨ps, []⟩, ?_, .inl rfl, h2, fun h => absurd rfl h, fun _ => rfl⟩
      unfold thin
      rw [h1]
      simp only [bind, Except.bind, colored, hcs]
      rfl
    | cons x y =>
      refine ⟨⟨ps, cs⟩, ?_, .inr hl.symm, h2, fun _ => by rw [← hcs]; exact h4, fun h => by cases h⟩
      unfold thin
      rw [h1, h3]
      simp [bind, Except.bind, colored, hcs, create, hl]

example : thin (⟨[⟨0, 0, 0⟩, ⟨1, 2, 3⟩], [⟨1, 1, 1⟩, ⟨2, 2, 2⟩]⟩ : PointCloud ℚ) [1, 1] =
    .ok ⟨[⟨1, 2, 3⟩, ⟨1, 2, 3⟩], [⟨2, 2, 2⟩, ⟨2, 2, 2⟩]⟩ := rfl

end Sumo
