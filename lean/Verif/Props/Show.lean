import Verif.Model.Show
import Verif.Spec.Mesh
import Verif.Props.InverseDepth

/-! # What is drawn (C172, C173, C174, and printing for C59) -/

namespace Sumo
namespace Show

/-- The pixel in row `i` and column `j` of an image. -/
def pixel {α : Type} (im : List (List α)) (i j : ℕ) : Option α := im[i]?.bind fun row => row[j]?

/-! ### C172: point clouds -/

theorem setDefault_keeps {V : Type} (k : String) (v : V) (o : List (String × V)) {x : String × V} (h : x ∈ o) : x ∈ setDefault k v o := by
  unfold setDefault
  split
  · exact h
  · exact List.mem_append_left _ h

theorem setDefault_new {V : Type} (k : String) (v : V) (o : List (String × V)) {x : String × V} (h : x ∈ setDefault k v o) :
    x ∈ o ∨ (x = (k, v) ∧ ∀ y ∈ o, y.1 ≠ k) := by
  unfold setDefault at h
  split at h
  · exact .inl h
  · rename_i hn
    rcases List.mem_append.1 h with h | h
    · exact .inl h
    · refine .inr ⟨List.mem_singleton.1 h, fun y hy e => hn (List.any_eq_true.2 ⟨y, hy, by simpa using e⟩)⟩

theorem setDefault_has {V : Type} (k : String) (v : V) (o : List (String × V)) : ∃ w, (k, w) ∈ setDefault k v o := by
  unfold setDefault
  split
  · rename_i h
    obtain ⟨⟨a, w⟩, hm, e⟩ := List.any_eq_true.1 h
    exact ⟨w, by simpa [beq_iff_eq.1 e] using (beq_iff_eq.1 e ▸ hm : _)⟩
  · exact ⟨v, List.mem_append_right _ (List.mem_singleton.2 rfl)⟩

/-- **C172 (part).** Without colours, any cloud is drawn as three scatter plots: every point is at its `x` and `y`, `x` and `z`, and `y`
and `z` coordinates.  The keyword arguments are used as given; marker and size have their defaults exactly if they are not given.  Missing:
colours (`C172_false`). -/
theorem C172_partial {K V : Type} (dot one : V) (P : List (Vec3 K)) (o : List (String × V)) :
    ∃ a b c, showCloud dot one P false o = .ok [a, b, c] ∧ (a.title = "XY" ∧ b.title = "XZ" ∧ c.title = "YZ") ∧
      (a.xs.length = P.length ∧ a.ys.length = P.length ∧ a.xs.zip a.ys = P.map fun p => (p.x, p.y)) ∧
      (b.xs.length = P.length ∧ b.ys.length = P.length ∧ b.xs.zip b.ys = P.map fun p => (p.x, p.z)) ∧
      (c.xs.length = P.length ∧ c.ys.length = P.length ∧ c.xs.zip c.ys = P.map fun p => (p.y, p.z)) ∧
      ∀ f ∈ [a, b, c], (∀ x ∈ o, x ∈ f.options) ∧ (∃ w, ("marker", w) ∈ f.options) ∧ (∃ w, ("s", w) ∈ f.options) ∧
        ∀ x ∈ f.options, x ∈ o ∨ (x = ("marker", dot) ∧ ∀ y ∈ o, y.1 ≠ "marker") ∨ (x = ("s", one) ∧ ∀ y ∈ o, y.1 ≠ "s") := by
  refine ⟨_, _, _, rfl, ⟨rfl, rfl, rfl⟩, ?_, ?_, ?_, ?_⟩
  · simp [List.zip_map']
  · simp [List.zip_map']
  · simp [List.zip_map']
  · have key : (∀ x ∈ o, x ∈ setDefault "s" one (setDefault "marker" dot o)) ∧
        (∃ w, ("marker", w) ∈ setDefault "s" one (setDefault "marker" dot o)) ∧
        (∃ w, ("s", w) ∈ setDefault "s" one (setDefault "marker" dot o)) ∧
        ∀ x ∈ setDefault "s" one (setDefault "marker" dot o),
          x ∈ o ∨ (x = ("marker", dot) ∧ ∀ y ∈ o, y.1 ≠ "marker") ∨ (x = ("s", one) ∧ ∀ y ∈ o, y.1 ≠ "s") := by
      refine ⟨fun x hx => setDefault_keeps _ _ _ (setDefault_keeps _ _ _ hx), ?_, setDefault_has _ _ _, fun x hx => ?_⟩
      · obtain ⟨w, hw⟩ := setDefault_has "marker" dot o
        exact ⟨w, setDefault_keeps _ _ _ hw⟩
      · rcases setDefault_new _ _ _ hx with h | ⟨h, hn⟩
        · rcases setDefault_new _ _ _ h with h | h
          · exact .inl h
          · exact .inr (.inl h)
        · exact .inr (.inr ⟨h, fun y hy => hn y (setDefault_keeps _ _ _ hy)⟩)
    intro f hf
    simp only [List.mem_cons, List.not_mem_nil, or_false] at hf
    rcases hf with rfl | rfl | rfl <;> exact key

/-- **C172.** Different clouds have different figures. -/
theorem C172_determines {K V : Type} (dot one : V) (P Q : List (Vec3 K)) (o : List (String × V))
    (h : showCloud dot one P false o = showCloud dot one Q false o) : P = Q := by
  simp only [showCloud, Bool.false_eq_true, if_false, Except.ok.injEq, List.cons.injEq, Panel.mk.injEq, true_and, and_true] at h
  obtain ⟨⟨hx, hy⟩, ⟨-, hz⟩, -⟩ := h
  have hl : P.length = Q.length := by simpa using congrArg List.length hx
  refine List.ext_getElem hl fun i h1 h2 => ?_
  have ex := congrArg (·[i]?) hx
  have ey := congrArg (·[i]?) hy
  have ez := congrArg (·[i]?) hz
  simp only [List.getElem?_map, List.getElem?_eq_getElem h1, List.getElem?_eq_getElem h2, Option.map_some, Option.some.injEq] at ex ey ez
  exact Vec3.ext ex ey ez

/-- **C172 is false with colours.** No cloud at all can be shown with `colored=True`. -/
theorem C172_false {K V : Type} (dot one : V) (P : List (Vec3 K)) (o : List (String × V)) :
    showCloud dot one P true o = .error .typeError := rfl

/-! ### C173: poses -/

/-- The unit vector along axis `c`. -/
def axis {K : Type} [CommRing K] : ℕ → Vec3 K
  | 0 => ⟨1, 0, 0⟩
  | 1 => ⟨0, 1, 0⟩
  | _ => ⟨0, 0, 1⟩

theorem column_axis {K : Type} [CommRing K] (p : Pose3 K) (c : ℕ) :
    p.transformFrom (axis c) - p.transformFrom 0 = column p.R c := by
  match c with
  | 0 => ext <;> simp [Pose3.transformFrom, Rot3.apply, Mat3.mulVec, axis, column]
  | 1 => ext <;> simp [Pose3.transformFrom, Rot3.apply, Mat3.mulVec, axis, column]
  | n + 2 => ext <;> simp [Pose3.transformFrom, Rot3.apply, Mat3.mulVec, axis, column]

theorem origin {K : Type} [CommRing K] (p : Pose3 K) : p.transformFrom 0 = p.t := by
  ext <;> simp [Pose3.transformFrom, Rot3.apply, Mat3.mulVec]

/-- **C173 (part).** For a sequence of one or more poses, three sets of arrows are drawn, red, green and blue.  Each pose has one arrow in
each: it starts at the origin of the frame and has the direction of its first, second or third axis.  Missing: no poses, and iterators
(`C173_empty_false`, `C173_iterator_false`). -/
theorem C173_partial {K : Type} [CommRing K] (l : List (Pose3 K)) (hl : l ≠ []) (length : K) :
    ∃ r g b, drawPoses (.sequence l) length = ([r, g, b], .ok ()) ∧ (r.color = 'r' ∧ g.color = 'g' ∧ b.color = 'b') ∧
      (r.length = length ∧ g.length = length ∧ b.length = length) ∧
      r.arrows = l.map (fun p => (p.transformFrom 0, p.transformFrom ⟨1, 0, 0⟩ - p.transformFrom 0)) ∧
      g.arrows = l.map (fun p => (p.transformFrom 0, p.transformFrom ⟨0, 1, 0⟩ - p.transformFrom 0)) ∧
      b.arrows = l.map (fun p => (p.transformFrom 0, p.transformFrom ⟨0, 0, 1⟩ - p.transformFrom 0)) := by
  obtain ⟨x, xs, rfl⟩ := List.exists_cons_of_ne_nil hl
  refine ⟨_, _, _, rfl, ⟨rfl, rfl, rfl⟩, ⟨rfl, rfl, rfl⟩, ?_, ?_, ?_⟩
  · exact List.map_congr_left fun p _ => Prod.ext (origin p).symm (column_axis p 0).symm
  · exact List.map_congr_left fun p _ => Prod.ext (origin p).symm (column_axis p 1).symm
  · exact List.map_congr_left fun p _ => Prod.ext (origin p).symm (column_axis p 2).symm

example : ([⟨⟨1, 0, 0, 0, 1, 0, 0, 0, 1⟩, ⟨1, 2, 3⟩⟩] : List (Pose3 ℚ)) ≠ [] := by simp

/-- **C173 is false for no poses.** -/
theorem C173_empty_false {K : Type} (length : K) : drawPoses (.sequence []) length = ([], .error .valueError) := rfl

/-- **C173 is false for iterators.** Of the poses of a generator only the first axes are drawn before the exception. -/
theorem C173_iterator_false {K : Type} (p : Pose3 K) (l : List (Pose3 K)) (length : K) :
    ∃ q, drawPoses (.iterator (p :: l)) length = ([q], .error .valueError) ∧ q.color = 'r' := ⟨_, rfl, rfl⟩

/-! ### C174: images and meshes -/

theorem mapM_lookup {α β : Type} (f : α → Except PyErr β) (R : α → β → Prop) (hR : ∀ a b, f a = .ok b ↔ R a b)
    (he : ∀ a e, f a = .error e → e = .indexError) (l : List α) :
    (∃ l', l.mapM f = .ok l' ∧ List.Forall₂ R l l') ∨ (l.mapM f = .error .indexError ∧ ∃ a ∈ l, ∀ b, ¬ R a b) := by
  induction l with
  | nil => exact .inl ⟨[], rfl, .nil⟩
  | cons a l ih =>
    rw [List.mapM_cons]
    cases h : f a with
    | error e =>
      have := he a e h
      subst this
      exact .inr ⟨rfl, a, List.mem_cons_self, fun b hb => by rw [(hR a b).2 hb] at h; cases h⟩
    | ok b =>
      rcases ih with ⟨l', h1, h2⟩ | ⟨h1, x, hx, hn⟩
      · exact .inl ⟨b :: l', by rw [h1]; rfl, .cons ((hR a b).1 h) h2⟩
      · exact .inr ⟨by rw [h1]; rfl, x, List.mem_cons_of_mem _ hx, hn⟩

theorem lookup_iff {C : Type} (lut : List C) (i : ℕ) (c : C) :
    entryAt lut i = .ok c ↔ lut[i]? = some c := by
  unfold entryAt
  cases lut[i]? <;> simp

theorem lookup_err {C : Type} (lut : List C) (i : ℕ) (e : PyErr)
    (h : entryAt lut i = .error e) : e = .indexError := by
  unfold entryAt at h
  revert h
  cases lut[i]? with
  | none => intro h; cases h; rfl
  | some c => intro h; cases h

theorem row_spec {C : Type} (lut : List C) (row : List ℕ) :
    (∃ r, row.mapM (entryAt lut) = .ok r ∧
        List.Forall₂ (fun i c => lut[i]? = some c) row r) ∨
      (row.mapM (entryAt lut) = .error .indexError ∧
        ∃ i ∈ row, lut.length ≤ i) := by
  rcases mapM_lookup _ (fun i c => lut[i]? = some c) (fun i c => lookup_iff lut i c) (fun i e => lookup_err lut i e) row with h | ⟨h, i, hi, hn⟩
  · exact .inl h
  · refine .inr ⟨h, i, hi, ?_⟩
    by_contra hlt
    exact hn _ (List.getElem?_eq_getElem (by omega))

theorem forall₂_ids {C : Type} {lut : List C} : ∀ {row : List ℕ} {r : List C}, List.Forall₂ (fun i c => lut[i]? = some c) row r →
    ∀ i ∈ row, i < lut.length
  | _, _, .nil, i, hi => by simp at hi
  | _, _, .cons h hs, i, hi => by
    rcases List.mem_cons.1 hi with rfl | hi
    · exact (List.getElem?_eq_some_iff.1 h).1
    · exact forall₂_ids hs i hi

section
variable {K : Type} [Field K] [LinearOrder K] [IsStrictOrderedRing K] [FloorRing K]

/-- **C174.** An image with categories is shown as four pictures, the first two as for an image without.  Without a table the category and instance pictures have the numbers;
with a table of colours the category picture has at every pixel the colour of its category. It is drawn exactly if all categories
are in the table; otherwise there is an `IndexError`. -/
theorem C174_rgbdci {C : Type} (ρ : Rounding K) (rgb : List (List C)) (range : List (List (FVal K))) (category instances : List (List ℕ)) :
    showRgbdci ρ rgb range category instances none =
        .ok (showRgbd ρ rgb range ++ [("Category", .numbers category), ("Instance", .numbers instances)]) ∧
      ∀ lut : List C,
        ((∀ row ∈ category, ∀ i ∈ row, i < lut.length) → ∃ rows,
          showRgbdci ρ rgb range category instances (some lut) =
              .ok (showRgbd ρ rgb range ++ [("Category", .colors rows), ("Instance", .numbers instances)]) ∧
            List.Forall₂ (List.Forall₂ fun i c => lut[i]? = some c) category rows) ∧
        ((∃ row ∈ category, ∃ i ∈ row, lut.length ≤ i) →
          showRgbdci ρ rgb range category instances (some lut) = .error .indexError) := by
  refine ⟨rfl, fun lut => ?_⟩
  have h := mapM_lookup (fun row : List ℕ => row.mapM (entryAt lut)) (List.Forall₂ fun i c => lut[i]? = some c)
    (by
      intro row r
      rcases row_spec lut row with ⟨r', h1, h2⟩ | ⟨h1, i, hi, hl⟩
      · rw [h1]
        constructor
        · intro e; cases e; exact h2
        · intro h3
          congr 1
          clear h1
          induction h2 generalizing r with
          | nil => cases h3; rfl
          | cons e _ ih =>
            cases h3 with
            | cons e' h3 => rw [Option.some.inj (e.symm.trans e'), ih _ h3]
      · rw [h1]
        constructor
        · intro e; cases e
        · intro h3
          have := forall₂_ids h3 i hi
          omega)
    (by
      intro row e he
      rcases row_spec lut row with ⟨r', h1, -⟩ | ⟨h1, -⟩
      · rw [h1] at he; cases he
      · rw [h1] at he; cases he; rfl) category
  constructor
  · intro hin
    rcases h with ⟨rows, h1, h2⟩ | ⟨-, row, hrow, hn⟩
    · refine ⟨rows, ?_, h2⟩
      unfold showRgbdci categoryPicture
      simp only [h1, bind, Except.bind]
    · exfalso
      rcases row_spec lut row with ⟨r', -, h2⟩ | ⟨-, i, hi, hl⟩
      · exact hn r' h2
      · have := hin row hrow i hi
        omega
  · rintro ⟨row, hrow, i, hi, hl⟩
    rcases h with ⟨rows, h1, h2⟩ | ⟨h1, -⟩
    · exfalso
      have : ∀ {l : List (List ℕ)} {l' : List (List C)}, List.Forall₂ (List.Forall₂ fun i c => lut[i]? = some c) l l' →
          ∀ row ∈ l, ∀ i ∈ row, i < lut.length := by
        intro l l' h
        induction h with
        | nil => simp
        | cons e _ ih =>
          intro row hr
          rcases List.mem_cons.1 hr with rfl | hr
          · exact forall₂_ids e
          · exact ih row hr
      have := this h2 row hrow i hi
      omega
    · unfold showRgbdci categoryPicture
      simp only [h1, bind, Except.bind]

/-- **C174.** The second picture of both kinds of image has the shape of the range, is dark (0) where the range is unknown (0 or not a
number), and no positive range is darker than a farther one. -/
theorem C174_range {C : Type} (ρ : Rounding K) (hρ : ρ.Lawful) (hnear : 0 < ρ.f32 (defaultNear : K)) (rgb : List (List C))
    (range : List (List (FVal K))) :
    ∃ far, showRgbd ρ rgb range = [("RGB", .colors rgb), ("Inverse range", .numbers far)] ∧
      far.map List.length = range.map List.length ∧
      (∀ i j, ∀ d, pixel range i j = some d → (d = FVal.fin 0 ∨ d = FVal.nan) → pixel far i j = some 0) ∧
      ∀ i j i' j', ∀ d d' : K, pixel range i j = some (FVal.fin d) → pixel range i' j' = some (FVal.fin d') → 0 < d → d ≤ d' →
        ∃ n n', pixel far i j = some n ∧ pixel far i' j' = some n' ∧ n' ≤ n := by
  refine ⟨_, rfl, by simp [inverseDepthMapOfDepthImage, mapImage, Function.comp_def], ?_, ?_⟩
  all_goals
    have pix : ∀ i j d, pixel range i j = some d →
        pixel (inverseDepthMapOfDepthImage ρ range (ρ.f32 defaultNear)) i j =
          some (inverseDepthOfDepth ρ d (ρ.f32 defaultNear)) := by
      intro i j d h
      unfold pixel at h
      unfold pixel inverseDepthMapOfDepthImage mapImage
      rw [List.getElem?_map]
      cases hr : range[i]? with
      | none => rw [hr] at h; cases h
      | some row =>
        rw [hr] at h
        simp only [Option.bind_some] at h
        simp [h]
  · rintro i j d h (rfl | rfl)
    · rw [pix i j _ h]
      simp [inverseDepthOfDepth, inverseDepthBody, unraisable]
    · rw [pix i j _ h]
      simp [inverseDepthOfDepth, inverseDepthBody, unraisable]
  · intro i j i' j' d d' h h' h0 hle
    exact ⟨_, _, pix i j _ h, pix i' j' _ h', (C70_monotone16 ρ hρ _ d d' hnear h0 hle).2⟩

end

example : (Rounding.exact ℚ).Lawful ∧ 0 < (Rounding.exact ℚ).f32 (defaultNear : ℚ) := ⟨exact_lawful, by decide +kernel⟩

theorem rowsOf3_ok : ∀ l : List ℕ, 3 ∣ l.length → rowsOf3 l = .ok (MeshSpec.triples l)
  | [], _ => rfl
  | [_], h => by simp at h
  | [_, _], h => by simp at h
  | a :: b :: c :: rest, h => by
    rw [rowsOf3, rowsOf3_ok rest (by simp only [List.length_cons] at h; omega)]
    rfl

/-- **C174.** The surface shown for a mesh consists of its triangles, in their order. -/
theorem C174_surface {K : Type} (indices : List ℕ) (vertices : List (Vec3 K)) (h3 : 3 ∣ indices.length)
    (hi : MeshSpec.InRange vertices.length indices) :
    ∃ polygons, surfaceOf indices vertices = .ok polygons ∧ 3 * polygons.length = indices.length ∧
      List.Forall₂ (fun i v => vertices[i]? = some v) indices polygons.flatten ∧ ∀ p ∈ polygons, p.length = 3 := by
  unfold surfaceOf
  rw [rowsOf3_ok indices h3]
  simp only [bind, Except.bind]
  have at_ok : ∀ i, i < vertices.length → ∃ v, entryAt vertices i = .ok v ∧ vertices[i]? = some v := by
    intro i h
    exact ⟨vertices[i], by unfold entryAt; rw [List.getElem?_eq_getElem h], List.getElem?_eq_getElem h⟩
  have main : ∀ l : List ℕ, 3 ∣ l.length → (∀ i ∈ l, i < vertices.length) →
      ∃ polygons, (MeshSpec.triples l).mapM (fun f => (entryAt vertices f.1).bind fun a => (entryAt vertices f.2.1).bind fun b =>
          (entryAt vertices f.2.2).bind fun c => (.ok [a, b, c] : Except PyErr (List (Vec3 K)))) = .ok polygons ∧
        3 * polygons.length = l.length ∧
        List.Forall₂ (fun i v => vertices[i]? = some v) l polygons.flatten ∧ ∀ p ∈ polygons, p.length = 3 := by
    intro l
    induction l using MeshSpec.triples.induct with
    | case1 a b c rest ih =>
      intro h hin
      obtain ⟨ps, e1, e2, e3, e4⟩ := ih (by simp only [List.length_cons] at h; omega)
        (fun i hi => hin i (List.mem_cons_of_mem _ (List.mem_cons_of_mem _ (List.mem_cons_of_mem _ hi))))
      obtain ⟨u, u1, u2⟩ := at_ok a (hin a (by simp))
      obtain ⟨v, v1, v2⟩ := at_ok b (hin b (by simp))
      obtain ⟨w, w1, w2⟩ := at_ok c (hin c (by simp))
      refine ⟨[u, v, w] :: ps, ?_, ?_, ?_, ?_⟩
      · rw [MeshSpec.triples, List.mapM_cons, e1]
        simp only [u1, v1, w1, bind, Except.bind, pure, Except.pure]
      · simp only [List.length_cons]; omega
      · exact .cons u2 (.cons v2 (.cons w2 e3))
      · intro p hp
        rcases List.mem_cons.1 hp with rfl | hp
        · rfl
        · exact e4 p hp
    | case2 l hl =>
      intro h _
      match l with
      | [] => exact ⟨[], rfl, rfl, .nil, by simp⟩
      | [_] => simp at h
      | [_, _] => simp at h
      | a :: b :: c :: rest => exact absurd rfl (hl a b c rest)
  exact main indices h3 hi

example : 3 ∣ [0, 1, 2].length ∧ MeshSpec.InRange 3 [0, 1, 2] := ⟨by decide, by unfold MeshSpec.InRange; decide⟩

/-! ### C59: symmetries -/

theorem split_at {c : Char} : ∀ {u v r s : List Char}, c ∉ u → c ∉ v → u ++ c :: r = v ++ c :: s → u = v ∧ r = s
  | [], [], _, _, _, _, h => by simpa using h
  | [], y :: v, _, _, _, hv, h => by
    simp only [List.nil_append, List.cons_append, List.cons.injEq] at h
    exact absurd (h.1 ▸ List.mem_cons_self) hv
  | x :: u, [], _, _, hu, _, h => by
    simp only [List.nil_append, List.cons_append, List.cons.injEq] at h
    exact absurd (h.1 ▸ List.mem_cons_self) hu
  | x :: u, y :: v, _, _, hu, hv, h => by
    simp only [List.cons_append, List.cons.injEq] at h
    obtain ⟨e, e'⟩ := split_at (fun h => hu (List.mem_cons_of_mem _ h)) (fun h => hv (List.mem_cons_of_mem _ h)) h.2
    exact ⟨by rw [h.1, e], e'⟩

/-- **C59.** Symmetries print alike exactly if they are equal. -/
theorem C59_str (a b : ObjectSymmetry) : symmetryStr a = symmetryStr b ↔ a = b := by
  refine ⟨fun h => ?_, fun h => by rw [h]⟩
  have no : ∀ t : SymmetryType, ',' ∉ t.toText.toList := by intro t; cases t <;> decide
  have inj : ∀ t u : SymmetryType, t.toText.toList = u.toText.toList → t = u := by
    intro t u; cases t <;> cases u <;> decide
  have e := congrArg String.toList h
  unfold symmetryStr at e
  simp only [String.toList_append, List.append_assoc, List.append_cancel_left_eq] at e
  have ey : ", y_symmetry: ".toList = ',' :: " y_symmetry: ".toList := by decide
  have ez : ", z_symmetry: ".toList = ',' :: " z_symmetry: ".toList := by decide
  rw [ey, ez] at e
  obtain ⟨e1, e2⟩ := split_at (no _) (no _) e
  obtain ⟨e3, e4⟩ := split_at (no _) (no _) (List.append_cancel_left e2)
  have := List.append_cancel_left e4
  obtain ⟨a1, a2, a3⟩ := a
  obtain ⟨b1, b2, b3⟩ := b
  rw [ObjectSymmetry.mk.injEq]
  exact ⟨inj _ _ e1, inj _ _ e3, inj _ _ this⟩

end Show
end Sumo
