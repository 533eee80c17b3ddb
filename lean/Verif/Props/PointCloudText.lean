import Verif.Lemmas.PointCloudText

/-! # Properties of point clouds as text (C160) -/

namespace Sumo

/-- **C160.** Reading the numbers of a text file that `PointCloud.save` wrote gives one line per point, in order: exactly the three
coordinates of the point, and the given colour. -/
theorem C160_text (c : PointCloud ℚ) (color : List ℚ) (keep : Option ℕ)
    (hp : ∀ p ∈ c.points, IsDouble p.x ∧ IsDouble p.y ∧ IsDouble p.z) (hc : ∀ x ∈ color, IsDouble x) :
    readText (c.save color keep) = c.points.map fun p => p.x :: p.y :: p.z :: color := by
  have hcol : (color.map printed18).map double = color := by
    rw [List.map_map]
    conv_rhs => rw [← List.map_id color]
    exact List.map_congr_left fun x hx => double_printed18 (hc x hx)
  have key : ∀ l : List (Vec3 ℚ), (∀ p ∈ l, IsDouble p.x ∧ IsDouble p.y ∧ IsDouble p.z) →
      readText (savetxt (hstack (l.map fun p => [p.x, p.y, p.z]) (repmat color l.length))) =
        l.map fun p => p.x :: p.y :: p.z :: color := by
    intro l
    induction l with
    | nil => intro _; rfl
    | cons p l ih =>
      intro h
      obtain ⟨hx, hy, hz⟩ := h p (by simp)
      have ih := ih fun q hq => h q (by simp [hq])
      simp only [readText, savetxt, hstack, repmat, List.length_cons, List.replicate_succ, List.map_cons, List.zipWith_cons_cons,
        List.map_append, List.map_nil, double_printed18 hx, double_printed18 hy, double_printed18 hz, hcol,
        List.cons_append, List.nil_append] at ih ⊢
      rw [ih]
  have := key c.points hp
  unfold PointCloud.save
  simp only [List.length_map]
  exact this

/-- **C160.** The points can be told from the file: two clouds with the same file have the same points. -/
theorem C160_injective (c d : PointCloud ℚ) (color : List ℚ) (hc : ∀ p ∈ c.points, IsDouble p.x ∧ IsDouble p.y ∧ IsDouble p.z)
    (hd : ∀ p ∈ d.points, IsDouble p.x ∧ IsDouble p.y ∧ IsDouble p.z) (hcol : ∀ x ∈ color, IsDouble x)
    (h : c.save color none = d.save color none) : c.points = d.points := by
  have e : (c.points.map fun p => p.x :: p.y :: p.z :: color) = d.points.map fun p => p.x :: p.y :: p.z :: color := by
    rw [← C160_text c color none hc hcol, ← C160_text d color none hd hcol, h]
  refine List.map_injective_iff.2 ?_ e
  intro p q hpq
  simp only [List.cons.injEq, and_true] at hpq
  exact Vec3.ext hpq.1 hpq.2.1 hpq.2.2

/-- The colours of the cloud are not in the file, and `keep` has no effect. -/
theorem C160_own_colours_dropped (points : List (Vec3 ℚ)) (c1 c2 : List Color) (color : List ℚ) (k1 k2 : Option ℕ) :
    PointCloud.save ⟨points, c1⟩ color k1 = PointCloud.save ⟨points, c2⟩ color k2 := rfl

/-- A concrete case: a tenth as a double is not a decimal of nineteen digits, and is read back. -/
example : IsDouble (double (1 / 10)) ∧ printed18 (double (1 / 10)) ≠ double (1 / 10) ∧
    readText (PointCloud.save ⟨[⟨double (1 / 10), -3, 0⟩], []⟩ PointCloud.saveColor none) = [[double (1 / 10), -3, 0, 255, 255, 255]] := by
  refine ⟨double_isDouble _, by decide +kernel, by decide +kernel⟩

end Sumo
