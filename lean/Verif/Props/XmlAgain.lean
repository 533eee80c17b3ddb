import Verif.Lemmas.XmlAgain
import Verif.Props.Xml

/-! # Saving and loading again and again (C159) -/

namespace Sumo

variable (T : NumText)

/-- **C159 (poses).** Saving a pose as XML and loading it always works, and from the second time on it changes nothing.  (As worded,
the property is that it changes nothing from the first time on.) -/
theorem C159_pose_partial (p : Pose3 ℚ) : ∃ q, ∀ n, 2 ≤ n → poseAgain T n p = .ok q := by
  refine ⟨printedPose^[2] p, fun n hn => ?_⟩
  rw [poseAgain_eq, iterate_stable (k := 2) (printedPose_third p) n hn]

/-- **C159 (poses).** The numbers stay where they were, however often the pose is saved and loaded. -/
theorem C159_pose_drift (p : Pose3 ℚ) (n : ℕ) : ∃ q, poseAgain T n p = .ok q ∧ PoseClose7 p q := by
  have h0 : ∀ x : ℚ, Close7 x x := fun x => by
    unfold Close7
    rw [sub_self, abs_zero]
    positivity
  have h0v : ∀ v : Vec3 ℚ, VecClose7 v v := fun v => ⟨h0 _, h0 _, h0 _⟩
  rw [poseAgain_eq]
  refine ⟨_, rfl, ?_⟩
  match n with
  | 0 => exact ⟨h0v _, h0v _, h0v _, h0v _⟩
  | 1 => exact ⟨vecClose7_once _, vecClose7_once _, vecClose7_once _, vecClose7_once _⟩
  | k + 2 =>
    rw [iterate_stable (k := 2) (printedPose_third p) (k + 2) (by omega)]
    exact ⟨vecClose7_twice _, vecClose7_twice _, vecClose7_twice _, vecClose7_twice _⟩

/-- **C159** as worded is false: a pose that was loaded changes when it is saved and loaded again.  At first both numbers of its
translation are printed with eight decimals; one of them gets smaller, so that the next time the ratio of the two is above a
thousand and both are printed with nine digits. -/
theorem C159_false : ∃ p : Pose3 ℚ, poseAgain T 2 p ≠ poseAgain T 1 p := by
  refine ⟨⟨Mat3.one, ⟨100 + 1 / 10 ^ 8, 1 / 10 + 1 / 10 ^ 10, 0⟩⟩, ?_⟩
  rw [poseAgain_eq, poseAgain_eq]
  intro h
  have h := congrArg (fun r => match r with | .ok p => p.t.x | .error _ => 0) h
  have h1 : (printedVec (printedVec ⟨100 + 1 / 10 ^ 8, 1 / 10 + 1 / 10 ^ 10, 0⟩)).x = 100 := by decide +kernel
  have h2 : (printedVec ⟨100 + 1 / 10 ^ 8, 1 / 10 + 1 / 10 ^ 10, 0⟩).x = 100 + 1 / 10 ^ 8 := by decide +kernel
  have h3 : (printedVec (printedVec ⟨100 + 1 / 10 ^ 8, 1 / 10 + 1 / 10 ^ 10, 0⟩)).x =
      (printedVec ⟨100 + 1 / 10 ^ 8, 1 / 10 + 1 / 10 ^ 10, 0⟩).x := h
  rw [h1, h2] at h3
  norm_num at h3

/-- **C159 (boxes).** Saving a box as XML and loading it always works, and from the seventh time on it changes nothing.  (Seven is
an upper bound; the corners of a box are printed one by one, and a loaded box has ordered corners again.) -/
theorem C159_box_partial (b : Box3d ℚ) : ∃ c, ∀ n, 7 ≤ n → boxAgain T n b = .ok c := by
  refine ⟨printedBox^[7] b, fun n hn => ?_⟩
  rw [boxAgain_eq, iterate_stable (k := 7) (printedBox_stable b) n hn]

/-- **C159 (boxes)** as worded is false. -/
theorem C159_box_false : ∃ b : Box3d ℚ, boxAgain T 2 b ≠ boxAgain T 1 b := by
  refine ⟨⟨⟨100 + 1 / 10 ^ 8, 1 / 10 + 1 / 10 ^ 10, 0⟩, ⟨200, 200, 200⟩⟩, ?_⟩
  rw [boxAgain_eq, boxAgain_eq]
  intro h
  have h := congrArg (fun r => match r with | .ok b => b.minCorner.x | .error _ => 0) h
  have h1 : (printedBox (printedBox ⟨⟨100 + 1 / 10 ^ 8, 1 / 10 + 1 / 10 ^ 10, 0⟩, ⟨200, 200, 200⟩⟩)).minCorner.x = 100 := by
    decide +kernel
  have h2 : (printedBox ⟨⟨100 + 1 / 10 ^ 8, 1 / 10 + 1 / 10 ^ 10, 0⟩, ⟨200, 200, 200⟩⟩).minCorner.x = 100 + 1 / 10 ^ 8 := by
    decide +kernel
  have h3 : (printedBox (printedBox ⟨⟨100 + 1 / 10 ^ 8, 1 / 10 + 1 / 10 ^ 10, 0⟩, ⟨200, 200, 200⟩⟩)).minCorner.x =
      (printedBox ⟨⟨100 + 1 / 10 ^ 8, 1 / 10 + 1 / 10 ^ 10, 0⟩, ⟨200, 200, 200⟩⟩).minCorner.x := h
  rw [h1, h2] at h3
  norm_num at h3

/-- A concrete case: a third is a third to eight decimals, however often it is saved. -/
example (n : ℕ) (hn : 2 ≤ n) :
    poseAgain T n ⟨Mat3.one, ⟨1 / 3, 0, 5⟩⟩ = .ok ⟨Mat3.one, ⟨33333333 / 10 ^ 8, 0, 5⟩⟩ := by
  rw [poseAgain_eq, iterate_stable (k := 2) (printedPose_third _) n hn]
  exact congrArg Except.ok (by decide +kernel)

end Sumo
