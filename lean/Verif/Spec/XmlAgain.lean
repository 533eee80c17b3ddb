import Verif.Model.Xml

/-!
# What C159 says
-/

namespace Sumo

/-- The pose after saving it as XML and loading it, `n` times. -/
def poseAgain (T : NumText) : ℕ → Pose3 ℚ → Except PyErr (Pose3 ℚ)
  | 0, p => .ok p
  | n + 1, p => do Pose3.fromXml T (Pose3.toXml T (← poseAgain T n p))

/-- The box after saving it as XML and loading it, `n` times. -/
def boxAgain (T : NumText) : ℕ → Box3d ℚ → Except PyErr (Box3d ℚ)
  | 0, b => .ok b
  | n + 1, b => do Box3d.fromXml T (Box3d.toXml T (← boxAgain T n b))

/-- `b` is `a` up to a little more than a unit in the eighth decimal, or in the eighth digit after the first. -/
def Close7 (a b : ℚ) : Prop := |b - a| ≤ 101 / 10 ^ 10 * max 1 |a|

/-- Entrywise. -/
def VecClose7 (a b : Vec3 ℚ) : Prop := Close7 a.x b.x ∧ Close7 a.y b.y ∧ Close7 a.z b.z

/-- All twelve numbers. -/
def PoseClose7 (p q : Pose3 ℚ) : Prop :=
  VecClose7 p.R.col0 q.R.col0 ∧ VecClose7 p.R.col1 q.R.col1 ∧ VecClose7 p.R.col2 q.R.col2 ∧ VecClose7 p.t q.t

end Sumo
