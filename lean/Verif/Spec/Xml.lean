import Verif.Model.Symmetry
import Verif.Model.Geometry
import Verif.Model.Box
import Mathlib.Algebra.Order.AbsoluteValue.Basic
import Mathlib.Algebra.Order.Ring.Rat

/-! # What it means for numbers, poses and boxes to survive being written as text -/

namespace Sumo

/-- `b` is `a` up to half a unit in the eighth decimal, or in the eighth digit after the first for numbers above one. -/
def Close8 (a b : ℚ) : Prop := |b - a| ≤ 1 / (2 * 10 ^ 8) * max 1 |a|

/-- Entrywise. -/
def VecClose (a b : Vec3 ℚ) : Prop := Close8 a.x b.x ∧ Close8 a.y b.y ∧ Close8 a.z b.z

/-- Column by column. -/
def MatClose (A B : Mat3 ℚ) : Prop :=
  VecClose A.col0 B.col0 ∧ VecClose A.col1 B.col1 ∧ VecClose A.col2 B.col2

/-- Rotation and translation. -/
def PoseClose (p q : Pose3 ℚ) : Prop := MatClose p.R q.R ∧ VecClose p.t q.t

/-- Both corners. -/
def BoxClose (a b : Box3d ℚ) : Prop := VecClose a.minCorner b.minCorner ∧ VecClose a.maxCorner b.maxCorner

/-- `x` has at most eight decimals and at most nine significant digits. -/
def ShortDecimal (x : ℚ) : Prop :=
  (∃ k : ℤ, x = k / 10 ^ 8) ∧ ∃ m j : ℤ, |m| < 10 ^ 9 ∧ x = m * (10 : ℚ) ^ j

/-- All three entries are short. -/
def ShortVec (v : Vec3 ℚ) : Prop := ShortDecimal v.x ∧ ShortDecimal v.y ∧ ShortDecimal v.z

/-- All twelve numbers are short. -/
def ShortPose (p : Pose3 ℚ) : Prop := ShortVec p.R.col0 ∧ ShortVec p.R.col1 ∧ ShortVec p.R.col2 ∧ ShortVec p.t

/-- `e` has a text that reads as a list of numbers satisfying `P`. -/
def HasNumbers (read : String → List ℚ) (P : List ℚ → Prop) (e : Xml) : Prop :=
  ∃ s, e.text = some s ∧ P (read s)

/-- A `<rotation>` document: columns `c1`, `c2`, `c3`, each at least once and nothing else, each with a text whose number
count is allowed by `P`. -/
def RotDoc (read : String → List ℚ) (P : List ℚ → Prop) (e : Xml) : Prop :=
  e.tag = "rotation" ∧
  (∀ c ∈ e.children, (c.tag = "c1" ∨ c.tag = "c2" ∨ c.tag = "c3") ∧ HasNumbers read P c) ∧
  (∃ c ∈ e.children, c.tag = "c1") ∧ (∃ c ∈ e.children, c.tag = "c2") ∧ (∃ c ∈ e.children, c.tag = "c3")

/-- A `<pose>` document: a `<translation>` of three numbers and a `<rotation>`, each at least once and nothing else. -/
def PoseDoc (read : String → List ℚ) (P : List ℚ → Prop) (e : Xml) : Prop :=
  e.tag = "pose" ∧
  (∀ c ∈ e.children, c.tag = "translation" ∧ HasNumbers read (fun l => l.length = 3) c ∨ RotDoc read P c) ∧
  (∃ c ∈ e.children, c.tag = "translation") ∧ (∃ c ∈ e.children, c.tag = "rotation")

/-- A `<box3d>` document: two corners of three numbers each, each at least once and nothing else. -/
def BoxDoc (read : String → List ℚ) (e : Xml) : Prop :=
  e.tag = "box3d" ∧
  (∀ c ∈ e.children, (c.tag = "corner1" ∨ c.tag = "corner2") ∧ HasNumbers read (fun l => l.length = 3) c) ∧
  (∃ c ∈ e.children, c.tag = "corner1") ∧ (∃ c ∈ e.children, c.tag = "corner2")

end Sumo
