import Verif.Model.Vec
import Verif.Spec.Points
import Mathlib.Algebra.Order.Group.Unbundled.Abs
import Mathlib.Algebra.BigOperators.Group.List.Basic

/-!
# What a mesh describes

An attribute list (positions, normals, texture coordinates) together with an index list describes the attribute of each
triangle corner.
-/

namespace Sumo
namespace MeshSpec

/-- The attribute at each corner; `none` if the index points outside the attribute list. -/
def corners {α : Type} (attr : List α) (idx : List ℕ) : List (Option α) := idx.map (fun i => attr[i]?)

/-- All indices refer to one of `n` vertices. -/
def InRange (n : ℕ) (idx : List ℕ) : Prop := ∀ i ∈ idx, i < n

/-- The triangles of an index list, an incomplete last one is ignored. -/
def triples {α : Type} : List α → List (α × α × α)
  | a :: b :: c :: rest => (a, b, c) :: triples rest
  | _ => []

/-- Sum of vectors. -/
def vsum {K : Type} [CommRing K] (l : List (Vec3 K)) : Vec3 K :=
  ⟨(l.map Vec3.x).sum, (l.map Vec3.y).sum, (l.map Vec3.z).sum⟩

/-- What vertex `v` receives from triangle `t` with normal `n`: the normal, once for each corner of the triangle that is
`v`. -/
def share {K : Type} [CommRing K] (v : ℕ) (t : ℕ × ℕ × ℕ) (n : Vec3 K) : Vec3 K :=
  (if t.1 = v then n else 0) + (if t.2.1 = v then n else 0) + (if t.2.2 = v then n else 0)

/-- `u` is the direction of `s`: a unit vector along `s`, or zero if `s` is. -/
def IsDirection (s u : Vec3 ℝ) : Prop :=
  (s = 0 ∧ u = 0) ∨ (u.normSq = 1 ∧ ∃ c : ℝ, 0 < c ∧ u = Vec3.smul c s)

/-- The three corner positions of triangle `t` satisfy `P`. -/
def OnCorners {K : Type} (vs : List (Vec3 K)) (t : ℕ × ℕ × ℕ) (P : Vec3 K → Vec3 K → Vec3 K → Prop) : Prop :=
  ∃ a b c, vs[t.1]? = some a ∧ vs[t.2.1]? = some b ∧ vs[t.2.2]? = some c ∧ P a b c

/-- All three edges have length at most `l`. -/
def ShortEdges (l : ℝ) (a b c : Vec3 ℝ) : Prop :=
  PointSpec.dist a b ≤ l ∧ PointSpec.dist b c ≤ l ∧ PointSpec.dist c a ≤ l

/-- No corner is within `e` of the origin (in the maximum norm). -/
def AwayFromOrigin {K : Type} [Field K] [LinearOrder K] (e : K) (a b c : Vec3 K) : Prop :=
  ∀ v ∈ [a, b, c], e < |v.x| ∨ e < |v.y| ∨ e < |v.z|

end MeshSpec
end Sumo
