import Verif.Model.Box

/-!
# What an axis-aligned box is

A box as the set of points between two corners; triangles, oriented edges and signed volume of a mesh.
-/

namespace Sumo
namespace BoxSpec
variable {K : Type} [Field K] [LinearOrder K]

/-- `p` lies in the closed box. -/
def Mem (b : Box3d K) (p : Vec3 K) : Prop :=
  (b.minCorner.x ≤ p.x ∧ p.x ≤ b.maxCorner.x) ∧ (b.minCorner.y ≤ p.y ∧ p.y ≤ b.maxCorner.y) ∧
    (b.minCorner.z ≤ p.z ∧ p.z ≤ b.maxCorner.z)

/-- The box has its corners in order (it contains a point). -/
def Ordered (b : Box3d K) : Prop :=
  b.minCorner.x ≤ b.maxCorner.x ∧ b.minCorner.y ≤ b.maxCorner.y ∧ b.minCorner.z ≤ b.maxCorner.z

/-- The box has positive size in each direction. -/
def Positive (b : Box3d K) : Prop :=
  b.minCorner.x < b.maxCorner.x ∧ b.minCorner.y < b.maxCorner.y ∧ b.minCorner.z < b.maxCorner.z

/-- Each of the six faces of the box touches one of the points. -/
def Tight (b : Box3d K) (ps : List (Vec3 K)) : Prop :=
  (∃ p ∈ ps, p.x = b.minCorner.x) ∧ (∃ p ∈ ps, p.x = b.maxCorner.x) ∧
  (∃ p ∈ ps, p.y = b.minCorner.y) ∧ (∃ p ∈ ps, p.y = b.maxCorner.y) ∧
  (∃ p ∈ ps, p.z = b.minCorner.z) ∧ (∃ p ∈ ps, p.z = b.maxCorner.z)

/-- The triangles (vertex positions) an index buffer describes; `none` if an index is out of range or the length is not a
multiple of three. -/
def triangles {V : Type} (vs : List V) : List ℕ → Option (List (V × V × V))
  | [] => some []
  | i :: j :: k :: rest =>
    match vs[i]?, vs[j]?, vs[k]?, triangles vs rest with
    | some a, some b, some c, some ts => some ((a, b, c) :: ts)
    | _, _, _, _ => none
  | _ => none

/-- The oriented edges of a list of triangles. -/
def edges {V : Type} (ts : List (V × V × V)) : List (V × V) :=
  ts.flatMap fun t => [(t.1, t.2.1), (t.2.1, t.2.2), (t.2.2, t.1)]

/-- Closed: every oriented edge is run through as often in the other direction. -/
def Closed {V : Type} (ts : List (V × V × V)) : Prop := (edges ts).Perm ((edges ts).map Prod.swap)

/-- Six times the signed volume enclosed by a list of triangles (sum of `a · (b × c)`). -/
def volume6 (ts : List (Vec3 K × Vec3 K × Vec3 K)) : K :=
  (ts.map fun t => Vec3.dot t.1 (Vec3.cross t.2.1 t.2.2)).sum

end BoxSpec
end Sumo
