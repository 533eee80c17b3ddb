import Verif.Model.CubeMap

/-!
# What a cube map is

Six pinhole cameras with a 90° field of view, looking along the axes of a cube (camera frame: x right, y down, z forward),
laid out side by side.  Stated with a normal and two in-plane axes per face, independently of `CubeMap.h`.
-/

namespace Sumo

variable {K : Type} [Field K] [LinearOrder K]

/-- A face of the cube: the direction it looks along and the directions of increasing column and row. -/
structure CubeFace (K : Type) where
  normal : Vec3 K
  right : Vec3 K
  down : Vec3 K

/-- The faces in image order: back, left, front, right, up, down. -/
def cubeFaces : List (CubeFace K) :=
  [⟨⟨0, 0, -1⟩, ⟨-1, 0, 0⟩, ⟨0, 1, 0⟩⟩,
   ⟨⟨-1, 0, 0⟩, ⟨0, 0, 1⟩, ⟨0, 1, 0⟩⟩,
   ⟨⟨0, 0, 1⟩, ⟨1, 0, 0⟩, ⟨0, 1, 0⟩⟩,
   ⟨⟨1, 0, 0⟩, ⟨0, 0, -1⟩, ⟨0, 1, 0⟩⟩,
   ⟨⟨0, -1, 0⟩, ⟨1, 0, 0⟩, ⟨0, 0, 1⟩⟩,
   ⟨⟨0, 1, 0⟩, ⟨1, 0, 0⟩, ⟨0, 0, -1⟩⟩]

/-- The point of a face with in-plane coordinates `s`, `t` (in `[-1, 1]`). -/
def CubeFace.at (f : CubeFace K) (s t : K) : Vec3 K := f.normal + Vec3.smul s f.right + Vec3.smul t f.down

/-- The maximum norm is one: the surface of the cube `[-1, 1]³`. -/
def OnUnitCube (p : Vec3 K) : Prop :=
  (|p.x| ≤ 1 ∧ |p.y| ≤ 1 ∧ |p.z| ≤ 1) ∧ (|p.x| = 1 ∨ |p.y| = 1 ∨ |p.z| = 1)

/-- Largest coordinate distance between two points is at most `e`. -/
def CubeClose (e : K) (p q : Vec3 K) : Prop := |p.x - q.x| ≤ e ∧ |p.y - q.y| ≤ e ∧ |p.z - q.z| ≤ e

end Sumo
