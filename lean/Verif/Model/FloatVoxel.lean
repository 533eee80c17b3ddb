import Verif.Model.Double
import Verif.Model.Voxel

/-!
# Voxel grids in machine precision

`sumo-api/sumo/threedee/voxel_grid.py` and `sumo-api/sumo/threedee/voxelizer.pyx` with every operation rounded.  The points
added are `float64`; the minimum corner is a numpy vector of `float32` (the default, and the documented `Vector3f`) or of
`float64` (what `Voxelizer` passes).  Voxel indices are as in `Verif.Model.Voxel`.
-/

namespace Sumo

/-- An exact result as a `float32`: 24 significant bits, ties to even.  The range of the exponent is not modelled. -/
def single (x : ℚ) : ℚ :=
  if x = 0 then 0 else roundEven (x / 2 ^ (Int.log 2 |x| - 23)) * 2 ^ (Int.log 2 |x| - 23)

namespace Fl

/-- A `VoxelGrid` and whether `_min_corner` is a vector of `float32` (`threedee/voxel_grid.py:62-65`). -/
structure Grid where
  grid : VoxelGrid ℚ
  single : Bool
  deriving DecidableEq

/-- One coordinate of the voxel of a point (`threedee/voxel_grid.py:123`). -/
def axisIndex (scale corner p : ℚ) : ℤ := toInt32 ⌊double (double (p - corner) * scale)⌋

/-- The voxel of a point (`threedee/voxel_grid.py:123`). -/
def indexOf (g : VoxelGrid ℚ) (p : Vec3 ℚ) : Vec3 ℤ :=
  ⟨axisIndex g.scale g.minCorner.x p.x, axisIndex g.scale g.minCorner.y p.y, axisIndex g.scale g.minCorner.z p.z⟩

/-- `VoxelGrid.add_points` (`threedee/voxel_grid.py:104-136`). -/
def addPoints (g : Grid) (points : List (Vec3 ℚ)) : Grid × Option PyErr :=
  let r := g.grid.addVoxels (points.map (indexOf g.grid))
  (⟨r.1, g.single⟩, r.2)

/-- `VoxelGrid.__init__` (`threedee/voxel_grid.py:44-68`); `minCorner` is the argument after its default `Vector3f(0, 0, 0)` is
filled in, `single` whether it is a vector of `float32`. -/
def init (voxelSize : ℚ) (minCorner : Vec3 ℚ) (single : Bool) (points : Option (List (Vec3 ℚ))) : Except PyErr Grid :=
  if voxelSize ≤ 0 then .error .valueError
  else
    let g : Grid := ⟨⟨double (1 / voxelSize), minCorner, [], 0, 0⟩, single⟩
    match points with
    | none => .ok g
    | some ps =>
      match addPoints g ps with
      | (g', none) => .ok g'
      | (_, some e) => .error e

/-- `VoxelGrid.voxel_size` (`threedee/voxel_grid.py:96-102`). -/
def voxelSize (g : Grid) : ℚ := double (1 / g.grid.scale)

/-- One coordinate of `min_corner_with_offset` (`threedee/voxel_grid.py:148`): numpy adds a Python `float` to a vector of
`float32` in `float32`. -/
def cornerOffset (isSingle : Bool) (corner s : ℚ) : ℚ :=
  if isSingle then single (corner + single (double (0.5 * s))) else double (corner + double (0.5 * s))

/-- One coordinate of the centre of a voxel (`threedee/voxel_grid.py:149`).  The index is exact as a `float64`. -/
def axisCenter (isSingle : Bool) (corner s : ℚ) (i : ℤ) : ℚ := double (double (i * s) + cornerOffset isSingle corner s)

/-- `VoxelGrid.voxel_centers` (`threedee/voxel_grid.py:138-149`). -/
def voxelCenters (g : Grid) : List (Vec3 ℚ) :=
  let s := voxelSize g
  let m := g.grid.minCorner
  g.grid.voxels.map fun v => ⟨axisCenter g.single m.x s v.x, axisCenter g.single m.y s v.y, axisCenter g.single m.z s v.z⟩

/-- `VoxelGrid.bounds` (`threedee/voxel_grid.py:151-162`); `np.amin` of an empty array raises `ValueError`. -/
def bounds (g : Grid) : Except PyErr (Box3d ℚ) :=
  match voxelCenters g with
  | [] => .error .valueError
  | c :: cs =>
    let lo := Box3d.amin c cs
    let hi := Box3d.amax c cs
    let h := double (0.5 * voxelSize g)
    .ok (Box3d.mk' ⟨double (lo.x - h), double (lo.y - h), double (lo.z - h)⟩
      ⟨double (hi.x + h), double (hi.y + h), double (hi.z + h)⟩)

/-- `Voxelizer.run` (`threedee/voxelizer.pyx:37-48`), after the points have been sampled: the corner is the smallest coordinate
of the points on each axis, as `float64`. -/
def voxelizerRun (voxelSize : ℚ) (points : List (Vec3 ℚ)) : Except PyErr Grid :=
  init voxelSize (bboxOfPoints points).minCorner false (some points)

end Fl
end Sumo
