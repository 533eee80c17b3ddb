import Verif.Model.Py
import Verif.Model.Box
import Mathlib.Algebra.Order.Floor.Ring

/-!
# Voxel grids

Model of `sumo-api/sumo/threedee/voxel_grid.py` and `sumo-api/sumo/threedee/voxelizer.pyx`.  Coordinates are exact
(elements of an ordered field with a floor function); voxel indices are integers with the code's `int32` conversions.
The one-dimensional indices are exact integers (the code has `int64`/`float64` there, exact below `2^53`).
-/

namespace Sumo

/-- `numpy`'s `.astype('int32')` of an integral float (`threedee/voxel_grid.py:123`): values that do not fit become the
smallest `int32` (x86-64). -/
def toInt32 (n : ℤ) : ℤ := if -2 ^ 31 ≤ n ∧ n < 2 ^ 31 then n else -2 ^ 31

/-- The result of `int32` arithmetic, which wraps around (`np.amax(...) + 1` at `threedee/voxel_grid.py:128`,
`size_x * size_y` at 226). -/
def wrap32 (n : ℤ) : ℤ := (n + 2 ^ 31) % 2 ^ 32 - 2 ^ 31

/-- The private state of a `VoxelGrid` (`threedee/voxel_grid.py:62-65`). -/
structure VoxelGrid (K : Type) where
  scale : K
  minCorner : Vec3 K
  voxels : List (Vec3 ℤ)
  sizeX : ℤ
  sizeY : ℤ
  deriving DecidableEq

/-- `_linearize_voxels` (`threedee/voxel_grid.py:211-227`), one row. -/
def linearizeVoxel (sizeX sizeY : ℤ) (v : Vec3 ℤ) : ℤ :=
  v.x * 1 + v.y * sizeX + v.z * wrap32 (sizeX * sizeY)

/-- `_vectorize_voxels` (`threedee/voxel_grid.py:230-246`), one entry.  `np.divmod` is floor division. -/
def vectorizeVoxel (sizeX sizeY : ℤ) (i : ℤ) : Vec3 ℤ :=
  let temp := i.fdiv sizeX
  let x := i.fmod sizeX
  let z := temp.fdiv sizeY
  let y := temp.fmod sizeY
  ⟨x, y, z⟩

/-- `np.union1d`: the sorted distinct elements of both arrays. -/
def union1d (a b : List ℤ) : List ℤ := (a ++ b).dedup.insertionSort (· ≤ ·)

namespace VoxelGrid

variable {K : Type} [Field K] [LinearOrder K] [FloorRing K]

/-- The voxel of a point (`threedee/voxel_grid.py:123`). -/
def indexOf (g : VoxelGrid K) (p : Vec3 K) : Vec3 ℤ :=
  ⟨toInt32 ⌊(p.x - g.minCorner.x) * g.scale⌋, toInt32 ⌊(p.y - g.minCorner.y) * g.scale⌋,
   toInt32 ⌊(p.z - g.minCorner.z) * g.scale⌋⟩

/-- `VoxelGrid.add_points` after the conversion to voxel indices (`threedee/voxel_grid.py:124-136`): the grid after the call,
and the exception if one was raised.  `np.amin(new_voxels_3d) < 0` is "some entry is negative" (124); `np.amin` of an empty
array raises `ValueError`. -/
def addVoxels (g : VoxelGrid K) (newVoxels : List (Vec3 ℤ)) : VoxelGrid K × Option PyErr :=
  match newVoxels with
  | [] => (g, some .valueError)
  | v :: vs =>
    if (v :: vs).any (fun w => decide (w.x < 0) || decide (w.y < 0) || decide (w.z < 0)) then
      (g, some .valueError)
    else
      let newSizeX := wrap32 ((vs.map Vec3.x).foldl max v.x + 1)
      let newSizeY := wrap32 ((vs.map Vec3.y).foldl max v.y + 1)
      let size := if newSizeX > g.sizeX ∨ newSizeY > g.sizeY then (newSizeX, newSizeY) else (g.sizeX, g.sizeY)
      let old1d := g.voxels.map (linearizeVoxel size.1 size.2)
      let new1d := (v :: vs).map (linearizeVoxel size.1 size.2)
      let merged := union1d old1d new1d
      (⟨g.scale, g.minCorner, merged.map (vectorizeVoxel size.1 size.2), size.1, size.2⟩, none)

/-- `VoxelGrid.add_points` (`threedee/voxel_grid.py:104-136`). -/
def addPoints (g : VoxelGrid K) (points : List (Vec3 K)) : VoxelGrid K × Option PyErr :=
  g.addVoxels (points.map g.indexOf)

/-- `VoxelGrid.__init__` (`threedee/voxel_grid.py:44-68`); `minCorner` is the argument after its default is filled in. -/
def init (voxelSize : K) (minCorner : Vec3 K) (points : Option (List (Vec3 K))) : Except PyErr (VoxelGrid K) :=
  if voxelSize ≤ 0 then .error .valueError
  else
    let g : VoxelGrid K := ⟨1 / voxelSize, minCorner, [], 0, 0⟩
    match points with
    | none => .ok g
    | some ps =>
      match g.addPoints ps with
      | (g', none) => .ok g'
      | (_, some e) => .error e

/-- `VoxelGrid.voxel_size` (`threedee/voxel_grid.py:96-102`). -/
def voxelSize (g : VoxelGrid K) : K := 1 / g.scale

/-- `VoxelGrid.voxel_centers` (`threedee/voxel_grid.py:138-149`). -/
def voxelCenters (g : VoxelGrid K) : List (Vec3 K) :=
  let s := g.voxelSize
  g.voxels.map fun v => ⟨v.x * s + (g.minCorner.x + 0.5 * s), v.y * s + (g.minCorner.y + 0.5 * s),
    v.z * s + (g.minCorner.z + 0.5 * s)⟩

/-- `VoxelGrid.bounds` (`threedee/voxel_grid.py:151-162`); `np.amin` of an empty array raises `ValueError`. -/
def bounds (g : VoxelGrid K) : Except PyErr (Box3d K) :=
  match g.voxelCenters with
  | [] => .error .valueError
  | c :: cs =>
    let lo := Box3d.amin c cs
    let hi := Box3d.amax c cs
    let h := 0.5 * g.voxelSize
    .ok (Box3d.mk' ⟨lo.x - h, lo.y - h, lo.z - h⟩ ⟨hi.x + h, hi.y + h, hi.z + h⟩)

/-- The contents of the HDF5 file (`threedee/voxel_grid.py:179-183`). -/
structure H5 (K : Type) where
  voxels3d : List (Vec3 ℤ)
  scale : K
  minCorner : Vec3 K
  sizeX : ℤ
  sizeY : ℤ

/-- `VoxelGrid.save` (`threedee/voxel_grid.py:164-184`), given whether `h5py.File(filename, "w")` succeeds.  When it fails the
`IOError` is built but not raised (178), and line 179 uses the unbound `f`. -/
def save (canOpen : Bool) (fs : Dict String (H5 K)) (filename : String) (g : VoxelGrid K) :
    Except PyErr (Dict String (H5 K)) :=
  if canOpen then
    .ok (fs.set filename ⟨g.voxels.map fun v => ⟨toInt32 v.x, toInt32 v.y, toInt32 v.z⟩, g.scale, g.minCorner,
      g.sizeX, g.sizeY⟩)
  else .error .unboundLocalError

/-- `VoxelGrid.load` (`threedee/voxel_grid.py:186-205`) and `from_file` (70-86), which calls it on a default grid: all fields
are replaced.  As in `save`, the `IOError` is not raised (199). -/
def load (fs : Dict String (H5 K)) (filename : String) : Except PyErr (VoxelGrid K) :=
  match fs.get? filename with
  | none => .error .unboundLocalError
  | some f => .ok ⟨f.scale, f.minCorner, f.voxels3d, f.sizeX, f.sizeY⟩

end VoxelGrid

/-- `Voxelizer.run` (`threedee/voxelizer.pyx:37-48`), after the points have been sampled. -/
def voxelizerRun {K : Type} [Field K] [LinearOrder K] [FloorRing K] (voxelSize : K)
    (points : List (Vec3 K)) : Except PyErr (VoxelGrid K) :=
  VoxelGrid.init voxelSize (bboxOfPoints points).minCorner (some points)

end Sumo
