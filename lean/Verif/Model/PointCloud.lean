import Verif.Model.Py
import Verif.Model.Geometry

/-!
# Point clouds

Model of `sumo-api/sumo/threedee/PointCloud.h` and `sumo-api/sumo/threedee/point_cloud.pyx`.  A `3*n` array is the list of
its columns.
-/

namespace Sumo

/-- `PointCloud::Color` (`threedee/PointCloud.h:17-27`): three bytes. -/
structure Color where
  r : ℕ
  g : ℕ
  b : ℕ
  deriving DecidableEq, Repr

/-- The members of a `PointCloud` (`threedee/PointCloud.h:30-31`). -/
structure PointCloud (K : Type) where
  points : List (Vec3 K)
  colors : List Color
  deriving DecidableEq

namespace PointCloud

variable {K : Type}

/-- `PointCloud.__init__` (`threedee/point_cloud.pyx:52-66`) with the C++ constructor (`threedee/PointCloud.h:38-45`):
colours need points (`None` has no attribute `shape`) and must be as many. -/
def create (points : Option (List (Vec3 K))) (colors : Option (List Color)) : Except PyErr (PointCloud K) :=
  match colors, points with
  | none, none => .ok ⟨[], []⟩
  | none, some ps => .ok ⟨ps, []⟩
  | some _, none => .error .attributeError
  | some cs, some ps => if ps.length = cs.length then .ok ⟨ps, cs⟩ else .error .assertionError

/-- `colored` (`threedee/PointCloud.h:93-95`, `threedee/point_cloud.pyx:139-140`). -/
def colored (c : PointCloud K) : Bool := !c.colors.isEmpty

/-- `append` (`threedee/PointCloud.h:66-71`, `threedee/point_cloud.pyx:120-122`) of another cloud.  (Appending a cloud to
itself inserts a vector's own range, which C++ leaves undefined; not modelled.) -/
def append (c other : PointCloud K) : PointCloud K := ⟨c.points ++ other.points, c.colors ++ other.colors⟩

/-- `merge` (`threedee/point_cloud.pyx:78-86`). -/
def merge (first second : PointCloud K) : Except PyErr (PointCloud K) :=
  if first.colored && !second.colored then .error .valueError
  else .ok ((append ⟨[], []⟩ first).append second)

/-- An operand of `+`: a point cloud or the number 0 that `sum` starts with (`threedee/point_cloud.pyx:107-118`). -/
inductive Addend (K : Type)
  | int
  | cloud (c : PointCloud K)

/-- `__add__` and `__radd__` (`threedee/point_cloud.pyx:107-118`). -/
def add : Addend K → Addend K → Except PyErr (Addend K)
  | a, .int => .ok a
  | .int, b => .ok b
  | .cloud a, .cloud b => do
    let c ← merge a b
    pure (.cloud c)

/-- Python's `sum(clouds)`: `0 + c₁ + c₂ + …`. -/
def sum (clouds : List (PointCloud K)) : Except PyErr (Addend K) :=
  clouds.foldlM (fun acc c => add acc (.cloud c)) .int

/-- `point(i)`/`color(i)` as one: the point and its colour.  `colors_[i]` beyond the end is undefined behaviour (`none`)
(`threedee/PointCloud.h:77-87`). -/
def colorAt (c : PointCloud K) (i : ℕ) : Option Color := c.colors[i]?

/-- Selecting columns of an array by a list of indices (`threedee/point_cloud.pyx:145-146`). -/
def select {α : Type} (l : List α) (idx : List ℕ) : Except PyErr (List α) :=
  idx.mapM fun i => match l[i]? with
    | some p => .ok p
    | none => .error .indexError

/-- `thin` (`threedee/point_cloud.pyx:142-147`); `idx` is what `np.random.randint(num_points, size=...)` returned. -/
def thin (c : PointCloud K) (idx : List ℕ) : Except PyErr (PointCloud K) := do
  let points ← select c.points idx
  if c.colored then do
    let colors ← select c.colors idx
    create (some points) (some colors)
  else create (some points) none

variable [CommRing K]

/-- `transform_from` (`threedee/point_cloud.pyx:149-158`). -/
def transformFrom (c : PointCloud K) (aTb : Pose3 K) : Except PyErr (PointCloud K) :=
  if c.colored then create (some (aTb.transformAllFrom c.points)) (some c.colors)
  else create (some (aTb.transformAllFrom c.points)) none

/-- `transform_to` (`threedee/point_cloud.pyx:160-169`). -/
def transformTo (c : PointCloud K) (aTb : Pose3 K) : Except PyErr (PointCloud K) :=
  if c.colored then create (some (aTb.transformAllTo c.points)) (some c.colors)
  else create (some (aTb.transformAllTo c.points)) none

/-- The constructor from several clouds (`threedee/PointCloud.h:48-63`).  Its assertion (54) aborts the process: modelled
as `assertionError`. -/
def ofClouds (clouds : List (PointCloud K)) : Except PyErr (PointCloud K) :=
  let numPoints : ℕ := (clouds.map fun c => c.points.length).sum
  let numColors : ℕ := (clouds.map fun c => c.colors.length).sum
  if numColors = 0 ∨ numColors = numPoints then
    .ok ⟨clouds.flatMap (·.points), clouds.flatMap (·.colors)⟩
  else .error .assertionError

/-- `register` (`threedee/point_cloud.pyx:88-105`). -/
def register (items : List (Pose3 K × PointCloud K)) : Except PyErr (PointCloud K) := do
  let clouds ← items.mapM fun i => i.2.transformFrom i.1
  ofClouds clouds

end PointCloud

end Sumo
