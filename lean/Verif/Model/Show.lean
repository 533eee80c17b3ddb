import Verif.Model.Geometry
import Verif.Model.InverseDepth
import Verif.Model.Symmetry

/-!
# What is drawn

The functions that draw objects with `matplotlib` and `pyny3d`, as the list of the drawings they ask for.  What these libraries make of
the requests (scaling, colour maps, the window) is not modelled.  Coordinates are exact numbers.
-/

namespace Sumo
namespace Show

/-- One subplot with a scatter plot: title, horizontal and vertical coordinates, keyword arguments (`V` is the type of their values). -/
structure Panel (K V : Type) where
  title : String
  xs : List K
  ys : List K
  options : List (String × V)

/-- `if key not in options: options[key] = value`. -/
def setDefault {V : Type} (key : String) (value : V) (options : List (String × V)) : List (String × V) :=
  if options.any (fun o => o.1 == key) then options else options ++ [(key, value)]

/-- `PointCloud.show` (`threedee/point_cloud.pyx:171-201`).  `dot` and `one` are the default values `'.'` and `1`.  With `colored=True`
the test `self.colors is not None` holds, since `colors` is a method, and `np.transpose(self.colors).astype(np.float)` asks for the
number that this method is, a `TypeError`. -/
def showCloud {K V : Type} (dot one : V) (points : List (Vec3 K)) (colored : Bool) (options : List (String × V)) :
    Except PyErr (List (Panel K V)) :=
  if colored then .error .typeError
  else
    let o := setDefault "s" one (setDefault "marker" dot options)
    .ok [⟨"XY", points.map (·.x), points.map (·.y), o⟩, ⟨"XZ", points.map (·.x), points.map (·.z), o⟩,
      ⟨"YZ", points.map (·.y), points.map (·.z), o⟩]

/-- The argument of `draw_poses`: something that can be iterated again and again, or an iterator, which is used up by the first loop. -/
inductive Poses (K : Type)
  | sequence (l : List (Pose3 K))
  | iterator (l : List (Pose3 K))

/-- What loop number `c` sees. -/
def Poses.pass {K : Type} : Poses K → ℕ → List (Pose3 K)
  | .sequence l, _ => l
  | .iterator l, 0 => l
  | .iterator _, _ => []

/-- One call of `ax.quiver`: the arrows (tail and direction), their length and their colour. -/
structure Quiver (K : Type) where
  arrows : List (Vec3 K × Vec3 K)
  length : K
  color : Char

/-- `R.matrix()[:, c]`. -/
def column {K : Type} (R : Rot3 K) : ℕ → Vec3 K
  | 0 => ⟨R.m00, R.m10, R.m20⟩
  | 1 => ⟨R.m01, R.m11, R.m21⟩
  | _ => ⟨R.m02, R.m12, R.m22⟩

/-- The loop of `Pose3.draw_poses` (`geometry/pose3.pyx:95-101`): what was drawn, and the exception.  `X, Y, Z, U, V, W = zip(*list)`
raises a `ValueError` if there are no poses. -/
def drawLoop {K : Type} (poses : Poses K) (length : K) : List (ℕ × Char) → List (Quiver K) → List (Quiver K) × Except PyErr Unit
  | [], drawn => (drawn, .ok ())
  | (c, color) :: rest, drawn =>
    let list := (poses.pass c).map fun gTc => (gTc.t, column gTc.R c)
    if list.isEmpty then (drawn, .error .valueError)
    else drawLoop poses length rest (drawn ++ [⟨list, length, color⟩])

/-- `Pose3.draw_poses` (`geometry/pose3.pyx:95-101`). -/
def drawPoses {K : Type} (poses : Poses K) (length : K) : List (Quiver K) × Except PyErr Unit :=
  drawLoop poses length [(0, 'r'), (1, 'g'), (2, 'b')] []

/-- A picture given to `plt.imshow`: colours, or numbers. -/
inductive Picture (C : Type)
  | colors (rows : List (List C))
  | numbers (rows : List (List ℕ))

/-- Entry `i` of an array along its first axis, for `i` not negative. -/
def entryAt {α : Type} (l : List α) (i : ℕ) : Except PyErr α :=
  match l[i]? with
  | some a => .ok a
  | none => .error .indexError

/-- `category if category_lut is None else category_lut[category]` (`images/rgbdci_360.pyx:113`). -/
def categoryPicture {C : Type} (lut : Option (List C)) (category : List (List ℕ)) : Except PyErr (Picture C) :=
  match lut with
  | none => .ok (.numbers category)
  | some l => do
    let rows ← category.mapM fun row => row.mapM (entryAt l)
    .ok (.colors rows)

variable {K : Type} [Field K] [LinearOrder K] [FloorRing K]

/-- `Rgbd360.show` (`images/rgbd_360.pyx:65-87`): titles and pictures. -/
def showRgbd {C : Type} (ρ : Rounding K) (rgb : List (List C)) (range : List (List (FVal K))) : List (String × Picture C) :=
  [("RGB", .colors rgb), ("Inverse range", .numbers (inverseDepthMapOfDepthImage ρ range (ρ.f32 defaultNear)))]

/-- `Rgbdci360.show` (`images/rgbdci_360.pyx:84-121`). -/
def showRgbdci {C : Type} (ρ : Rounding K) (rgb : List (List C)) (range : List (List (FVal K))) (category instances : List (List ℕ))
    (lut : Option (List C)) : Except PyErr (List (String × Picture C)) := do
  let c ← categoryPicture lut category
  .ok (showRgbd ρ rgb range ++ [("Category", c), ("Instance", .numbers instances)])

/-- `indices.reshape((-1, 3))` (`metrics/utils.py:627`): the rows. -/
def rowsOf3 : List ℕ → Except PyErr (List (ℕ × ℕ × ℕ))
  | [] => .ok []
  | a :: b :: c :: rest => do .ok ((a, b, c) :: (← rowsOf3 rest))
  | _ => .error .valueError

/-- The polygons of the surface that `visualize_mesh` shows (`metrics/utils.py:598-629`).  `pymesh.form_mesh` is taken to keep vertices
and faces as they are, `pyny.Polygon` and `pyny.Surface` to keep the points. -/
def surfaceOf {K : Type} (indices : List ℕ) (vertices : List (Vec3 K)) : Except PyErr (List (List (Vec3 K))) := do
  let faces ← rowsOf3 indices
  faces.mapM fun f => do
    let a ← entryAt vertices f.1
    let b ← entryAt vertices f.2.1
    let c ← entryAt vertices f.2.2
    .ok [a, b, c]

/-- `ObjectSymmetry.__str__` (`semantic/object_symmetry.py:78-86`). -/
def symmetryStr (s : ObjectSymmetry) : String :=
  "x_symmetry: " ++ s.x.toText ++ ", y_symmetry: " ++ s.y.toText ++ ", z_symmetry: " ++ s.z.toText

end Show
end Sumo
