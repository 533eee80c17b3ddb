import Verif.Model.Symmetry
import Verif.Model.Geometry
import Verif.Model.Box
import Verif.Model.Rotation
import Mathlib.Data.Int.Log
import Mathlib.Data.Rat.Floor

/-!
# Serialisation of rotations, poses and boxes

Model of the `from_xml`/`to_xml`, `from_json`/`to_json` and `from_surreal`/`to_surreal` functions of
`sumo-api/sumo/geometry/rot3.pyx`, `sumo-api/sumo/geometry/pose3.pyx` and
`sumo-api/sumo/threedee/box_3d.pyx`, and of the `numpy` text conversion they use.  Numbers in XML are
rational; `numpy`'s shortest-digits step (which only chooses among decimals that denote the same float) and
non-finite values are left out.
-/

namespace Sumo

/-! ### `np.array2string` and `np.fromstring` -/

/-- Nearest integer, ties to even (the rounding of `numpy`'s Dragon4 printer). -/
def roundHalfEven (x : ℚ) : ℤ :=
  let f := ⌊x⌋
  if x - f < 1 / 2 then f
  else if 1 / 2 < x - f then f + 1
  else if f % 2 = 0 then f else f + 1

/-- `x` rounded to `n` decimals. -/
def roundDecimals (n : ℤ) (x : ℚ) : ℚ := roundHalfEven (x * 10 ^ n) / 10 ^ n

/-- `x` rounded to `n` digits after the first significant one. -/
def roundScientific (n : ℤ) (x : ℚ) : ℚ := roundDecimals (n - Int.log 10 |x|) x

/-- Whether `np.array2string` chooses exponential notation (`numpy` ≥ 1.14, `FloatingFormat.fillFormat`): the
largest magnitude is at least 1e8, or the smallest non-zero one below 1e-4, or their ratio above 1000. -/
def expNotation (v : Vec3 ℚ) : Bool :=
  match ([v.x, v.y, v.z].filter (fun x => x ≠ 0)).map (fun x => |x|) with
  | [] => false
  | a :: l =>
    let hi := l.foldl max a
    let lo := l.foldl min a
    decide (10 ^ 8 ≤ hi) || decide (lo < 1 / 10 ^ 4) || decide (1000 < hi / lo)

/-- The numbers `np.array2string` prints for a 3-vector (default `precision=8`). -/
def printedVec (v : Vec3 ℚ) : Vec3 ℚ :=
  let r := if expNotation v then roundScientific 8 else roundDecimals 8
  ⟨r v.x, r v.y, r v.z⟩

/-- `re.sub('[\[\]]', '', text)` (`geometry/pose3.pyx:214`). -/
def stripBrackets (text : String) : String := String.ofList (text.toList.filter (fun c => c ≠ '[' ∧ c ≠ ']'))

/-- Text that an XML file gives back unchanged: not empty (an empty element has text `None`) and without
carriage returns (the XML parser turns them into newlines). -/
def XmlText (s : String) : Prop := s ≠ "" ∧ '\r' ∉ s.toList

/-- The text conversions of `numpy` and Python the code relies on (library behaviour, not code of `/repo`):
`np.array2string(v, separator=sep)`, `np.fromstring(text, sep=sep)`, `str` and `float` of a number, with what is assumed
about them.  `NumText.exists` (in `Props/Xml`) shows that the assumptions are consistent. -/
structure NumText where
  /-- `np.array2string(v, separator=sep)` -/
  array2string : (sep : String) → Vec3 ℚ → String
  /-- `np.fromstring(text, sep=sep)` -/
  fromstring : (sep : String) → String → List ℚ
  /-- `str(x)` for a `float` -/
  strFloat : ℚ → String
  /-- `float(text)` -/
  parseFloat : String → Except PyErr ℚ
  /-- Printing with `', '` and reading with `','` gives the printed numbers. -/
  fromstring_array2string : ∀ v, fromstring "," (stripBrackets (array2string ", " v)) =
    [(printedVec v).x, (printedVec v).y, (printedVec v).z]
  /-- `float(str(x)) == x` -/
  parseFloat_strFloat : ∀ x, parseFloat (strFloat x) = .ok x
  /-- Printed numbers are not empty and have no carriage return. -/
  array2string_text : ∀ v, XmlText (stripBrackets (array2string ", " v))
  /-- The same for `str`. -/
  strFloat_text : ∀ x, XmlText (strFloat x)

section
variable (T : NumText)

/-- The text written for a vector: `re.sub('[\[\]]', '', np.array2string(v, separator=', '))`
(`geometry/pose3.pyx:214`, `geometry/rot3.pyx:195`, `threedee/box_3d.pyx:215,218`). -/
def vecText (v : Vec3 ℚ) : String := stripBrackets (T.array2string ", " v)

/-- `np.fromstring(elem.text, sep=',')`; a text of `None` is a `TypeError`. -/
def readNumbers (e : Xml) : Except PyErr (List ℚ) :=
  match e.text with
  | none => .error .typeError
  | some s => .ok (T.fromstring "," s)

/-! ### `Rot3` -/

/-- `R[:, c] = numbers` (`geometry/rot3.pyx:175`): three numbers fill the column, a single one is broadcast,
anything else is a `ValueError`. -/
def columnOf : List ℚ → Except PyErr (Vec3 ℚ)
  | [a, b, c] => .ok ⟨a, b, c⟩
  | [a] => .ok ⟨a, a, a⟩
  | _ => .error .valueError

/-- The columns read so far: `R` and `found` of `geometry/rot3.pyx:171-172`, a column being absent from `found` when it is
`none`. -/
structure RotColumns where
  c1 : Option (Vec3 ℚ)
  c2 : Option (Vec3 ℚ)
  c3 : Option (Vec3 ℚ)

/-- One turn of the loop of `Rot3.from_xml` (`geometry/rot3.pyx:173-178`): every exception is turned into a
`ValueError`. -/
def RotColumns.step (st : RotColumns) (e : Xml) : Except PyErr RotColumns :=
  match (do columnOf (← readNumbers T e)) with
  | .error _ => .error .valueError
  | .ok v =>
    if e.tag = "c1" then .ok { st with c1 := some v }
    else if e.tag = "c2" then .ok { st with c2 := some v }
    else if e.tag = "c3" then .ok { st with c3 := some v }
    else .error .valueError

/-- `Rot3.from_xml` (`geometry/rot3.pyx:149-181`). -/
def Rot3.fromXml (e : Xml) : Except PyErr (Rot3 ℚ) :=
  if e.tag ≠ "rotation" then .error .valueError
  else do
    let st ← e.children.foldlM (RotColumns.step T) ⟨none, none, none⟩
    match st.c1, st.c2, st.c3 with
    | some x, some y, some z => .ok (Mat3.ofColumns x y z)
    | _, _, _ => .error .valueError

/-- `Rot3.to_xml` (`geometry/rot3.pyx:183-197`). -/
def Rot3.toXml (R : Rot3 ℚ) : Xml :=
  .node "rotation" [] none
    [.leaf "c1" (vecText T R.col0), .leaf "c2" (vecText T R.col1), .leaf "c3" (vecText T R.col2)]

/-! ### `Pose3` -/

/-- One turn of the loop of `Pose3.from_xml` (`geometry/pose3.pyx:184-193`); the state is
`(translation, rotation)`. -/
def Pose3.xmlStep (st : Option (Vec3 ℚ) × Option (Rot3 ℚ)) (e : Xml) :
    Except PyErr (Option (Vec3 ℚ) × Option (Rot3 ℚ)) :=
  if e.tag = "translation" then do
    match ← readNumbers T e with
    | [a, b, c] => .ok (some ⟨a, b, c⟩, st.2)
    | _ => .error .runtimeError
  else if e.tag = "rotation" then do
    let R ← Rot3.fromXml T e
    .ok (st.1, some R)
  else .error .runtimeError

/-- `Pose3.from_xml` (`geometry/pose3.pyx:163-199`). -/
def Pose3.fromXml (e : Xml) : Except PyErr (Pose3 ℚ) :=
  if e.tag ≠ "pose" then .error .runtimeError
  else do
    let st ← e.children.foldlM (Pose3.xmlStep T) (none, none)
    match st.1, st.2 with
    | some t, some R => .ok ⟨R, t⟩
    | _, _ => .error .runtimeError

/-- `Pose3.to_xml` (`geometry/pose3.pyx:202-219`). -/
def Pose3.toXml (p : Pose3 ℚ) : Xml :=
  .node "pose" [] none [.leaf "translation" (vecText T p.t), Rot3.toXml T p.R]

/-! ### `Box3d` -/

/-- One turn of the loop of `Box3d.from_xml` (`threedee/box_3d.pyx:184-194`); the state is
`(corner1, corner2)`. -/
def Box3d.xmlStep (st : Option (Vec3 ℚ) × Option (Vec3 ℚ)) (e : Xml) :
    Except PyErr (Option (Vec3 ℚ) × Option (Vec3 ℚ)) :=
  if e.tag = "corner1" then do
    match ← readNumbers T e with
    | [a, b, c] => .ok (some ⟨a, b, c⟩, st.2)
    | _ => .error .runtimeError
  else if e.tag = "corner2" then do
    match ← readNumbers T e with
    | [a, b, c] => .ok (st.1, some ⟨a, b, c⟩)
    | _ => .error .runtimeError
  else .error .runtimeError

/-- `Box3d.from_xml` (`threedee/box_3d.pyx:162-201`). -/
def Box3d.fromXml (e : Xml) : Except PyErr (Box3d ℚ) :=
  if e.tag ≠ "box3d" then .error .runtimeError
  else do
    let st ← e.children.foldlM (Box3d.xmlStep T) (none, none)
    match st.1, st.2 with
    | some a, some b => .ok (Box3d.mk' a b)
    | _, _ => .error .runtimeError

/-- `Box3d.to_xml` (`threedee/box_3d.pyx:204-220`). -/
def Box3d.toXml (b : Box3d ℚ) : Xml :=
  .node "box3d" [] none [.leaf "corner1" (vecText T b.minCorner), .leaf "corner2" (vecText T b.maxCorner)]
end

/-! ### JSON -/

/-- JSON-style values: numbers, lists and dictionaries. -/
inductive Json (K : Type)
  | num (x : K)
  | arr (l : List (Json K))
  | obj (d : List (String × Json K))

namespace Json
variable {K : Type}

/-- `value[key]` with a string key: `KeyError` if absent, `TypeError` if `value` is not a dictionary. -/
def getItem : Json K → String → Except PyErr (Json K)
  | .obj d, k => Dict.get d k
  | _, _ => .error .typeError

/-- A number. -/
def num? : Json K → Option K
  | .num x => some x
  | _ => none

/-- A list of numbers (`np.array` of it is one-dimensional). -/
def nums? : Json K → Option (List K)
  | .arr l => l.mapM num?
  | _ => none

/-- `list(v)` of a 3-vector. -/
def ofVec (v : Vec3 K) : Json K := .arr [.num v.x, .num v.y, .num v.z]
end Json

section
variable {K : Type}

/-- `Rot3.to_json` (`geometry/rot3.pyx:217-223`). -/
def Rot3.toJson (R : Rot3 K) : Json K :=
  .obj [("X", .ofVec ⟨R.m00, R.m10, R.m20⟩), ("Y", .ofVec ⟨R.m01, R.m11, R.m21⟩),
    ("Z", .ofVec ⟨R.m02, R.m12, R.m22⟩)]

/-- `Rot3.from_json` (`geometry/rot3.pyx:199-215`): `FromColumns` (74-76) stacks whatever the three columns are,
provided they have the same length; the result is the list of the columns of the stored array.  Columns that are not
lists of numbers are a `ValueError` here (`np.stack` would accept nested lists of equal shapes). -/
def Rot3.fromJson (j : Json K) : Except PyErr (List (List K)) := do
  let x ← j.getItem "X"
  let y ← j.getItem "Y"
  let z ← j.getItem "Z"
  match x.nums?, y.nums?, z.nums? with
  | some x, some y, some z => if x.length = y.length ∧ x.length = z.length then .ok [x, y, z] else .error .valueError
  | _, _, _ => .error .valueError

/-- `Pose3.to_json` (`geometry/pose3.pyx:237-242`). -/
def Pose3.toJson (p : Pose3 K) : Json K :=
  .obj [("Rotation", Rot3.toJson p.R), ("Translation", .ofVec p.t)]

/-- `Pose3.from_json` (`geometry/pose3.pyx:221-235`): the columns of the stored rotation array and the translation.
`Vector3(*l)` is a `TypeError` unless `l` is three numbers. -/
def Pose3.fromJson (j : Json K) : Except PyErr (List (List K) × Vec3 K) := do
  let R ← Rot3.fromJson (← j.getItem "Rotation")
  match (← j.getItem "Translation").nums? with
  | some [a, b, c] => .ok (R, ⟨a, b, c⟩)
  | _ => .error .typeError

/-- The pose a result of `Pose3.fromJson` stands for, when its rotation array is 3×3. -/
def Pose3.ofColumns? : List (List K) × Vec3 K → Option (Pose3 K)
  | ([[a, b, c], [d, e, f], [g, h, i]], t) => some ⟨⟨a, d, g, b, e, h, c, f, i⟩, t⟩
  | _ => none
end

/-! ### The "surreal" format -/

/-- `np.roll(l, 1)` -/
def npRollRight {α : Type} (l : List α) : List α := l.rotate (l.length - 1)
/-- `np.roll(l, -1)` -/
def npRollLeft {α : Type} (l : List α) : List α := l.rotate 1

/-- `Quaternion(val)` for a one-dimensional array of `float64` or `int64` (`geometry/quaternion.pyx:32-39`): with three numbers
`val.shape[1]`, an unchecked C access, is the stride 8 that numpy keeps behind the dimensions, and the first assertion fails. -/
def quatOfList : List ℝ → Except PyErr (Quat ℝ)
  | [w, x, y, z] => .ok ⟨w, x, y, z⟩
  | _ => .error .assertionError

/-- `Pose3.from_surreal` (`geometry/pose3.pyx:136-151`): the rotation matrix, and the translation array, whose
length is not checked.  Entries that are not lists of numbers are a `ValueError` here. -/
noncomputable def Pose3.fromSurreal (j : Json ℝ) : Except PyErr (Mat3 ℝ × List ℝ) := do
  let q ← j.getItem "QuaternionXYZW"
  let t ← j.getItem "Translation"
  match q.nums?, t.nums? with
  | some q, some t =>
    let q ← quatOfList (npRollRight q)
    .ok (eigenMatrixOfQuat q, t)
  | _, _ => .error .valueError

/-- `Pose3.to_surreal` (`geometry/pose3.pyx:153-161`). -/
noncomputable def Pose3.toSurreal (p : Pose3 ℝ) : Json ℝ :=
  let q := eigenQuatOfMatrix p.R
  .obj [("QuaternionXYZW", .arr ((npRollLeft [q.w, q.x, q.y, q.z]).map .num)), ("Translation", .ofVec p.t)]

end Sumo
