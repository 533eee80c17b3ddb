import Verif.Model.Double
import Verif.Model.PointCloud
import Verif.Model.Xml

/-!
# Point clouds as text

`PointCloud.save` (`sumo-api/sumo/threedee/point_cloud.pyx`, lines 211-217).  A text file is its lines, and a line the numbers in it:
how a decimal is spelled and that one space is between two of them is not modelled.
-/

namespace Sumo

/-- The number that `'%.18e' % x` spells: nineteen significant digits, the nearest such decimal (Python rounds correctly). -/
def printed18 (x : ℚ) : ℚ := roundScientific 18 x

/-- `np.matlib.repmat(color, n, 1)` for a list of numbers: `n` equal rows. -/
def repmat (color : List ℚ) (n : ℕ) : List (List ℚ) := List.replicate n color

/-- `np.hstack` of two arrays with the same number of rows. -/
def hstack (a b : List (List ℚ)) : List (List ℚ) := List.zipWith (· ++ ·) a b

/-- `np.savetxt(path, a)`: one line for each row, with the default format `'%.18e'`. -/
def savetxt (a : List (List ℚ)) : List (List ℚ) := a.map (List.map printed18)

/-- `np.loadtxt` and everything else that reads a decimal as a double (library code, not used by `/repo`). -/
def readText (lines : List (List ℚ)) : List (List ℚ) := lines.map (List.map double)

/-- `PointCloud.save` (`threedee/point_cloud.pyx:211-217`): the lines of the file.  Neither the colours of the cloud nor the argument
`keep` are used. -/
def PointCloud.save (c : PointCloud ℚ) (color : List ℚ) (_keep : Option ℕ) : List (List ℚ) :=
  let pointsAsRows := c.points.map fun p => [p.x, p.y, p.z]
  let colorsAsRows := repmat color pointsAsRows.length
  savetxt (hstack pointsAsRows colorsAsRows)

/-- The default argument `color=np.array([255, 255, 255])` (`threedee/point_cloud.pyx:211`). -/
def PointCloud.saveColor : List ℚ := [255, 255, 255]

end Sumo
