import Verif.Model.Box

/-!
# Measures of boxes in machine precision

`Box3d.volume` and `Box3d.center` (`sumo-api/sumo/threedee/box_3d.pyx:80-92`) with every operation rounded by `rd`: to double precision
for corners of `float64`, to single precision for corners of `float32` (`Vector3f`, or the vertices of a mesh).
-/

namespace Sumo
namespace Fl

/-- `Box3d.volume` (`threedee/box_3d.pyx:80-83`): `np.prod` multiplies the three differences one after the other. -/
def boxVolume (rd : ℚ → ℚ) (b : Box3d ℚ) : ℚ :=
  let dx := rd (b.maxCorner.x - b.minCorner.x)
  let dy := rd (b.maxCorner.y - b.minCorner.y)
  let dz := rd (b.maxCorner.z - b.minCorner.z)
  rd (rd (dx * dy) * dz)

/-- `Box3d.center` (`threedee/box_3d.pyx:85-92`). -/
def boxCenter (rd : ℚ → ℚ) (b : Box3d ℚ) : Vec3 ℚ :=
  ⟨rd (rd (b.maxCorner.x + b.minCorner.x) / 2), rd (rd (b.maxCorner.y + b.minCorner.y) / 2),
   rd (rd (b.maxCorner.z + b.minCorner.z) / 2)⟩

end Fl
end Sumo
