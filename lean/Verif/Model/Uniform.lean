import Verif.Model.Box
import Verif.Model.Sample
import Verif.Model.Texture

/-!
# Meshes of one colour

`TexturedMesh.from_mesh` and the two conversions of boxes to meshes.  Vertices and texture coordinates are real numbers here, not `float32`.
-/

namespace Sumo
namespace Uniform

/-- A texture as the sampling functions see it, given by its bytes row by row. -/
def imageOf (rows cols : ℕ) (bytes : List ℕ) : RgbImage :=
  ⟨rows, cols, fun r c =>
    ⟨(bytes.getD (3 * (r * cols + c)) 0 : ℕ), (bytes.getD (3 * (r * cols + c) + 1) 0 : ℕ), (bytes.getD (3 * (r * cols + c) + 2) 0 : ℕ)⟩⟩

/-- The default metallic/roughness texture of the constructor (`threedee/textured_mesh.pyx:24-29`). -/
def defaultRoughness : RgbImage := imageOf 3 4 (List.replicate 36 0)

/-- `TexturedMesh.from_mesh` (`threedee/textured_mesh.pyx:53-71`) with the texture it makes of the entries of the colour. -/
noncomputable def fromMesh (m : Mesh ℝ) (color : List ℕ) : Except PyErr (TexturedMesh ℝ RgbImage) :=
  TexturedMesh.fromMesh RgbImage.isEmpty (imageOf 2 2 (Texture.uniformTexture color)) defaultRoughness m

/-- `Box3d.to_mesh` (`threedee/box_3d.pyx:123-137`). -/
noncomputable def boxMesh (b : Box3d ℝ) (normalsOut : Bool) : Except PyErr (Mesh ℝ) :=
  let h := b.toMeshHelper normalsOut
  Mesh.create h.2.1 h.1 h.2.2

/-- `Box3d.to_textured_mesh` (`threedee/box_3d.pyx:139-160`). -/
noncomputable def boxTexturedMesh (b : Box3d ℝ) (normalsOut : Bool) (color : List ℕ) : Except PyErr (TexturedMesh ℝ RgbImage) :=
  let h := b.toMeshHelper normalsOut
  TexturedMesh.create RgbImage.isEmpty h.2.1 h.1 h.2.2 (List.replicate h.1.length (0, 0)) (imageOf 2 2 (Texture.uniformTexture color))
    defaultRoughness

end Uniform
end Sumo
