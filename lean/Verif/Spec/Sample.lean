import Verif.Spec.Mesh
import Verif.Model.Sample

/-!
# What sampling means
-/

namespace Sumo

/-- Area of the triangle with the given corners. -/
noncomputable def triangleArea (a b c : Vec3 ℝ) : ℝ := ((b - a).cross (c - a)).norm / 2

/-- `s` is a convex combination of the three corners, and its colour is the same combination of the corners' colours. -/
def InTriangle (a b c s : ColorPoint) : Prop :=
  ∃ α β γ : ℝ, 0 ≤ α ∧ 0 ≤ β ∧ 0 ≤ γ ∧ α + β + γ = 1 ∧
    s.pos = Vec3.smul α a.pos + Vec3.smul β b.pos + Vec3.smul γ c.pos ∧
    s.color = Vec3.smul α a.color + Vec3.smul β b.color + Vec3.smul γ c.color

/-- The samples of one triangle: as many as the density asks for, rounded down but at least one, all in the triangle. -/
def SamplesOf (density : ℝ) (t : ColorPoint × ColorPoint × ColorPoint) (block : List ColorPoint) : Prop :=
  block.length = max 1 ⌊density * triangleArea t.1.pos t.2.1.pos t.2.2.pos⌋₊ ∧ ∀ s ∈ block, InTriangle t.1 t.2.1 t.2.2 s

/-- `samples` samples the triangles, one after the other. -/
def SamplesAll (density : ℝ) (faces samples : List ColorPoint) : Prop :=
  ∃ blocks, samples = blocks.flatten ∧ List.Forall₂ (SamplesOf density) (MeshSpec.triples faces) blocks

/-- The colour of a mesh's vertex `i`: grey without texture, else the texel at row `row u v` and column `col u v` for its
texture coordinates. -/
def VertexColor (texelAt : RgbImage → ℝ → ℝ → Vec3 ℝ) (m : PrimMesh) (i : ℕ) (color : Vec3 ℝ) : Prop :=
  match m with
  | .plain _ => color = ⟨128, 128, 128⟩
  | .textured m =>
    if m.baseColor.rows = 0 ∨ m.baseColor.cols = 0 then color = ⟨128, 128, 128⟩
    else ∃ u v, m.uvCoords[i]? = some (u, v) ∧ color = texelAt m.baseColor u v

/-- `k` wrapped into `0 … n-1`. -/
def wrap (k : ℤ) (n : ℕ) : ℕ := (k % (n : ℤ)).toNat

/-- The texel at column `u * width` and row `v * height`, with repetition outside the unit square. -/
noncomputable def texelUV (img : RgbImage) (u v : ℝ) : Vec3 ℝ :=
  img.pixel (wrap ⌊v * img.rows⌋ img.rows) (wrap ⌊u * img.cols⌋ img.cols)

/-- The texel at row `u * height` and column `v * width`. -/
noncomputable def texelVU (img : RgbImage) (u v : ℝ) : Vec3 ℝ :=
  img.pixel (wrap ⌊u * img.rows⌋ img.rows) (wrap ⌊v * img.cols⌋ img.cols)

/-- `p` is vertex `i` of the mesh placed by the pose. -/
def PosedVertex (texelAt : RgbImage → ℝ → ℝ → Vec3 ℝ) (pose : Pose3 ℝ) (m : PrimMesh) (i : ℕ) (p : ColorPoint) : Prop :=
  (∃ v, m.vertices[i]? = some v ∧ p.pos = pose.R.mulVec v + pose.t) ∧ VertexColor texelAt m i p.color

/-- All corners of a list of meshes, in order: the mesh and the vertex number. -/
def allCorners (meshes : List PrimMesh) : List (PrimMesh × ℕ) := meshes.flatMap fun m => m.indices.map fun i => (m, i)

/-- A mesh as the constructors build it, with complete triangles and indices in range. -/
def ProperMesh : PrimMesh → Prop
  | .plain m => 3 ∣ m.indices.length ∧ m.vertices.length = m.normals.length ∧ MeshSpec.InRange m.vertices.length m.indices
  | .textured m => 3 ∣ m.indices.length ∧ m.vertices.length = m.normals.length ∧ m.uvCoords.length = m.vertices.length ∧
      MeshSpec.InRange m.vertices.length m.indices

end Sumo
