import Verif.Model.PointCloud

/-!
# What a point cloud denotes
-/

namespace Sumo

variable {K : Type}

/-- The cloud is the given list of points, each with its own colour. -/
def ColoredCloud (c : PointCloud K) (l : List (Vec3 K × Color)) : Prop := c.points = l.map Prod.fst ∧ c.colors = l.map Prod.snd

/-- The cloud is the given list of points, without colours. -/
def PlainCloud (c : PointCloud K) (l : List (Vec3 K)) : Prop := c.points = l ∧ c.colors = []

/-- A consistent cloud: no colours, or one colour per point. -/
def ConsistentCloud (c : PointCloud K) : Prop := c.colors = [] ∨ c.colors.length = c.points.length

end Sumo
