import Verif.Model.PoseHeap

/-!
# What a program sees of its rotations and poses
-/

namespace Sumo
namespace PoseHeap

variable {K : Type}

/-- The value of the `i`-th pose, rotation or array of a program. -/
def State.poseVal (s : State K) (i : ℕ) : Option (Pose3 K) := s.poses[i]?.map s.pose
@[inherit_doc State.poseVal] def State.rotVal (s : State K) (i : ℕ) : Option (Mat3 K) := s.rots[i]?.map s.mat
@[inherit_doc State.poseVal] def State.vecVal (s : State K) (i : ℕ) : Option (Vec3 K) := s.arrays[i]?.map s.vec
@[inherit_doc State.poseVal] def State.arrVal (s : State K) (i : ℕ) : Option (ℕ → ℕ → K) := s.arrays[i]?.map s.elem

/-- The states programs reach. -/
def Reachable [CommRing K] (s : State K) : Prop := ∃ ops, (State.init : State K).run ops = some s

/-- What the program could see in `s` is the same in `s'`. -/
def SameValues (s s' : State K) : Prop :=
  (∀ i, i < s.poses.length → s'.poseVal i = s.poseVal i) ∧ (∀ i, i < s.rots.length → s'.rotVal i = s.rotVal i) ∧
    ∀ i, i < s.arrays.length → s'.arrVal i = s.arrVal i

/-- The writes among some steps are all through arrays with a property. -/
def WritesOnly (P : ℕ → Prop) (ops : List (Op K)) : Prop := ∀ a i j x, Op.write a i j x ∈ ops → P a

/-- Every write of the program is made through an array the program itself created (a result of `np.array`, not one obtained from
a pose, a rotation, or an array). -/
def WritesOwn [CommRing K] : State K → List ℕ → List (Op K) → Prop
  | _, _, [] => True
  | s, own, op :: ops =>
    (∀ a i j x, op = .write a i j x → a ∈ own) ∧
      ∀ s', s.step op = some s' →
        WritesOwn s' (match op with | .newArray _ _ => s.arrays.length :: own | _ => own) ops

end PoseHeap
end Sumo
