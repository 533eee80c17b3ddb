import Verif.Model.PoseError

/-!
# Specification: the rotations a declared symmetry makes equivalent
-/

namespace Sumo.RotSpec

/-- The symmetry declared about an axis. -/
def symAbout (sym : ObjectSymmetry) : Fin 3 → SymmetryType
  | 0 => sym.x
  | 1 => sym.y
  | 2 => sym.z

/-- The smallest turn that a declared two- or four-fold symmetry makes invisible. -/
noncomputable def unitTurn : SymmetryType → Option ℝ
  | .twoFold => some Real.pi
  | .fourFold => some (Real.pi / 2)
  | _ => none

/-- The rotations generated by the declared two- and four-fold symmetries (`h` is applied in the frame of the
object). -/
inductive Equivalent (sym : ObjectSymmetry) : Rot3 ℝ → Prop
  | one : Equivalent sym Rot3.identity
  | turn {h : Rot3 ℝ} {axis : Fin 3} {a : ℝ} : Equivalent sym h → unitTurn (symAbout sym axis) = some a →
      Equivalent sym (Rot3.compose h (axisRot axis a))

/-- No axis is declared cylindrical. -/
def NoCylinder (sym : ObjectSymmetry) : Prop := ∀ axis, symAbout sym axis ≠ .cylindrical

/-- Some axis is declared spherical. -/
def Spherical (sym : ObjectSymmetry) : Prop := ∃ axis, symAbout sym axis = .spherical

/-- The symmetry is admitted by the constructor. -/
def Admitted (sym : ObjectSymmetry) : Prop :=
  ObjectSymmetry.mk? (some sym.x) (some sym.y) (some sym.z) = .ok sym

end Sumo.RotSpec
