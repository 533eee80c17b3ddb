import Verif.Model.Geometry

/-!
# Rotations and poses in memory

Model of which memory the objects of `sumo-api/sumo/geometry/rot3.pyx` and `pose3.pyx` refer to.  `Rot3` and `Pose3` objects keep
the arrays they are given and hand them out, so that two objects can share an array.  `Model/Geometry` has the same functions on
values.  Elements are exact; an array is a buffer and the positions of its elements there; buffers are never reused while an
object refers to them.  Arrays have the shapes the functions expect.  Assigning to the attributes `R` and `t` of the objects is not
modelled.  `FromScalars`, `FromColumns`, `Rx`, `Ry`, `Rz`, `AxisAngle`, `from_xml`, `from_json` and `from_surreal` give objects on new
arrays, which are the steps `newArray` and `rot` or `poseOfArray` here; `draw_poses` only draws.
-/

namespace Sumo
namespace PoseHeap

/-- A numpy array of 3 rows (a vector is the first column): element `(i, j)` is at `addr i j` of the buffer. -/
structure Arr where
  buf : ℕ
  addr : ℕ → ℕ → ℕ

/-- What is in memory, and the references a program has: to arrays, to `Rot3` objects (the array `self.R`) and to `Pose3` objects
(the arrays of `self.R` and `self.t`). -/
structure State (K : Type) where
  mem : ℕ → ℕ → K
  next : ℕ
  arrays : List Arr := []
  rots : List Arr := []
  poses : List (Arr × Arr) := []

variable {K : Type}

/-- The element of an array. -/
def State.elem (s : State K) (a : Arr) (i j : ℕ) : K := s.mem a.buf (a.addr i j)

/-- The 3×3 matrix in an array. -/
def State.mat (s : State K) (a : Arr) : Mat3 K :=
  ⟨s.elem a 0 0, s.elem a 0 1, s.elem a 0 2, s.elem a 1 0, s.elem a 1 1, s.elem a 1 2, s.elem a 2 0, s.elem a 2 1, s.elem a 2 2⟩

/-- The vector in an array. -/
def State.vec (s : State K) (a : Arr) : Vec3 K := ⟨s.elem a 0 0, s.elem a 1 0, s.elem a 2 0⟩

/-- The value of a pose. -/
def State.pose (s : State K) (p : Arr × Arr) : Pose3 K := ⟨s.mat p.1, s.vec p.2⟩

/-- A new array in C order with `cols` columns and the given elements. -/
def State.alloc (s : State K) (cols : ℕ) (f : ℕ → ℕ → K) : State K × Arr :=
  ({ s with mem := Function.update s.mem s.next fun p => f (p / cols) (p % cols), next := s.next + 1 },
    ⟨s.next, fun i j => i * cols + j⟩)

/-- The elements of a matrix. -/
def ofMat (M : Mat3 K) (i j : ℕ) : K :=
  match i, j with
  | 0, 0 => M.m00 | 0, 1 => M.m01 | 0, _ => M.m02
  | 1, 0 => M.m10 | 1, 1 => M.m11 | 1, _ => M.m12
  | _, 0 => M.m20 | _, 1 => M.m21 | _, _ => M.m22

/-- The elements of a vector. -/
def ofVec (v : Vec3 K) (i _j : ℕ) : K :=
  match i with
  | 0 => v.x
  | 1 => v.y
  | _ => v.z

/-- A new 3×3 array. -/
def State.allocMat (s : State K) (M : Mat3 K) : State K × Arr := s.alloc 3 (ofMat M)
/-- A new vector. -/
def State.allocVec (s : State K) (v : Vec3 K) : State K × Arr := s.alloc 1 (ofVec v)

/-- `np.transpose(a)`: an array on the same buffer. -/
def Arr.transpose (a : Arr) : Arr := ⟨a.buf, fun i j => a.addr j i⟩

/-- `a[:, j]`: an array on the same buffer. -/
def Arr.column (a : Arr) (j : ℕ) : Arr := ⟨a.buf, fun i _ => a.addr i j⟩

/-- The arrays that exist once the modules are imported: the default arguments `R` and `t` of `Pose3.__init__`
(`geometry/pose3.pyx:25-26`), `R` of `Rot3.__init__` (`geometry/rot3.pyx:30`), `position` of `Pose3.ENU_camera` and
`Pose3.Maya_camera` (`geometry/pose3.pyx:111,124`), and the module constants (`geometry/rot3.pyx:19-26`). -/
def poseR : Arr := ⟨0, fun i j => i * 3 + j⟩
@[inherit_doc poseR] def poseT : Arr := ⟨1, fun i j => i * 1 + j⟩
@[inherit_doc poseR] def rotR : Arr := ⟨2, fun i j => i * 3 + j⟩
@[inherit_doc poseR] def enuT : Arr := ⟨3, fun i j => i * 1 + j⟩
@[inherit_doc poseR] def mayaT : Arr := ⟨4, fun i j => i * 1 + j⟩
@[inherit_doc poseR] def enuR : Arr := ⟨5, fun i j => j * 3 + i⟩
@[inherit_doc poseR] def mayaR : Arr := ⟨6, fun i j => j * 3 + i⟩

section
variable [CommRing K]

/-- Memory when the program starts. -/
def State.init : State K where
  mem := fun b p =>
    match b with
    | 0 => ofMat Mat3.one (p / 3) (p % 3)
    | 2 => ofMat Mat3.one (p / 3) (p % 3)
    | 5 => ofMat (⟨1, 0, 0, 0, 0, -1, 0, 1, 0⟩) (p / 3) (p % 3)
    | 6 => ofMat (⟨1, 0, 0, 0, -1, 0, 0, 0, -1⟩) (p / 3) (p % 3)
    | _ => 0
  next := 7

/-- A step of a program; numbers refer to the references it has. -/
inductive Op (K : Type)
  /-- `np.array(...)` of 3 rows and `cols` columns -/
  | newArray (cols : ℕ) (f : ℕ → ℕ → K)
  /-- any view of an array -/
  | view (a : ℕ) (addr : ℕ → ℕ → ℕ)
  /-- `a[i, j] = x` -/
  | write (a i j : ℕ) (x : K)
  /-- `Rot3(R)`, and `Rot3()` -/
  | rot (R : Option ℕ)
  /-- `Pose3(R, t)` for an array `R` -/
  | poseOfArray (R : Option ℕ) (t : Option ℕ)
  /-- `Pose3(R, t)` for a `Rot3` -/
  | pose (R : ℕ) (t : Option ℕ)
  | fromMatrix34 (T : ℕ)
  | matrix (r : ℕ)
  /-- `R(j)` -/
  | column (r j : ℕ)
  | rotation (p : ℕ)
  | translation (p : ℕ)
  | rotInverse (r : ℕ)
  /-- `R * S` -/
  | rotCompose (r q : ℕ)
  /-- `R * p` and `R.rotate(p)` -/
  | rotate (r a : ℕ)
  | unrotate (r a : ℕ)
  | compose (p q : ℕ)
  | inverse (p : ℕ)
  | transformFrom (p a : ℕ)
  | transformTo (p a : ℕ)
  | matrix34 (p : ℕ)
  /-- `Pose3.ENU_camera`; the matrices are those of the turns about the axes y, x, z -/
  | enuCamera (A B C : Mat3 K) (position : Option ℕ)
  /-- `Pose3.Maya_camera` -/
  | mayaCamera (A B C : Mat3 K) (position : Option ℕ)

/-- An argument that may be left out. -/
def argOr (l : List Arr) (dflt : Arr) : Option ℕ → Option Arr
  | none => some dflt
  | some i => l[i]?

/-- A new array known to the caller; part of the model of memory, no lines of its own. -/
def State.addArray (s : State K) (a : Arr) : State K := { s with arrays := s.arrays ++ [a] }

/-- A new `Rot3` object on an array (`geometry/rot3.pyx:30-32`). -/
def State.addRot (s : State K) (a : Arr) : State K := { s with rots := s.rots ++ [a] }

/-- A new `Pose3` object on two arrays (`geometry/pose3.pyx:25-32`). -/
def State.addPose (s : State K) (p : Arr × Arr) : State K := { s with poses := s.poses ++ [p] }

/-- The cameras (`geometry/pose3.pyx:109-134`, `geometry/rot3.pyx:126-147`): each product is a new array. -/
def State.camera (s : State K) (base : Arr) (A B C : Mat3 K) (t : Arr) : State K :=
  let (s, a) := s.allocMat (Rot3.compose (Rot3.compose (Rot3.compose (s.mat base) A) B) C)
  s.addPose (a, t)

/-- The effect of a step; `none`: the program has no such reference. -/
def State.step (s : State K) : Op K → Option (State K)
  | .newArray cols f => let (s, a) := s.alloc cols f; some (s.addArray a)
  | .view a addr => do let a ← s.arrays[a]?; some (s.addArray ⟨a.buf, addr⟩)
  | .write a i j x => do
    let a ← s.arrays[a]?
    some { s with mem := Function.update s.mem a.buf (Function.update (s.mem a.buf) (a.addr i j) x) }
  | .rot R => do let a ← argOr s.arrays rotR R; some (s.addRot a)            -- rot3.pyx:30-32
  | .poseOfArray R t => do                                                    -- pose3.pyx:25-32
    let a ← argOr s.arrays poseR R
    let b ← argOr s.arrays poseT t
    some (s.addPose (a, b))
  | .pose R t => do                                                           -- pose3.pyx:25-32
    let a ← s.rots[R]?
    let b ← argOr s.arrays poseT t
    some (s.addPose (a, b))
  | .fromMatrix34 T => do                                                     -- pose3.pyx:103-107
    let T ← s.arrays[T]?
    some (s.addPose (T, T.column 3))
  | .matrix r => do let a ← s.rots[r]?; some (s.addArray a)                   -- rot3.pyx:34-36
  | .column r j => do let a ← s.rots[r]?; some (s.addArray (a.column j))      -- rot3.pyx:38-40
  | .rotation p => do let p ← s.poses[p]?; some (s.addRot p.1)                -- pose3.pyx:37-38
  | .translation p => do let p ← s.poses[p]?; some (s.addArray p.2)           -- pose3.pyx:40-41
  | .rotInverse r => do let a ← s.rots[r]?; some (s.addRot a.transpose)       -- rot3.pyx:42-44
  | .rotCompose r q => do                                                     -- rot3.pyx:58-61
    let a ← s.rots[r]?
    let b ← s.rots[q]?
    let (s, c) := s.allocMat (Rot3.compose (s.mat a) (s.mat b))
    some (s.addRot c)
  | .rotate r p => do                                                         -- rot3.pyx:46-48,62-64
    let a ← s.rots[r]?
    let p ← s.arrays[p]?
    let (s, c) := s.allocVec (Rot3.apply (s.mat a) (s.vec p))
    some (s.addArray c)
  | .unrotate r p => do                                                       -- rot3.pyx:50-52
    let a ← s.rots[r]?
    let p ← s.arrays[p]?
    let (s, c) := s.allocVec (Rot3.unrotate (s.mat a) (s.vec p))
    some (s.addArray c)
  | .compose p q => do                                                        -- pose3.pyx:43-44
    let p ← s.poses[p]?
    let q ← s.poses[q]?
    let (s1, a) := s.allocMat (Rot3.compose (s.mat p.1) (s.mat q.1))
    let (s2, b) := s1.allocVec (Rot3.apply (s1.mat p.1) (s1.vec q.2) + s1.vec p.2)
    some (s2.addPose (a, b))
  | .inverse p => do                                                          -- pose3.pyx:46-48
    let p ← s.poses[p]?
    let Rt := p.1.transpose
    let (s, b) := s.allocVec (-(Rot3.apply (s.mat Rt) (s.vec p.2)))
    some (s.addPose (Rt, b))
  | .transformFrom p a => do                                                  -- pose3.pyx:50-52
    let p ← s.poses[p]?
    let a ← s.arrays[a]?
    let (s, c) := s.allocVec (Rot3.apply (s.mat p.1) (s.vec a) + s.vec p.2)
    some (s.addArray c)
  | .transformTo p a => do                                                    -- pose3.pyx:71-73
    let p ← s.poses[p]?
    let a ← s.arrays[a]?
    let (s, c) := s.allocVec (Rot3.unrotate (s.mat p.1) (s.vec a - s.vec p.2))
    some (s.addArray c)
  | .matrix34 p => do                                                         -- pose3.pyx:80-81
    let p ← s.poses[p]?
    let (s, c) := s.alloc 4 fun i j => if j < 3 then s.elem p.1 i j else s.elem p.2 i 0
    some (s.addArray c)
  | .enuCamera A B C t => do let t ← argOr s.arrays enuT t; some (s.camera enuR A B C t)
  | .mayaCamera A B C t => do let t ← argOr s.arrays mayaT t; some (s.camera mayaR A B C t)

/-- A program. -/
def State.run (s : State K) : List (Op K) → Option (State K)
  | [] => some s
  | op :: ops => (s.step op).bind fun s' => s'.run ops

end
end PoseHeap
end Sumo
