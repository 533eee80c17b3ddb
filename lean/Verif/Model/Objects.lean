import Verif.Model.Mesh
import Verif.Model.PointCloud

/-!
# Python objects that own C++ objects

`Mesh`, `TexturedMesh`, `PointCloud`, `GltfModel`, `Quaternion` and `TinyGLTF` are extension types: a Python object with a
pointer to a C++ object that it allocates with `new` and frees in `__dealloc__`.  This file models the two heaps together:
which C++ objects are allocated, which Python object points to which of them, which variables of a program refer to which
Python object, and the calls that make, change, share and drop them.  `Model/Mesh` and `Model/PointCloud` have the same calls
on values.

Addresses are not used again after `delete`, so that an access through an old pointer is seen as one.  Python frees an object
when nothing refers to it any more; here such an object is freed by a separate step, at any later time and in any order
(CPython frees it at once, or later if a cycle holds it).  What a C++ object contains beyond the value types of `Model/Mesh`
and `Model/PointCloud` is a parameter: `G` for a glTF model, with the calls on it in `Lib`.
-/

namespace Sumo.Objects

variable {K I G : Type}

/-- A C++ object: `sumo::Mesh`, `sumo::TexturedMesh`, `sumo::PointCloud`, `sumo::GltfModel`, `Eigen::Quaterniond`,
`tinygltf::TinyGLTF`, and the header of an OpenCV image (`cv::Mat`). -/
inductive Value (K I G : Type)
  | mesh (m : Mesh K)
  | textured (m : TexturedMesh K I)
  | cloud (c : PointCloud K)
  | gltf (g : G)
  | quaternion
  | tiny
  | mat

/-- The extension types (`threedee/mesh.pxd:44-45`, `threedee/textured_mesh.pxd:34-35`, `threedee/point_cloud.pxd:37-38`,
`threedee/gltf_model.pxd:42-43`, `geometry/quaternion.pyx:27-30`, `threedee/gltf.pxd:57-58`). -/
inductive Cls
  | mesh | textured | cloud | gltf | quaternion | tiny
  deriving DecidableEq

/-- The extension type that wraps a C++ object; `cv::Mat` has none. -/
def Value.cls : Value K I G → Option Cls
  | .mesh _ => some .mesh
  | .textured _ => some .textured
  | .cloud _ => some .cloud
  | .gltf _ => some .gltf
  | .quaternion => some .quaternion
  | .tiny => some .tiny
  | .mat => none

/-- A Python object of an extension type: its class, its pointer (`none` is NULL: Cython clears the fields in `tp_new`), and
whether it has been freed.  `TexturedMesh` has two pointers, `_textured_mesh` and the inherited `_mesh`, that are always
assigned together (`threedee/textured_mesh.pyx:41-45,206-207`): one here. -/
structure Obj where
  cls : Cls
  ptr : Option ℕ
  collected : Bool := false
  deriving DecidableEq

/-- The state: the C++ objects (`none`: freed) by address, the Python objects, and the variables of the program (`none`:
deleted). -/
structure State (K I G : Type) where
  heap : List (Option (Value K I G))
  objs : List Obj
  vars : List (Option ℕ)

/-- The start of the process. -/
def init : State K I G := ⟨[], [], []⟩

/-- How the process dies: an access to or a second `delete` of a freed object; a NULL pointer; a C++ object used as one of
another class; a `std::vector` extended with its own elements; other undefined behaviour; a C++ exception that nothing
catches or a failed C++ `assert`. -/
inductive Crash
  | freed | null | badCast | overlap | undefined | terminated
  deriving DecidableEq

/-- What ends a call: a Python exception that leaves the state as it was (objects that the call made before it, to which nothing
refers, are left out), or the end of the process. -/
inductive Stop
  | raise (e : PyErr)
  | crash (c : Crash)
  deriving DecidableEq

/-- The calls on a `sumo::GltfModel`: `addPrimitiveMesh` and `addTexturedPrimitiveMesh` (`none` if they throw: they are declared
without `except +`, `threedee/gltf_model.pxd:34-35`), and `getPolymorphicPrimitiveMeshes` (`threedee/GltfModel.cpp:473-488`):
the meshes it allocated (the last one perhaps incomplete) and the exception it threw. -/
structure Lib (K I G : Type) where
  addMesh : G → Mesh K → Option G
  addTextured : G → TexturedMesh K I → Option G
  meshes : G → List (Mesh K ⊕ TexturedMesh K I) × Option PyErr

namespace State

/-- `new`: a new C++ object at the next address. -/
def alloc (s : State K I G) (x : Value K I G) : State K I G := { s with heap := s.heap ++ [some x] }

/-- `delete p` for a pointer that is not NULL. -/
def free (s : State K I G) (a : ℕ) : Except Stop (State K I G) :=
  match s.heap[a]? with
  | some (some _) => .ok { s with heap := s.heap.set a none }
  | _ => .error (.crash .freed)

/-- Reading `*p`. -/
def load (s : State K I G) (a : ℕ) : Except Stop (Value K I G) :=
  match s.heap[a]? with
  | some (some x) => .ok x
  | _ => .error (.crash .freed)

/-- Changing `*p`. -/
def store (s : State K I G) (a : ℕ) (x : Value K I G) : Except Stop (State K I G) :=
  match s.heap[a]? with
  | some (some _) => .ok { s with heap := s.heap.set a (some x) }
  | _ => .error (.crash .freed)

/-- A new Python object. -/
def push (s : State K I G) (o : Obj) : State K I G := { s with objs := s.objs ++ [o] }

/-- A new variable for Python object `i`. -/
def bindVar (s : State K I G) (i : ℕ) : State K I G := { s with vars := s.vars ++ [some i] }

/-- A new Python object of class `c` with a new C++ object `x`: `__init__`, `Mesh_usurp`, `TexturedMesh_usurp` and the like
(`threedee/mesh.pyx:33-40,167-172`, `threedee/textured_mesh.pyx:24-47,202-208`, `threedee/point_cloud.pyx:52-66,103-104`,
`threedee/gltf_model.pyx:35-39`, `geometry/quaternion.pyx:32-39`, `threedee/gltf.pyx:27-28`).  In the two `usurp` functions
`del` is called on a NULL pointer, which does nothing. -/
def wrap (s : State K I G) (c : Cls) (x : Value K I G) : State K I G := (s.alloc x).push ⟨c, some s.heap.length, false⟩

/-- The Python object a variable refers to. -/
def lookup (s : State K I G) (v : ℕ) : Except Stop (ℕ × Obj) :=
  match s.vars[v]? with
  | some (some i) =>
    match s.objs[i]? with
    | some o => .ok (i, o)
    | none => .error (.raise .unboundLocalError)
  | _ => .error (.raise .unboundLocalError)

/-- An argument of a parameter declared with an extension type: a variable, or `None`, which Cython lets through
(`none` as the result). -/
def argument (s : State K I G) (ok : Cls → Bool) : Option ℕ → Except Stop (Option Obj)
  | none => .ok none
  | some v => do
    let (_, o) ← s.lookup v
    if ok o.cls then pure (some o) else .error (.raise .typeError)

end State

/-- The pointer of a Python object, which the C code follows without a check. -/
def pointer (o : Obj) : Except Stop ℕ :=
  match o.ptr with
  | some a => .ok a
  | none => .error (.crash .null)

/-- The pointer of an argument.  A field of `None` is read as if `None` were an object of the class: taken as NULL. -/
def pointer? : Option Obj → Except Stop ℕ
  | some o => pointer o
  | none => .error (.crash .null)

/-- `new Mat` or `matXY_from_array` (`opencv/wrap.pyx`), `n` times. -/
def newMats (s : State K I G) : ℕ → State K I G
  | 0 => s
  | n + 1 => newMats (s.alloc .mat) n

/-- `del` of several pointers. -/
def freeAll (s : State K I G) : List ℕ → Except Stop (State K I G)
  | [] => .ok s
  | a :: as => do
    let s ← s.free a
    freeAll s as

/-- A constructor call.  `TexturedMesh.__init__` makes two `Mat3b` and deletes them again
(`threedee/textured_mesh.pyx:39-47`). -/
def construct (s : State K I G) (x : Value K I G) : Except Stop (State K I G) :=
  match x with
  | .mat => .error (.raise .attributeError)
  | .textured m => do
    let n := s.heap.length
    let s := ((newMats s 2).wrap .textured (.textured m))
    let i := s.objs.length - 1
    let s ← freeAll s [n, n + 1]
    pure (s.bindVar i)
  | .mesh m => .ok ((s.wrap .mesh (.mesh m)).bindVar s.objs.length)
  | .cloud c => .ok ((s.wrap .cloud (.cloud c)).bindVar s.objs.length)
  | .gltf g => .ok ((s.wrap .gltf (.gltf g)).bindVar s.objs.length)
  | .quaternion => .ok ((s.wrap .quaternion .quaternion).bindVar s.objs.length)
  | .tiny => .ok ((s.wrap .tiny .tiny).bindVar s.objs.length)

/-- `C.__new__(C)` without `__init__`, as in a subclass whose `__init__` does not call that of the base: the pointer is NULL.
`Quaternion` allocates in `__cinit__`, which always runs (`geometry/quaternion.pyx:32-39`). -/
def raw (s : State K I G) (c : Cls) : State K I G :=
  match c with
  | .quaternion => (s.wrap .quaternion .quaternion).bindVar s.objs.length
  | c => (s.push ⟨c, none, false⟩).bindVar s.objs.length

/-- Calling `__init__` again: a new C++ object, and the pointer to the old one is overwritten.  `Quaternion` has no `__init__`;
the one it inherits does nothing. -/
def reinit (s : State K I G) (v : ℕ) (x : Value K I G) : Except Stop (State K I G) := do
  let (i, o) ← s.lookup v
  match x with
  | .quaternion => .ok s
  | x =>
    if x.cls = some o.cls then
      pure { (s.alloc x) with objs := s.objs.set i { o with ptr := some s.heap.length } }
    else .error (.raise .typeError)

/-- Freeing Python object `i`, possible once no variable refers to it: `__dealloc__` (`threedee/mesh.pyx:42-44`,
`threedee/point_cloud.pyx:68-69`, `threedee/gltf_model.pyx:41-43`, `threedee/gltf.pyx:30-31`); that of `TexturedMesh` does
nothing (`threedee/textured_mesh.pyx:49-51`), but Cython calls that of the base class after it.  `Quaternion` has none
(`geometry/quaternion.pyx:27-48`). -/
def collect (s : State K I G) (i : ℕ) : Except Stop (State K I G) :=
  match s.objs[i]? with
  | none => .ok s
  | some o =>
    if o.collected || s.vars.contains (some i) then .ok s
    else
      let s' := { s with objs := s.objs.set i { o with collected := true } }
      match o.cls, o.ptr with
      | .quaternion, _ => .ok s'
      | _, none => .ok s'
      | _, some a => s'.free a

/-- Any call that only reads the object (`vertices()`, `points()`, `num_primitive_meshes()`, …). -/
def read (s : State K I G) (v : ℕ) : Except Stop (State K I G) := do
  let (_, o) ← s.lookup v
  let a ← pointer o
  let x ← s.load a
  if x.cls = some o.cls then pure s else .error (.crash .badCast)

/-- `Mesh::merge` at addresses (`threedee/Mesh.cpp:150-165`): with the two the same the loop over `mesh2.indices_` appends to the
vector it runs over, and `insert` is given a range of the vector it changes. -/
def meshMergeAt (s : State K I G) (a b n : ℕ) : Except Stop (State K I G) := do
  let x ← s.load a
  let y ← s.load b
  match x, y with
  | .mesh m, .mesh m2 =>
    if a = b ∧ (m.indices ≠ [] ∨ m.vertices.length > n) then .error (.crash .overlap)
    else s.store a (.mesh (m.merge m2 n))
  | .mesh m, .textured m2 => s.store a (.mesh (m.merge m2.toMesh n))
  | _, _ => .error (.crash .badCast)

/-- `TexturedMesh::merge` at addresses (`threedee/TexturedMesh.cpp:78-89`). -/
def texturedMergeAt (s : State K I G) (a b n : ℕ) : Except Stop (State K I G) := do
  let x ← s.load a
  let y ← s.load b
  match x, y with
  | .textured m, .textured m2 =>
    if a = b ∧ (m.indices ≠ [] ∨ m.vertices.length > n) then .error (.crash .overlap)
    else match m.merge m2 n with
      | some r => s.store a (.textured r)
      | none => .error (.crash .undefined)
  | _, _ => .error (.crash .badCast)

/-- `x.merge(y, n)` (`threedee/mesh.pyx:154-156`, `threedee/textured_mesh.pyx:163-165`). -/
def merge (s : State K I G) (v : ℕ) (w : Option ℕ) (n : ℕ) : Except Stop (State K I G) := do
  let (_, o) ← s.lookup v
  match o.cls with
  | .mesh => do
    let p ← s.argument (fun c => c == .mesh || c == .textured) w
    let a ← pointer o
    let b ← pointer? p
    meshMergeAt s a b n
  | .textured => do
    let p ← s.argument (fun c => c == .textured) w
    let a ← pointer o
    let b ← pointer? p
    texturedMergeAt s a b n
  | _ => .error (.raise .attributeError)

/-- `x.replace_geometry(y)` (`threedee/mesh.pyx:158-160`, `threedee/textured_mesh.pyx:167-169`, `threedee/Mesh.cpp:167-175`,
`threedee/TexturedMesh.cpp:91-97`): the vectors of `x` are cleared and then `merge` is called. -/
def replaceGeometry (s : State K I G) (v : ℕ) (w : Option ℕ) : Except Stop (State K I G) := do
  let (_, o) ← s.lookup v
  match o.cls with
  | .mesh => do
    let p ← s.argument (fun c => c == .mesh || c == .textured) w
    let a ← pointer o
    let b ← pointer? p
    let x ← s.load a
    match x with
    | .mesh m => do
      let s ← s.store a (.mesh m.cleared)
      meshMergeAt s a b 0
    | _ => .error (.crash .badCast)
  | .textured => do
    let p ← s.argument (fun c => c == .textured) w
    let a ← pointer o
    let b ← pointer? p
    let x ← s.load a
    match x with
    | .textured m => do
      let s ← s.store a (.textured m.cleared)
      texturedMergeAt s a b 0
    | _ => .error (.crash .badCast)
  | _ => .error (.raise .attributeError)

/-- `x.renumber(n, l)` (`threedee/textured_mesh.pyx:158-161`); `junkV` and `junkUv` are what new elements hold. -/
def renumber (s : State K I G) (v : ℕ) (junkV : Vec3 K) (junkUv : K × K) (n : ℕ) (l : List ℕ) :
    Except Stop (State K I G) := do
  let (_, o) ← s.lookup v
  if o.cls = .textured then do
    let a ← pointer o
    let x ← s.load a
    match x with
    | .textured m =>
      match m.renumber junkV junkUv n l with
      | some r => s.store a (.textured r)
      | none => .error (.crash .undefined)
    | _ => .error (.crash .badCast)
  else .error (.raise .attributeError)

/-- `PointCloud::append` at addresses (`threedee/PointCloud.h:66-71`): `insert` with a range of the vector itself if the two are
the same. -/
def appendAt (s : State K I G) (a b : ℕ) : Except Stop (State K I G) := do
  let x ← s.load a
  let y ← s.load b
  match x, y with
  | .cloud c, .cloud d =>
    if a = b ∧ (c.points ≠ [] ∨ c.colors ≠ []) then .error (.crash .overlap)
    else s.store a (.cloud (c.append d))
  | _, _ => .error (.crash .badCast)

/-- `x.append(y)` (`threedee/point_cloud.pyx:120-122`). -/
def append (s : State K I G) (v : ℕ) (w : Option ℕ) : Except Stop (State K I G) := do
  let (_, o) ← s.lookup v
  if o.cls = .cloud then do
    let p ← s.argument (fun c => c == .cloud) w
    let a ← pointer o
    let b ← pointer? p
    appendAt s a b
  else .error (.raise .attributeError)

/-- The C++ cloud behind a Python object that has one. -/
def cloudAt (s : State K I G) (o : Obj) : Except Stop (PointCloud K) := do
  let a ← pointer o
  let x ← s.load a
  match x with
  | .cloud c => pure c
  | _ => .error (.crash .badCast)

/-- `PointCloud.merge(x, y)`, also `x + y`, of two Python objects (`threedee/point_cloud.pyx:78-86,107-114`).  The result is
a new object, number `s.objs.length`; no variable refers to it yet. -/
def mergeClouds (s : State K I G) (o p : Obj) : Except Stop (State K I G) := do
  if o.cls ≠ .cloud then .error (.raise .attributeError)
  let c ← cloudAt s o
  if c.colored then do
    if p.cls ≠ .cloud then .error (.raise .attributeError)
    let d ← cloudAt s p
    if !d.colored then .error (.raise .valueError)
  if p.cls ≠ .cloud then .error (.raise .typeError)
  let r := s.heap.length
  let s := s.wrap .cloud (.cloud ⟨[], []⟩)
  let a ← pointer o
  let s ← appendAt s r a
  let b ← pointer p
  appendAt s r b

/-- The loop of `sum(xs)`: `acc` is the number of the object so far (`none`: the number 0).  Adding an `int` gives the other
operand itself (`threedee/point_cloud.pyx:107-118`). -/
def sumLoop (s : State K I G) (acc : Option ℕ) : List ℕ → Except Stop (State K I G × Option ℕ)
  | [] => .ok (s, acc)
  | v :: vs => do
    let (i, p) ← s.lookup v
    match acc with
    | none => if p.cls = .cloud then sumLoop s (some i) vs else .error (.raise .typeError)
    | some j =>
      match s.objs[j]? with
      | none => .error (.raise .unboundLocalError)
      | some o => do
        let s' ← mergeClouds s o p
        sumLoop s' (some s.objs.length) vs

/-- `y = sum(xs)`; the sum of no clouds is the number 0, no object. -/
def sum (s : State K I G) (vs : List ℕ) : Except Stop (State K I G) := do
  let (s, r) ← sumLoop s none vs
  match r with
  | some i => pure (s.bindVar i)
  | none => pure s

/-- The loop of `register` (`threedee/point_cloud.pyx:98-102`): each cloud is transformed (`f` is `transform_from` with its
pose) to a new object, whose pointer is kept. -/
def registerLoop (s : State K I G) : List (ℕ × (PointCloud K → Except PyErr (PointCloud K))) →
    Except Stop (State K I G × List ℕ)
  | [] => .ok (s, [])
  | (v, f) :: rest => do
    let (_, o) ← s.lookup v
    if o.cls ≠ .cloud then .error (.raise .attributeError)
    let c ← cloudAt s o
    match f c with
    | .error e => .error (.raise e)
    | .ok d => do
      let a := s.heap.length
      let (s', as) ← registerLoop (s.wrap .cloud (.cloud d)) rest
      pure (s', a :: as)

/-- The clouds at some addresses. -/
def cloudsAt (s : State K I G) : List ℕ → Except Stop (List (PointCloud K))
  | [] => .ok []
  | a :: as => do
    let x ← s.load a
    match x with
    | .cloud c => do
      let cs ← cloudsAt s as
      pure (c :: cs)
    | _ => .error (.crash .badCast)

/-- `y = PointCloud.register(...)` (`threedee/point_cloud.pyx:88-105`). -/
def register (s : State K I G) (items : List (ℕ × (PointCloud K → Except PyErr (PointCloud K)))) :
    Except Stop (State K I G) := do
  let (s, as) ← registerLoop s items
  let cs ← cloudsAt s as
  match PointCloud.ofClouds cs with
  | .ok c => pure ((s.wrap .cloud (.cloud c)).bindVar s.objs.length)
  | .error _ => .error (.crash .terminated)

/-- `y = x.deepcopy()` (`threedee/gltf_model.pyx:45-54`). -/
def deepcopy (s : State K I G) (v : ℕ) : Except Stop (State K I G) := do
  let (_, o) ← s.lookup v
  if o.cls = .gltf then do
    let a ← pointer o
    let x ← s.load a
    match x with
    | .gltf g => pure ((s.wrap .gltf (.gltf g)).bindVar s.objs.length)
    | _ => .error (.crash .badCast)
  else .error (.raise .attributeError)

/-- Any call that changes one glTF model alone (`add_colored_material`, `update_materials`, `set_uris`, …): the new contents and
the exception, if it raises one. -/
def changeModel (s : State K I G) (v : ℕ) (f : G → G × Option PyErr) : Except Stop (State K I G × Option PyErr) := do
  let (_, o) ← s.lookup v
  if o.cls = .gltf then do
    let a ← pointer o
    let x ← s.load a
    match x with
    | .gltf g => do
      let s ← s.store a (.gltf (f g).1)
      pure (s, (f g).2)
    | _ => .error (.crash .badCast)
  else .error (.raise .attributeError)

/-- `x.add_mesh(y)` (`threedee/gltf_model.pyx:189-196`). -/
def addMesh (lib : Lib K I G) (s : State K I G) (v w : ℕ) : Except Stop (State K I G) := do
  let (_, o) ← s.lookup v
  if o.cls = .gltf then do
    let (_, p) ← s.lookup w
    match p.cls with
    | .textured => do
      let b ← pointer p
      let a ← pointer o
      let y ← s.load b
      let x ← s.load a
      match x, y with
      | .gltf g, .textured m =>
        match lib.addTextured g m with
        | some g' => s.store a (.gltf g')
        | none => .error (.crash .terminated)
      | _, _ => .error (.crash .badCast)
    | .mesh => do
      let b ← pointer p
      let a ← pointer o
      let y ← s.load b
      let x ← s.load a
      match x, y with
      | .gltf g, .mesh m =>
        match lib.addMesh g m with
        | some g' => s.store a (.gltf g')
        | none => .error (.crash .terminated)
      | _, _ => .error (.crash .badCast)
    | _ => .error (.raise .valueError)
  else .error (.raise .attributeError)

/-- The C++ objects of extracted meshes. -/
def meshValue : Mesh K ⊕ TexturedMesh K I → Value K I G
  | .inl m => .mesh m
  | .inr m => .textured m

/-- The `new` calls of `getPolymorphicPrimitiveMeshes` (`threedee/GltfModel.cpp:478-485`). -/
def allocMeshes (s : State K I G) : List (Mesh K ⊕ TexturedMesh K I) → State K I G
  | [] => s
  | m :: ms => allocMeshes (s.alloc (meshValue m)) ms

/-- The list comprehension of `primitive_meshes` (`threedee/gltf_model.pyx:203-205`): each C++ mesh gets a Python object, of the
class that `isTextured()` selects. -/
def usurpMeshes (s : State K I G) : List ℕ → Except Stop (State K I G)
  | [] => .ok s
  | a :: as => do
    let x ← s.load a
    match x with
    | .textured _ => usurpMeshes (s.push ⟨.textured, some a, false⟩) as
    | .mesh _ => usurpMeshes (s.push ⟨.mesh, some a, false⟩) as
    | _ => .error (.crash .badCast)

/-- `x.primitive_meshes()` (`threedee/gltf_model.pyx:200-205`), the new objects without variables yet: their numbers, or the
exception. If C++ throws, what it allocated before stays allocated. -/
def extractMeshes (lib : Lib K I G) (s : State K I G) (v : ℕ) :
    Except Stop (State K I G × Except PyErr (List ℕ)) := do
  let (_, o) ← s.lookup v
  if o.cls = .gltf then do
    let a ← pointer o
    let x ← s.load a
    match x with
    | .gltf g =>
      let n := s.heap.length
      let k := s.objs.length
      let s := allocMeshes s (lib.meshes g).1
      match (lib.meshes g).2 with
      | some e => pure (s, .error e)
      | none => do
        let s ← usurpMeshes s (List.range' n (lib.meshes g).1.length)
        pure (s, .ok (List.range' k (lib.meshes g).1.length))
    | _ => .error (.crash .badCast)
  else .error (.raise .attributeError)

/-- Variables for several objects. -/
def bindAll (s : State K I G) : List ℕ → State K I G
  | [] => s
  | i :: is => bindAll (s.bindVar i) is

/-- `y₁, …, yₙ = x.primitive_meshes()`. -/
def primitiveMeshes (lib : Lib K I G) (s : State K I G) (v : ℕ) : Except Stop (State K I G × Option PyErr) := do
  let (s, r) ← extractMeshes lib s v
  match r with
  | .ok is => pure (bindAll s is, none)
  | .error e => pure (s, some e)

/-- `y = x.extract_primitive_mesh(j)` (`threedee/gltf_model.pyx:207-210`): the other meshes are dropped. -/
def extractMesh (lib : Lib K I G) (s : State K I G) (v j : ℕ) : Except Stop (State K I G × Option PyErr) := do
  let (s, r) ← extractMeshes lib s v
  match r with
  | .ok is =>
    match is[j]? with
    | some i => pure (s.bindVar i, none)
    | none => pure (s, some .indexError)
  | .error e => pure (s, some e)

/-- A page of a TIFF file as the loop of `load` meets it: not in the file, converted, or refused with an exception. -/
inductive Page
  | missing
  | good
  | bad (e : PyErr)
  deriving DecidableEq

/-- The loop of `rgbd_tiff.load` (`images/rgbd_tiff.pyx:80-104`) over the pages and their `Mat`s: `continue` skips the `del` of
an empty one, an exception leaves the loop. -/
def loadLoop (s : State K I G) : List (ℕ × Page) → Except Stop (State K I G × Option PyErr)
  | [] => .ok (s, none)
  | (_, .missing) :: rest => loadLoop s rest
  | (_, .bad e) :: _ => .ok (s, some e)
  | (a, .good) :: rest => do
    let s ← s.free a
    loadLoop s rest

/-- `rgbd_tiff.load` (`images/rgbd_tiff.pyx:66-111`) of a file with pages `rgb`, `depth`, `category` and `inst`;
`thrown` is the exception of `readRgbdTiff` (declared with `except +`, `images/rgbd_tiff.pyx:38-39`). -/
def tiffLoad (s : State K I G) (thrown : Option PyErr) (rgb depth category inst : Page) :
    Except Stop (State K I G × Option PyErr) :=
  let n := s.heap.length
  let s := newMats s 4
  match thrown with
  | some e => .ok (s, some e)
  | none => do
    let (s, e) ← loadLoop s [(n, rgb), (n + 1, depth), (n + 2, category), (n + 3, inst)]
    match e with
    | some e => pure (s, some e)
    | none => pure (s, if depth = .missing then some .keyError else none)

/-- An image given to `rgbd_tiff.save`: the page it is for, and what the conversion does: a `Mat`, an exception, or NULL (an
exception lost in `matXY_from_array`, see `Model/InverseDepth`). -/
inductive Source
  | mat
  | raises (e : PyErr)
  | null
  deriving DecidableEq

/-- The first loop of `rgbd_tiff.save` (`images/rgbd_tiff.pyx:133-154`); `map` is `page_map`, whose entries are overwritten. -/
def saveLoop (s : State K I G) (map : List (ℕ × Option ℕ)) :
    List (ℕ × Source) → State K I G × Except PyErr (List (ℕ × Option ℕ))
  | [] => (s, .ok map)
  | (k, .mat) :: rest => saveLoop (s.alloc .mat) (map.filter (fun e => e.1 ≠ k) ++ [(k, some s.heap.length)]) rest
  | (k, .null) :: rest => saveLoop s (map.filter (fun e => e.1 ≠ k) ++ [(k, none)]) rest
  | (_, .raises e) :: _ => (s, .error e)

/-- `rgbd_tiff.save` (`images/rgbd_tiff.pyx:120-165`) after `_validate`: the images as (page, source), `InverseDepth`
being the page of depth and of inverse depth; `writeRgbdTiff` follows every pointer, and
`thrown` is its exception. -/
def tiffSave (s : State K I G) (thrown : Option PyErr) (images : List (ℕ × Source)) :
    Except Stop (State K I G × Option PyErr) :=
  match saveLoop s [] images with
  | (s, .error e) => .ok (s, some e)
  | (s, .ok map) =>
    if map.any (fun e => e.2.isNone) then .error (.crash .null)
    else match thrown with
      | some e => .ok (s, some e)
      | none => do
        let s ← freeAll s (map.filterMap (·.2))
        pure (s, none)

/-- `y = x.create_point_cloud()` of an `Rgbdci360` (`images/rgbdci_360.pyx:132-157`): `c` is the cloud `createPointCloud` made. -/
def createCloud (s : State K I G) (c : PointCloud K) : Except Stop (State K I G) := do
  let n := s.heap.length
  let s := ((newMats s 2).wrap .cloud (.cloud c))
  let i := s.objs.length - 1
  let s ← freeAll s [n + 1, n]
  pure (s.bindVar i)

/-- What a program does.  Variables are numbered in the order in which they are bound. -/
inductive Op (K I G : Type)
  | construct (x : Value K I G)
  | failed (c : Cls)
  | raw (c : Cls)
  | reinit (v : ℕ) (x : Value K I G)
  | share (v : ℕ)
  | forget (v : ℕ)
  | collect (i : ℕ)
  | read (v : ℕ)
  | merge (v : ℕ) (w : Option ℕ) (n : ℕ)
  | replaceGeometry (v : ℕ) (w : Option ℕ)
  | renumber (v : ℕ) (junkV : Vec3 K) (junkUv : K × K) (n : ℕ) (l : List ℕ)
  | append (v : ℕ) (w : Option ℕ)
  | add (v w : ℕ)
  | addInt (v : ℕ)
  | sum (vs : List ℕ)
  | register (items : List (ℕ × (PointCloud K → Except PyErr (PointCloud K))))
  | deepcopy (v : ℕ)
  | changeModel (v : ℕ) (f : G → G × Option PyErr)
  | addMesh (v w : ℕ)
  | primitiveMeshes (v : ℕ)
  | extractMesh (v j : ℕ)
  | tiffLoad (thrown : Option PyErr) (rgb depth category inst : Page)
  | tiffSave (thrown : Option PyErr) (images : List (ℕ × Source))
  | createCloud (c : PointCloud K)

/-- The effect of one call, with the exception for the calls that change the state before they raise one. -/
def exec (lib : Lib K I G) (s : State K I G) : Op K I G → Except Stop (State K I G × Option PyErr)
  | .construct x => do let s ← construct s x; pure (s, none)
  -- A constructor that raises: the object exists, with a NULL pointer, and is dropped.
  | .failed c => .ok (s.push ⟨c, none, false⟩, some .assertionError)
  | .raw c => .ok (raw s c, none)
  | .reinit v x => do let s ← reinit s v x; pure (s, none)
  | .share v => do
    let (i, _) ← s.lookup v
    pure (s.bindVar i, none)
  | .forget v => do
    let _ ← s.lookup v
    pure ({ s with vars := s.vars.set v none }, none)
  | .collect i => do let s ← collect s i; pure (s, none)
  | .read v => do let s ← read s v; pure (s, none)
  | .merge v w n => do let s ← merge s v w n; pure (s, none)
  | .replaceGeometry v w => do let s ← replaceGeometry s v w; pure (s, none)
  | .renumber v jv ju n l => do let s ← renumber s v jv ju n l; pure (s, none)
  | .append v w => do let s ← append s v w; pure (s, none)
  | .add v w => do
    let (_, o) ← s.lookup v
    let (_, p) ← s.lookup w
    let s' ← mergeClouds s o p
    pure (s'.bindVar s.objs.length, none)
  | .addInt v => do
    let (i, o) ← s.lookup v
    if o.cls = .cloud then pure (s.bindVar i, none) else .error (.raise .typeError)
  | .sum vs => do let s ← sum s vs; pure (s, none)
  | .register items => do let s ← register s items; pure (s, none)
  | .deepcopy v => do let s ← deepcopy s v; pure (s, none)
  | .changeModel v f => changeModel s v f
  | .addMesh v w => do let s ← addMesh lib s v w; pure (s, none)
  | .primitiveMeshes v => primitiveMeshes lib s v
  | .extractMesh v j => extractMesh lib s v j
  | .tiffLoad t a b c d => tiffLoad s t a b c d
  | .tiffSave t l => tiffSave s t l
  | .createCloud c => do let s ← createCloud s c; pure (s, none)

/-- One call of a program: the program goes on after an exception. -/
def step (lib : Lib K I G) (s : State K I G) (op : Op K I G) : Except Crash (State K I G × Option PyErr) :=
  match exec lib s op with
  | .ok r => .ok r
  | .error (.raise e) => .ok (s, some e)
  | .error (.crash c) => .error c

/-- A program: the final state and the exceptions of the calls. -/
def run (lib : Lib K I G) (s : State K I G) : List (Op K I G) → Except Crash (State K I G × List (Option PyErr))
  | [] => .ok (s, [])
  | op :: ops => do
    let (s, e) ← step lib s op
    let (s, es) ← run lib s ops
    pure (s, e :: es)

end Sumo.Objects
