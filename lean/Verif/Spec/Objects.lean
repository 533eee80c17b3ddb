import Verif.Model.Objects

/-!
# What programs with meshes, clouds and models should see

A world without addresses: every Python object holds a value, a call changes the value of the object it is called on or makes
a new object, and nothing else.  Only the operations (`Op`) and the value types are shared with the model.
-/

namespace Sumo.Objects

variable {K I G : Type}

/-- The exception of a page that is refused. -/
def Page.error? : Page → Option PyErr
  | .bad e => some e
  | _ => none

/-- The exception of an image that cannot be converted. -/
def Source.error? : Source → Option PyErr
  | .raises e => some e
  | _ => none

/-- The objects, with class and value (`none`: `__init__` never ran), and the variables. -/
structure World (K I G : Type) where
  vals : List (Cls × Option (Value K I G))
  vars : List (Option ℕ)

namespace World

/-- A new object. -/
def push (w : World K I G) (c : Cls) (x : Option (Value K I G)) : World K I G := { w with vals := w.vals ++ [(c, x)] }

/-- A new variable. -/
def bindVar (w : World K I G) (i : ℕ) : World K I G := { w with vars := w.vars ++ [some i] }

/-- A new object with a new variable. -/
def fresh (w : World K I G) (c : Cls) (x : Option (Value K I G)) : World K I G := (w.push c x).bindVar w.vals.length

/-- Object `i` has value `x` from now on. -/
def setVal (w : World K I G) (i : ℕ) (c : Cls) (x : Value K I G) : World K I G := { w with vals := w.vals.set i (c, some x) }

/-- The object of a variable. -/
def lookup (w : World K I G) (v : ℕ) : Except PyErr (ℕ × Cls × Option (Value K I G)) :=
  match w.vars[v]? with
  | some (some i) =>
    match w.vals[i]? with
    | some p => .ok (i, p)
    | none => .error .unboundLocalError
  | _ => .error .unboundLocalError

/-- The value of an argument that must have one of some classes. -/
def argument (w : World K I G) (ok : List Cls) : Option ℕ → Except PyErr (Option (Value K I G))
  | none => .ok none
  | some v => do
    let (_, c, x) ← w.lookup v
    if c ∈ ok then pure x else .error .typeError

/-- The geometry of one mesh with the material of another. -/
def geometry (m m2 : Mesh K) : Mesh K :=
  { m with indices := m2.indices, vertices := m2.vertices, normals := if m2.vertices.length > 0 then m2.normals else [] }

/-- `x.merge(y, n)`. -/
def merge (w : World K I G) (v : ℕ) (u : Option ℕ) (n : ℕ) : Except PyErr (World K I G) := do
  let (i, c, x) ← w.lookup v
  match c with
  | .mesh => do
    let y ← w.argument [.mesh, .textured] u
    match x, y with
    | some (.mesh m), some (.mesh m2) => pure (w.setVal i .mesh (.mesh (m.merge m2 n)))
    | some (.mesh m), some (.textured m2) => pure (w.setVal i .mesh (.mesh (m.merge m2.toMesh n)))
    | _, _ => .error .undefined
  | .textured => do
    let y ← w.argument [.textured] u
    match x, y with
    | some (.textured m), some (.textured m2) =>
      match m.merge m2 n with
      | some r => pure (w.setVal i .textured (.textured r))
      | none => .error .undefined
    | _, _ => .error .undefined
  | _ => .error .attributeError

/-- `x.replace_geometry(y)`: `x` has the geometry of `y`. -/
def replaceGeometry (w : World K I G) (v : ℕ) (u : Option ℕ) : Except PyErr (World K I G) := do
  let (i, c, x) ← w.lookup v
  match c with
  | .mesh => do
    let y ← w.argument [.mesh, .textured] u
    match x, y with
    | some (.mesh m), some (.mesh m2) => pure (w.setVal i .mesh (.mesh (geometry m m2)))
    | some (.mesh m), some (.textured m2) => pure (w.setVal i .mesh (.mesh (geometry m m2.toMesh)))
    | _, _ => .error .undefined
  | .textured => do
    let y ← w.argument [.textured] u
    match x, y with
    | some (.textured m), some (.textured m2) =>
      pure (w.setVal i .textured (.textured { m with
        toMesh := geometry m.toMesh m2.toMesh, uvCoords := if m2.vertices.length > 0 then m2.uvCoords else [] }))
    | _, _ => .error .undefined
  | _ => .error .attributeError

/-- `x.append(y)`. -/
def append (w : World K I G) (v : ℕ) (u : Option ℕ) : Except PyErr (World K I G) := do
  let (i, c, x) ← w.lookup v
  if c = .cloud then do
    let y ← w.argument [.cloud] u
    match x, y with
    | some (.cloud c), some (.cloud d) => pure (w.setVal i .cloud (.cloud ⟨c.points ++ d.points, c.colors ++ d.colors⟩))
    | _, _ => .error .undefined
  else .error .attributeError

/-- The value of the sum of two objects. -/
def addValues (c d : Cls) (x y : Option (Value K I G)) : Except PyErr (PointCloud K) :=
  if c ≠ .cloud then .error .attributeError
  else match x with
    | some (.cloud a) =>
      if d ≠ .cloud then .error (if a.colors = [] then .typeError else .attributeError)
      else match y with
        | some (.cloud b) =>
          if a.colors ≠ [] ∧ b.colors = [] then .error .valueError
          else .ok ⟨a.points ++ b.points, a.colors ++ b.colors⟩
        | _ => .error .undefined
    | _ => .error .undefined

/-- The sum of a cloud and the clouds of some variables; the intermediate results are objects too. -/
def sumLoop (w : World K I G) (c : Cls) (x : Option (Value K I G)) : List ℕ → Except PyErr (World K I G)
  | [] => .ok w
  | v :: vs => do
    let (_, d, y) ← w.lookup v
    let r ← addValues c d x y
    sumLoop (w.push .cloud (some (.cloud r))) .cloud (some (.cloud r)) vs

/-- `y = sum(xs)`: a new object (the last one). -/
def sum (w : World K I G) : List ℕ → Except PyErr (World K I G)
  | [] => .ok w
  | v :: vs => do
    let (_, c, x) ← w.lookup v
    if c = .cloud then
      match vs with
      | [] => pure (w.fresh c x)
      | _ => do
        let w' ← sumLoop w c x vs
        pure (w'.bindVar (w'.vals.length - 1))
    else .error .typeError

/-- The transformed clouds of `register`, as objects and as values. -/
def registerLoop (w : World K I G) : List (ℕ × (PointCloud K → Except PyErr (PointCloud K))) →
    Except PyErr (World K I G × List (PointCloud K))
  | [] => .ok (w, [])
  | (v, f) :: rest => do
    let (_, c, x) ← w.lookup v
    if c ≠ .cloud then .error .attributeError
    match x with
    | some (.cloud c) => do
      let d ← f c
      let (w', ds) ← registerLoop (w.push .cloud (some (.cloud d))) rest
      pure (w', d :: ds)
    | _ => .error .undefined

/-- What a program does in this world, with the exception for calls that raise after a change.  `undefined` stands for calls
for which the C++ code has no defined behaviour. -/
def exec (lib : Lib K I G) (w : World K I G) : Op K I G → Except PyErr (World K I G × Option PyErr)
  | .construct x =>
    match x.cls with
    | some c => .ok (w.fresh c (some x), none)
    | none => .error .attributeError
  | .failed c => .ok (w.push c none, some .assertionError)
  | .raw .quaternion => .ok (w.fresh .quaternion (some .quaternion), none)
  | .raw c => .ok (w.fresh c none, none)
  | .reinit v x => do
    let (i, c, _) ← w.lookup v
    match x with
    | .quaternion => pure (w, none)
    | x => if x.cls = some c then pure (w.setVal i c x, none) else .error .typeError
  | .share v => do
    let (i, _) ← w.lookup v
    pure (w.bindVar i, none)
  | .forget v => do
    let _ ← w.lookup v
    pure ({ w with vars := w.vars.set v none }, none)
  | .collect _ => .ok (w, none)
  | .read v => do
    let (_, _, x) ← w.lookup v
    match x with
    | some _ => pure (w, none)
    | none => .error .undefined
  | .merge v u n => do let w ← merge w v u n; pure (w, none)
  | .replaceGeometry v u => do let w ← replaceGeometry w v u; pure (w, none)
  | .renumber v jv ju n l => do
    let (i, c, x) ← w.lookup v
    if c = .textured then
      match x with
      | some (.textured m) =>
        match m.renumber jv ju n l with
        | some r => pure (w.setVal i .textured (.textured r), none)
        | none => .error .undefined
      | _ => .error .undefined
    else .error .attributeError
  | .append v u => do let w ← append w v u; pure (w, none)
  | .add v u => do
    let (_, c, x) ← w.lookup v
    let (_, d, y) ← w.lookup u
    let r ← addValues c d x y
    pure (w.fresh .cloud (some (.cloud r)), none)
  | .addInt v => do
    let (i, c, _) ← w.lookup v
    if c = .cloud then pure (w.bindVar i, none) else .error .typeError
  | .sum vs => do let w ← sum w vs; pure (w, none)
  | .register items => do
    let (w, ds) ← registerLoop w items
    let c : PointCloud K := ⟨ds.flatMap (·.points), ds.flatMap (·.colors)⟩
    if c.colors = [] ∨ c.colors.length = c.points.length then pure (w.fresh .cloud (some (.cloud c)), none)
    else .error .undefined
  | .deepcopy v => do
    let (_, c, x) ← w.lookup v
    if c = .gltf then
      match x with
      | some x => pure (w.fresh c (some x), none)
      | none => .error .undefined
    else .error .attributeError
  | .changeModel v f => do
    let (i, c, x) ← w.lookup v
    if c = .gltf then
      match x with
      | some (.gltf g) => pure (w.setVal i .gltf (.gltf (f g).1), (f g).2)
      | _ => .error .undefined
    else .error .attributeError
  | .addMesh v u => do
    let (i, c, x) ← w.lookup v
    if c = .gltf then do
      let (_, d, y) ← w.lookup u
      if d = .mesh ∨ d = .textured then
        match x, y with
        | some (.gltf g), some (.mesh m) =>
          match lib.addMesh g m with
          | some g' => pure (w.setVal i .gltf (.gltf g'), none)
          | none => .error .undefined
        | some (.gltf g), some (.textured m) =>
          match lib.addTextured g m with
          | some g' => pure (w.setVal i .gltf (.gltf g'), none)
          | none => .error .undefined
        | _, _ => .error .undefined
      else .error .valueError
    else .error .attributeError
  | .primitiveMeshes v => do
    let (_, c, x) ← w.lookup v
    if c = .gltf then
      match x with
      | some (.gltf g) =>
        match (lib.meshes g).2 with
        | some e => .error e
        | none =>
          let ms := (lib.meshes g).1
          pure (⟨w.vals ++ ms.map (fun m => match m with
              | .inl m => (.mesh, some (.mesh m))
              | .inr m => (.textured, some (.textured m))),
            w.vars ++ (List.range' w.vals.length ms.length).map some⟩, none)
      | _ => .error .undefined
    else .error .attributeError
  | .extractMesh v j => do
    let (_, c, x) ← w.lookup v
    if c = .gltf then
      match x with
      | some (.gltf g) =>
        match (lib.meshes g).2 with
        | some e => .error e
        | none =>
          let ms := (lib.meshes g).1
          let w' : World K I G := ⟨w.vals ++ ms.map (fun m => match m with
              | .inl m => (.mesh, some (.mesh m))
              | .inr m => (.textured, some (.textured m))), w.vars⟩
          if j < ms.length then pure (w'.bindVar (w.vals.length + j), none) else pure (w', some .indexError)
      | _ => .error .undefined
    else .error .attributeError
  | .tiffLoad (some e) _ _ _ _ => .error e
  | .tiffLoad none a b c d => .ok (w, ([a, b, c, d].findSome? Page.error?).or
      (if b = .missing then some .keyError else none))
  | .tiffSave t l => .ok (w, (l.findSome? fun p => p.2.error?).or t)
  | .createCloud c => .ok (w.fresh .cloud (some (.cloud c)), none)

/-- Not a call that merges, appends or replaces the geometry of an object with that object itself, nor the `sum` of a single
cloud, nor a call of `save` with an image whose conversion loses an exception. -/
def Proper (w : World K I G) : Op K I G → Prop
  | .merge v (some u) _ => ∀ i, w.vars[v]? = some (some i) → w.vars[u]? ≠ some (some i)
  | .append v (some u) => ∀ i, w.vars[v]? = some (some i) → w.vars[u]? ≠ some (some i)
  | .replaceGeometry v (some u) => ∀ i, w.vars[v]? = some (some i) → w.vars[u]? ≠ some (some i)
  | .sum vs => vs.length ≠ 1
  | .tiffSave _ l => ∀ p ∈ l, p.2 ≠ .null
  | _ => True

/-- One call; the program goes on after an exception. -/
def step (lib : Lib K I G) (w : World K I G) (op : Op K I G) : World K I G × Option PyErr :=
  match exec lib w op with
  | .ok r => r
  | .error e => (w, some e)

/-- A program. -/
def run (lib : Lib K I G) (w : World K I G) : List (Op K I G) → World K I G × List (Option PyErr)
  | [] => (w, [])
  | op :: ops => ((run lib (step lib w op).1 ops).1, (step lib w op).2 :: (run lib (step lib w op).1 ops).2)

/-- No call of the program is one of those. -/
def ProperRun (lib : Lib K I G) (w : World K I G) : List (Op K I G) → Prop
  | [] => True
  | op :: ops => Proper w op ∧ ProperRun lib (step lib w op).1 ops

/-- The empty world. -/
def init : World K I G := ⟨[], []⟩

/-- What a program can observe through a variable: the class of its object, and the value. -/
def see (w : World K I G) (v : ℕ) : Option (Cls × Option (Value K I G)) :=
  match w.vars[v]? with
  | some (some i) => w.vals[i]?
  | _ => none

end World

/-- No object without `__init__`, no `None` for a mesh or cloud, and no image that loses its exception. -/
def Op.NoNull : Op K I G → Prop
  | .raw c => c = .quaternion
  | .merge _ w _ => w ≠ none
  | .replaceGeometry _ w => w ≠ none
  | .append _ w => w ≠ none
  | .tiffSave _ l => ∀ p ∈ l, p.2 ≠ .null
  | _ => True

/-- No quaternion, no second `__init__`, no model from which meshes cannot be extracted, TIFF files loaded only if they have
all four pages and saved only with distinct pages and without an exception. -/
def Op.Tidy (lib : Lib K I G) : Op K I G → Prop
  | .construct x => x ≠ .quaternion
  | .raw c => c ≠ .quaternion
  | .reinit _ x => x = .quaternion
  | .primitiveMeshes _ => ∀ g, (lib.meshes g).2 = none
  | .extractMesh _ _ => ∀ g, (lib.meshes g).2 = none
  | .tiffLoad t a b c d => t = none ∧ a = .good ∧ b = .good ∧ c = .good ∧ d = .good
  | .tiffSave t l => t = none ∧ (l.map (·.1)).Nodup ∧ ∀ p ∈ l, p.2 = .mat
  | _ => True

/-- The variable whose object a call changes, or whose own meaning it changes. -/
def Op.target : Op K I G → Option ℕ
  | .reinit v _ => some v
  | .forget v => some v
  | .merge v _ _ => some v
  | .replaceGeometry v _ => some v
  | .renumber v _ _ _ _ => some v
  | .append v _ => some v
  | .changeModel v _ => some v
  | .addMesh v _ => some v
  | _ => none

/-- A call whose result should be a new object. -/
def Op.Makes : Op K I G → Prop
  | .construct _ | .raw _ | .add _ _ | .sum _ | .register _ | .deepcopy _ | .primitiveMeshes _ | .extractMesh _ _
  | .createCloud _ => True
  | _ => False

/-- What a program can observe through a variable in the model: the class of its object, and the C++ object. -/
def State.see (s : State K I G) (v : ℕ) : Option (Cls × Option (Value K I G)) :=
  match s.vars[v]? with
  | some (some i) =>
    match s.objs[i]? with
    | some o => some (o.cls, o.ptr.bind fun a => (s.heap[a]?).bind id)
    | none => none
  | _ => none

/-- A C++ object that is allocated, and that no Python object points to: nothing will ever free it. -/
def Leaked (s : State K I G) (a : ℕ) : Prop :=
  (∃ x, s.heap[a]? = some (some x)) ∧ ∀ (i : ℕ) (o : Obj), s.objs[i]? = some o → o.collected = false → o.ptr ≠ some a

/-- A C++ object that is allocated. -/
def Allocated (s : State K I G) (a : ℕ) : Prop := ∃ x, s.heap[a]? = some (some x)

end Sumo.Objects
