import Verif.Lemmas.ObjectsHist
import Mathlib.Tactic.NormNum

/-!
# C127 - C130: Python objects and the C++ objects they own

`run lib init ops` is any program: a list of calls, each on variables bound by earlier calls, going on after exceptions.
-/

namespace Sumo.Objects

variable {K I G : Type}

/-- C127, memory.  No program reads, changes or frees a C++ object that is freed already, or uses one as an object of another class;
and a program that makes no object without `__init__`, passes no `None` for a mesh or cloud and saves no image whose conversion
loses its exception follows no NULL pointer. -/
theorem C127_safe (lib : Lib K I G) (ops : List (Op K I G)) {k : Crash} (h : run lib init ops = .error k) :
    k ≠ .freed ∧ k ≠ .badCast ∧ ((∀ op ∈ ops, op.NoNull) → k ≠ .null) := by
  obtain ⟨h1, h2, -⟩ := run_crash (b := False) (c := False) lib ops init_inv False.elim False.elim h
  exact ⟨h1, h2, fun hn => (run_crash (b := True) (c := False) lib ops init_inv (fun _ => hn) False.elim h).2.2 trivial⟩

/-- C127, ownership.  After any program the object of every variable is not freed, its pointer is NULL or leads to an allocated
C++ object of its class, and the objects of two variables have different C++ objects unless they are the same object. -/
theorem C127_held (lib : Lib K I G) (ops : List (Op K I G)) {s : State K I G} {es : List (Option PyErr)}
    (h : run lib init ops = .ok (s, es)) :
    (∀ v i : ℕ, s.vars[v]? = some (some i) → ∃ o : Obj, s.objs[i]? = some o ∧ o.collected = false ∧
      (o.ptr = none ∨ ∃ a x, o.ptr = some a ∧ s.heap[a]? = some (some x) ∧ x.cls = some o.cls)) ∧
    ∀ (v u i j : ℕ) (o p : Obj), s.vars[v]? = some (some i) → s.vars[u]? = some (some j) → i ≠ j →
      s.objs[i]? = some o → s.objs[j]? = some p → o.ptr ≠ none → o.ptr ≠ p.ptr := by
  have hr := (run_inv (b := False) (c := False) lib ops init_inv False.elim False.elim h).rel
  refine ⟨fun v i hv => ?_, fun v u i j o p hv hu hij ho hp hn he => ?_⟩
  · obtain ⟨o, ho, hc, -⟩ := hr.live v i hv
    obtain ⟨x, -, hx⟩ := hr.val i o ho
    refine ⟨o, ho, hc, ?_⟩
    rcases pointer_cases (hx hc) with ⟨hn, -, -⟩ | ⟨a, y, hp, -, hy, -, hk⟩
    · exact Or.inl hn
    · exact Or.inr ⟨a, y, hp, hy, hk⟩
  · obtain ⟨a, ha⟩ := Option.ne_none_iff_exists'.mp hn
    obtain ⟨o', ho', hc, -⟩ := hr.live v i hv
    obtain ⟨p', hp', hc', -⟩ := hr.live u j hu
    rw [ho] at ho'; cases ho'
    rw [hp] at hp'; cases hp'
    exact hij (hr.inj i j o p a ho hp hc hc' ha (by rw [← he]; exact ha))

/-- C128 in part: no memory is lost.  What is missing: `Op.Tidy` leaves out quaternions, a second `__init__`, models from which meshes
cannot be extracted, TIFF files without all four pages, and saving with an exception or with two images for a page
(`C128_false_*`).  After any other program every C++ object that is allocated belongs to a Python object that is not freed. -/
theorem C128_partial (lib : Lib K I G) (ops : List (Op K I G)) (ht : ∀ op ∈ ops, op.Tidy lib) {s : State K I G}
    {es : List (Option PyErr)} (h : run lib init ops = .ok (s, es)) (a : ℕ) : ¬ Leaked s a := by
  rintro ⟨⟨x, hx⟩, hn⟩
  obtain ⟨i, o, h1, h2, h3⟩ := (run_inv (b := False) (c := True) lib ops init_inv False.elim (fun _ => ht) h).own trivial a x hx
  exact hn i o h1 h2 h3

/-- C128 in part, the end of a program: once no variable refers to an object, freeing the objects frees every C++ object
(same programs as in `C128_partial`). -/
theorem C128_end_partial (lib : Lib K I G) (ops : List (Op K I G)) (ht : ∀ op ∈ ops, op.Tidy lib) {s : State K I G}
    {es : List (Option PyErr)} (h : run lib init ops = .ok (s, es)) (hv : ∀ v i : ℕ, s.vars[v]? ≠ some (some i)) :
    ∃ t fs, run lib s ((List.range s.objs.length).map .collect) = .ok (t, fs) ∧ ∀ a, ¬ Allocated t a := by
  have hi := run_inv (b := False) (c := True) lib ops init_inv False.elim (fun _ => ht) h
  obtain ⟨t, fs, h1, h2, h3, h4, h5⟩ := collect_all lib s.objs.length hi hv
  refine ⟨t, fs, h1, fun a ⟨x, hx⟩ => ?_⟩
  obtain ⟨i, o, ho, hc, -⟩ := h2.own trivial a x hx
  have := h5 i o ho hc
  have := getElem?_some_lt ho
  omega

/-- C129 in part: a program sees the same exceptions and the same values through its variables as in a world without pointers
(`Spec/Objects`).  What is missing: the calls that `ProperRun` leaves out (`C129_false_*`). -/
theorem C129_partial (lib : Lib K I G) (ops : List (Op K I G)) (hp : World.init.ProperRun lib ops) {s : State K I G}
    {es : List (Option PyErr)} (h : run lib init ops = .ok (s, es)) :
    es = (World.init.run lib ops).2 ∧ ∀ v, s.see v = (World.init.run lib ops).1.see v := by
  obtain ⟨h1, h2⟩ := run_proper lib ops init_inv hp h
  exact ⟨h2, fun v => see_eq h1.rel v⟩

/-- C129 in part: such a program does end, with these exceptions and values, if none of its calls is undefined in that world. -/
theorem C129_ends_partial (lib : Lib K I G) (ops : List (Op K I G)) (hp : World.init.ProperRun lib ops)
    (hu : ∀ e ∈ (World.init.run lib ops).2, e ≠ some .undefined) :
    ∃ s, run lib init ops = .ok (s, (World.init.run lib ops).2) ∧ ∀ v, s.see v = (World.init.run lib ops).1.see v := by
  obtain ⟨⟨s, es⟩, hr⟩ := run_ends lib ops init_inv hp hu
  obtain ⟨h1, h2⟩ := C129_partial lib ops hp hr
  exact ⟨s, by rw [← h1]; exact hr, h2⟩

/-- C130, no other object changes: whatever a call does, every variable that does not refer to the object it is called on shows the
same object with the same value after it. -/
theorem C130_others (lib : Lib K I G) (ops : List (Op K I G)) {s t : State K I G} {es : List (Option PyErr)}
    (h : run lib init ops = .ok (s, es)) (op : Op K I G) {e : Option PyErr} (hs : step lib s op = .ok (t, e)) (v i : ℕ)
    (hv : s.vars[v]? = some (some i)) (hn : ∀ u, op.target = some u → s.vars[u]? ≠ some (some i)) :
    t.vars[v]? = some (some i) ∧ t.see v = s.see v := by
  have hi := run_inv (b := False) (c := False) lib ops init_inv False.elim False.elim h
  obtain ⟨h1, -⟩ := step_ok lib hi op False.elim False.elim hs
  have hlen : i < ((World.init : World K I G).runReal lib ops).vals.length := by
    obtain ⟨o, ho, -⟩ := hi.rel.live v i hv
    rw [← hi.rel.len]
    exact getElem?_some_lt ho
  have hf : Frame op.target (World.init.runReal lib ops) ((World.init.runReal lib ops).stepReal lib op).1 := by
    unfold World.stepReal
    cases hx : (World.init.runReal lib ops).execReal lib op with
    | ok r => exact execReal_frame lib op hx
    | error e => exact (Ext.refl _).frame _
  obtain ⟨h2, h3⟩ := hf v i (by rw [← hi.rel.vars]; exact hv) hlen (fun u hu => by rw [← hi.rel.vars]; exact hn u hu)
  refine ⟨by rw [h1.rel.vars]; exact h2, ?_⟩
  rw [see_eq h1.rel, see_eq hi.rel]
  unfold World.see
  rw [h2, ← hi.rel.vars, hv]
  exact h3

/-- C130 in part: the results of constructors, sums, `register`, `deepcopy`, mesh extraction and `create_point_cloud` are new objects,
different from every object the program had and from each other.  What is missing: the sum of a single cloud (`C130_false`). -/
theorem C130_new_partial (lib : Lib K I G) (ops : List (Op K I G)) {s t : State K I G} {es : List (Option PyErr)}
    (h : run lib init ops = .ok (s, es)) (op : Op K I G) (hm : op.Makes) (h1 : ∀ v, op ≠ .sum [v])
    {e : Option PyErr} (hs : step lib s op = .ok (t, e)) :
    (∀ v i u : ℕ, s.vars.length ≤ v → t.vars[v]? = some (some i) → s.vars[u]? ≠ some (some i)) ∧
    ∀ v u i : ℕ, s.vars.length ≤ v → s.vars.length ≤ u → t.vars[v]? = some (some i) → t.vars[u]? = some (some i) → v = u := by
  have hi := run_inv (b := False) (c := False) lib ops init_inv False.elim False.elim h
  obtain ⟨h2, -⟩ := step_ok lib hi op False.elim False.elim hs
  have hp : (World.init.runReal lib ops).Proper op := by
    cases op <;> try trivial
    case sum vs =>
      intro hl
      obtain ⟨v, rfl⟩ := List.length_eq_one_iff.mp hl
      exact h1 v rfl
  have hnew : New (World.init.runReal lib ops) ((World.init.runReal lib ops).stepReal lib op).1 := by
    unfold World.stepReal
    rw [World.execReal_proper lib op hp]
    cases hx : (World.init.runReal lib ops).exec lib op with
    | ok r => exact exec_new lib op hm hx
    | error e => exact no_new rfl
  unfold New at hnew
  rw [← hi.rel.vars, ← h2.rel.vars, ← hi.rel.len] at hnew
  refine ⟨fun v i u hle hv hu => ?_, hnew.2⟩
  have := hnew.1 v i hle hv
  obtain ⟨o, ho, -⟩ := hi.rel.live u i hu
  have := getElem?_some_lt ho
  omega

/-! ### Where it fails, and that the theorems speak about something -/

/-- For the examples: a model is the list of its meshes. -/
def demo : Lib ℤ ℕ (List (Mesh ℤ ⊕ TexturedMesh ℤ ℕ)) where
  addMesh g m := some (g ++ [.inl m])
  addTextured g m := some (g ++ [.inr m])
  meshes g := (g, none)

/-- For the examples: a model without extractable meshes. -/
def demoBad : Lib ℤ ℕ (List (Mesh ℤ ⊕ TexturedMesh ℤ ℕ)) := { demo with meshes := fun g => (g, some .runtimeError) }

/-- A triangle. -/
def triangle : Mesh ℤ := ⟨[0, 1, 2], [⟨0, 0, 0⟩, ⟨1, 0, 0⟩, ⟨0, 1, 0⟩], [⟨0, 0, 1⟩, ⟨0, 0, 1⟩, ⟨0, 0, 1⟩], .empty⟩

/-- A textured triangle. -/
def texturedTriangle : TexturedMesh ℤ ℕ := ⟨triangle, [(0, 0), (1, 0), (0, 1)], 7, 8⟩

/-- A cloud of one point. -/
def point (x : ℤ) : PointCloud ℤ := ⟨[⟨x, 0, 0⟩], []⟩

/-- The values and exceptions a program ends with, seen through variables. -/
def outcome (lib : Lib ℤ ℕ (List (Mesh ℤ ⊕ TexturedMesh ℤ ℕ))) (ops : List (Op ℤ ℕ (List (Mesh ℤ ⊕ TexturedMesh ℤ ℕ)))) :
    Option (List (Option PyErr) × ℕ × ℕ) :=
  match run lib init ops with
  | .ok (s, es) => some (es, s.vars.length, (s.heap.filter (fun x => x.isSome)).length)
  | .error _ => none

/-- A program with all classes, an alias, exceptions, deleted variables and freed objects. -/
def program : List (Op ℤ ℕ (List (Mesh ℤ ⊕ TexturedMesh ℤ ℕ))) :=
  [.construct (.mesh triangle), .construct (.textured texturedTriangle), .merge 0 (some 1) 1, .merge 1 (some 0) 0,
    .construct (.gltf []), .addMesh 2 0, .addMesh 2 1, .primitiveMeshes 2, .share 3, .forget 3, .collect 3, .extractMesh 2 5,
    .createCloud (point 1), .sum [6, 6], .forget 0, .collect 0, .read 5, .tiffLoad none .good .good .good .good,
    .tiffSave none [(0, .mat), (1, .mat)]]

-- In the end there are eight variables, and eight C++ objects (two of them of meshes that `extract_primitive_mesh` dropped).
example : outcome demo program =
    some ([none, none, none, some .typeError, none, none, none, none, none, none, none, some .indexError, none, none, none,
      none, none, none, none], 8, 8) := by
  decide +kernel

-- It meets the hypotheses of `C127_safe`, `C128_partial`, `C129_partial` and `C129_ends_partial`.
example : ∀ op ∈ program, op.NoNull ∧ op.Tidy demo := by
  simp [program, Op.NoNull, Op.Tidy, demo]
  constructor <;> (rintro a b (⟨-, rfl⟩ | ⟨-, rfl⟩) <;> simp)

example : World.init.ProperRun demo program ∧ ∀ e ∈ (World.init.run demo program).2, e ≠ some .undefined := by
  refine ⟨?_, by decide +kernel⟩
  simp only [program, World.ProperRun, World.Proper, and_true, true_and]
  refine ⟨?_, ?_, ?_⟩
  · intro i hi hj
    have h1 : some i = some 0 := Option.some_inj.mp (hi.symm.trans (by decide +kernel))
    have h2 : some i = some 1 := Option.some_inj.mp (hj.symm.trans (by decide +kernel))
    cases h1; cases h2
  · intro i hi hj
    have h1 : some i = some 1 := Option.some_inj.mp (hi.symm.trans (by decide +kernel))
    have h2 : some i = some 0 := Option.some_inj.mp (hj.symm.trans (by decide +kernel))
    cases h1; cases h2
  · simp

-- A program at whose end no variable is left (`C128_end_partial`): the mesh is freed by the last step.
example : ∃ s es, run demo init [.construct (.mesh triangle), .forget 0] = .ok (s, es) ∧
    (∀ v i : ℕ, s.vars[v]? ≠ some (some i)) ∧ Allocated s 0 := by
  refine ⟨_, _, rfl, ?_, ⟨_, rfl⟩⟩
  intro v i
  rcases v with _ | v <;> simp [State.bindVar, State.wrap, State.alloc, State.push, init]

-- `C130_others`, `C130_new_partial`: a copy of a model, and a mesh added to the original.
example : ∃ s es t, run demo init [.construct (.mesh triangle), .construct (.gltf []), .deepcopy 1] = .ok (s, es) ∧
    s.vars[2]? = some (some 2) ∧ (Op.deepcopy 1 : Op ℤ ℕ (List (Mesh ℤ ⊕ TexturedMesh ℤ ℕ))).Makes ∧
    step demo s (.addMesh 1 0) = .ok (t, none) ∧ t.see 1 = some (.gltf, some (.gltf [.inl triangle])) ∧
    t.see 2 = some (.gltf, some (.gltf [])) :=
  ⟨_, _, _, rfl, rfl, trivial, rfl, rfl, rfl⟩

/-- C127, what the second part leaves out: `None` for a mesh is a NULL pointer. -/
theorem C127_none : run demo init [.construct (.mesh triangle), .merge 0 none 0] = .error .null := by
  rfl

/-- C128 is false: a quaternion is never freed.  It is made, its variable deleted, and the object freed: its C++ object
stays. -/
theorem C128_false_quaternion : ∃ s es, run demo init [.construct .quaternion, .forget 0, .collect 0] = .ok (s, es) ∧
    Leaked s 0 := by
  refine ⟨_, _, rfl, ⟨_, rfl⟩, ?_⟩
  intro i o ho hc
  rcases i with _ | i
  · cases ho; cases hc
  · cases ho

/-- C128 is false: `__init__` called again loses the first C++ object. -/
theorem C128_false_init : ∃ s es, run demo init [.construct (.mesh triangle), .reinit 0 (.mesh triangle)] = .ok (s, es) ∧
    Leaked s 0 := by
  refine ⟨_, _, rfl, ⟨_, rfl⟩, ?_⟩
  intro i o ho hc
  rcases i with _ | i
  · cases ho; simp [init, State.wrap, State.alloc, State.push, State.bindVar]
  · cases ho

/-- C128 is false: if meshes cannot be extracted from a model, those made before the exception are lost. -/
theorem C128_false_extract : ∃ s es, run demoBad init [.construct (.gltf [.inl triangle]), .primitiveMeshes 0] = .ok (s, es) ∧
    es = [none, some .runtimeError] ∧ Leaked s 1 := by
  refine ⟨_, _, rfl, rfl, ⟨_, rfl⟩, ?_⟩
  intro i o ho hc
  rcases i with _ | i
  · cases ho; simp [init]
  · cases ho

/-- C128 is false: saving a TIFF file with two images for the page of (inverse) depth loses the first. -/
theorem C128_false_save : ∃ s es, run demo init [.tiffSave none [(1, .mat), (1, .mat)]] = .ok (s, es) ∧ Leaked s 0 := by
  refine ⟨_, _, rfl, ⟨_, rfl⟩, ?_⟩
  intro i o ho hc
  cases ho

/-- C128 is false, in every state: loading a TIFF file loses the image header of every page that the file does not have. -/
theorem C128_false_load (lib : Lib K I G) (ops : List (Op K I G)) {s t : State K I G} {es : List (Option PyErr)}
    (h : run lib init ops = .ok (s, es)) (pages : Fin 4 → Page) {e : Option PyErr}
    (hs : step lib s (.tiffLoad none (pages 0) (pages 1) (pages 2) (pages 3)) = .ok (t, e)) (i : Fin 4)
    (hi : pages i = .missing) : Leaked t (s.heap.length + i) := by
  have hr := (run_inv (b := False) (c := False) lib ops init_inv False.elim False.elim h).rel
  obtain ⟨hobj, -, -⟩ := newMats_objs s 4
  simp only [step, exec, tiffLoad] at hs
  cases hl : loadLoop (newMats s 4) [(s.heap.length, pages 0), (s.heap.length + 1, pages 1), (s.heap.length + 2, pages 2),
      (s.heap.length + 3, pages 3)] with
  | error k =>
    rw [hl] at hs
    cases k with
    | crash k => cases hs
    | raise x =>
      exfalso
      -- the loop raises only through its result
      have : ∀ (l : List (ℕ × Page)) (s : State K I G), loadLoop s l ≠ .error (.raise x) := by
        intro l
        induction l with
        | nil => intro s hh; cases hh
        | cons q l ih =>
          intro s hh
          obtain ⟨n, p⟩ := q
          cases p with
          | missing => exact ih s hh
          | bad y => cases hh
          | good =>
            simp only [loadLoop, bind, Except.bind] at hh
            split at hh
            · rename_i y hy
              unfold State.free at hy
              split at hy
              · cases hy
              · cases hy; cases hh
            · exact ih _ hh
      exact this _ _ hl
  | ok r =>
    obtain ⟨u, x⟩ := r
    have ht : t = u := by
      rw [hl] at hs
      simp only [bind, Except.bind] at hs
      cases x <;> (cases hs; rfl)
    subst ht
    obtain ⟨h1, h2⟩ := loadLoop_keep _ hl
    refine ⟨⟨.mat, ?_⟩, ?_⟩
    · rw [h2 (s.heap.length + i) ?_, newMats_new 4 s i i.2]
      intro p hp
      simp only [List.mem_cons, Prod.mk.injEq, List.not_mem_nil, or_false] at hp
      rcases hp with ⟨h3, rfl⟩ | ⟨h3, rfl⟩ | ⟨h3, rfl⟩ | ⟨h3, rfl⟩
      · have : i = 0 := Fin.ext (by simpa using h3)
        rw [← this]; exact hi
      · have : i = 1 := Fin.ext (by simp at h3 ⊢; omega)
        rw [← this]; exact hi
      · have : i = 2 := Fin.ext (by simp at h3 ⊢; omega)
        rw [← this]; exact hi
      · have : i = 3 := Fin.ext (by simp at h3 ⊢; omega)
        rw [← this]; exact hi
    · intro j o ho hc hp
      rw [h1, hobj] at ho
      have := hr.lt ho hc hp
      omega

-- A file with colours and depth only: two headers lost.
example : ∃ s es, run demo init [.tiffLoad none .good .good .missing .missing] = .ok (s, es) ∧ es = [none] ∧
    Leaked s 2 ∧ Leaked s 3 := by
  refine ⟨_, _, rfl, rfl, ⟨⟨_, rfl⟩, ?_⟩, ⟨⟨_, rfl⟩, ?_⟩⟩ <;> (intro i o ho hc; cases ho)

/-- C129 is false: `replace_geometry` of a mesh with itself empties it. -/
theorem C129_false_replace : ∃ s es, run demo init [.construct (.mesh triangle), .replaceGeometry 0 (some 0)] = .ok (s, es) ∧
    s.see 0 = some (.mesh, some (.mesh ⟨[], [], [], .empty⟩)) ∧
    (World.init.run demo [.construct (.mesh triangle), .replaceGeometry 0 (some 0)]).1.see 0 =
      some (.mesh, some (.mesh triangle)) :=
  ⟨_, _, rfl, rfl, rfl⟩

/-- C129 is false: merging a mesh with itself, or appending a cloud to itself, extends a `std::vector` with its own elements. -/
theorem C129_false_merge : run demo init [.construct (.mesh triangle), .merge 0 (some 0) 0] = .error .overlap ∧
    run demo init [.construct (.cloud (point 1)), .append 0 (some 0)] = .error .overlap := by
  constructor <;> rfl

/-- C130 is false: the sum of a single cloud is that cloud.  Appending to the sum changes it. -/
theorem C130_false : ∃ s es, run demo init [.construct (.cloud (point 1)), .construct (.cloud (point 2)), .sum [0],
    .append 2 (some 1)] = .ok (s, es) ∧ s.see 0 = some (.cloud, some (.cloud ⟨[⟨1, 0, 0⟩, ⟨2, 0, 0⟩], []⟩)) :=
  ⟨_, _, rfl, rfl⟩

end Sumo.Objects
