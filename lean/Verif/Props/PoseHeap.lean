import Verif.Lemmas.PoseHeap
import Mathlib.Tactic.Ring
import Mathlib.Tactic.NormNum

/-!
# C120: which rotations and poses share memory
-/

namespace Sumo
namespace PoseHeap

variable {K : Type} [CommRing K]

/-- C120, values of poses.  In every state a program reaches, the pose that `compose`, `inverse`, `Pose3(R, t)` or `FromMatrix34` makes
has the value these functions have by their definition, and no object the program had before changes. -/
theorem C120_pose_values {s : State K} (hs : Reachable s) :
    (∀ i j P Q, s.poseVal i = some P → s.poseVal j = some Q →
      ∃ s', s.step (.compose i j) = some s' ∧ s'.poseVal s.poses.length = some (P.compose Q) ∧ SameValues s s') ∧
    (∀ i P, s.poseVal i = some P →
      ∃ s', s.step (.inverse i) = some s' ∧ s'.poseVal s.poses.length = some P.inverse ∧ SameValues s s') ∧
    (∀ i j R t, s.rotVal i = some R → s.vecVal j = some t →
      ∃ s', s.step (.pose i (some j)) = some s' ∧ s'.poseVal s.poses.length = some ⟨R, t⟩ ∧ SameValues s s') ∧
    (∀ i f, s.arrVal i = some f →
      ∃ s', s.step (.fromMatrix34 i) = some s' ∧
        s'.poseVal s.poses.length = some ⟨⟨f 0 0, f 0 1, f 0 2, f 1 0, f 1 1, f 1 2, f 2 0, f 2 1, f 2 2⟩, ⟨f 0 3, f 1 3, f 2 3⟩⟩ ∧
        SameValues s s') := by
  have hw := run_wf hs
  have key : ∀ {op : Op K} {s'}, (∀ a i j x, op ≠ .write a i j x) → s.step op = some s' → SameValues s s' := by
    intro op s' ho h
    have g := step_grows hw ho h
    exact sameValues_of_mem hw g.2.1 g.2.2
  refine ⟨fun i j P Q hP hQ => ?_, fun i P hP => ?_, fun i j R t hR ht => ?_, fun i f hf => ?_⟩
  · simp only [State.poseVal, Option.map_eq_some_iff] at hP hQ
    obtain ⟨p, hp, rfl⟩ := hP
    obtain ⟨q, hq, rfl⟩ := hQ
    have hstep : ∃ s', s.step (.compose i j) = some s' := by simp [State.step, hp, hq]
    obtain ⟨s', h⟩ := hstep
    refine ⟨s', h, ?_, key (by simp) h⟩
    simp only [State.step, hp, hq, Option.bind_eq_bind, Option.bind_some, Option.some.injEq] at h
    subst h
    have hpb := hw.2.2.2 _ (List.mem_of_getElem? hp)
    have hqb := hw.2.2.2 _ (List.mem_of_getElem? hq)
    set M := Rot3.compose (s.mat p.1) (s.mat q.1) with hM
    obtain ⟨g1, b1, n1⟩ := grows_alloc hw 3 (ofMat M)
    have e1 : (s.allocMat M).1.mat p.1 = s.mat p.1 := mat_congr (g1.2.2 _ hpb.1)
    have e2 : (s.allocMat M).1.vec q.2 = s.vec q.2 := vec_congr (g1.2.2 _ hqb.2)
    have e3 : (s.allocMat M).1.vec p.2 = s.vec p.2 := vec_congr (g1.2.2 _ hpb.2)
    rw [e1, e2, e3]
    set v := Rot3.apply (s.mat p.1) (s.vec q.2) + s.vec p.2 with hv
    obtain ⟨g2, b2, n2⟩ := grows_alloc g1.1 1 (ofVec v)
    have e4 : ((s.allocMat M).1.allocVec v).1.mat (s.allocMat M).2 = M := by
      refine Eq.trans (mat_congr (s := (s.allocMat M).1) (g2.2.2 _ ?_)) (mat_allocMat s M)
      show (s.alloc 3 (ofMat M)).2.buf < (s.alloc 3 (ofMat M)).1.next
      omega
    have e5 := vec_allocVec (s.allocMat M).1 v
    have e6 : (((s.allocMat M).1.allocVec v).1.addPose ((s.allocMat M).2, ((s.allocMat M).1.allocVec v).2)).poses[s.poses.length]?
        = some ((s.allocMat M).2, ((s.allocMat M).1.allocVec v).2) := by
      simp [State.addPose, State.allocMat, State.allocVec, State.alloc]
    simp only [State.poseVal, e6, Option.map_some, Option.some.injEq]
    show Pose3.mk (((s.allocMat M).1.allocVec v).1.mat _) (((s.allocMat M).1.allocVec v).1.vec _) = _
    rw [e4, e5]
    rfl
  · simp only [State.poseVal, Option.map_eq_some_iff] at hP
    obtain ⟨p, hp, rfl⟩ := hP
    have hstep : ∃ s', s.step (.inverse i) = some s' := by simp [State.step, hp]
    obtain ⟨s', h⟩ := hstep
    refine ⟨s', h, ?_, key (by simp) h⟩
    simp only [State.step, hp, Option.bind_eq_bind, Option.bind_some, Option.some.injEq] at h
    subst h
    have hpb := hw.2.2.2 _ (List.mem_of_getElem? hp)
    set v := -(Rot3.apply (s.mat p.1.transpose) (s.vec p.2)) with hv
    obtain ⟨g2, b2, n2⟩ := grows_alloc hw 1 (ofVec v)
    have e4 : (s.allocVec v).1.mat p.1.transpose = s.mat p.1.transpose := mat_congr (g2.2.2 _ hpb.1)
    have e5 := vec_allocVec s v
    have e6 : ((s.allocVec v).1.addPose (p.1.transpose, (s.allocVec v).2)).poses[s.poses.length]?
        = some (p.1.transpose, (s.allocVec v).2) := by
      simp [State.addPose, State.allocVec, State.alloc]
    simp only [State.poseVal, e6, Option.map_some, Option.some.injEq]
    show Pose3.mk ((s.allocVec v).1.mat _) ((s.allocVec v).1.vec _) = _
    rw [e4, e5]
    rfl
  · simp only [State.rotVal, State.vecVal, Option.map_eq_some_iff] at hR ht
    obtain ⟨p, hp, rfl⟩ := hR
    obtain ⟨q, hq, rfl⟩ := ht
    have h : s.step (.pose i (some j)) = some (s.addPose (p, q)) := by simp [State.step, argOr, hp, hq]
    refine ⟨_, h, ?_, key (by simp) h⟩
    simp [State.poseVal, State.addPose]
    rfl
  · simp only [State.arrVal, Option.map_eq_some_iff] at hf
    obtain ⟨p, hp, rfl⟩ := hf
    have h : s.step (.fromMatrix34 i) = some (s.addPose (p, p.column 3)) := by simp [State.step, hp]
    refine ⟨_, h, ?_, key (by simp) h⟩
    simp [State.poseVal, State.addPose]
    rfl

/-- C120, values of rotations and arrays: the same for `Rot3.inverse`, `R * S`, `rotation()`, `matrix()`, `translation()`, `R(j)`,
`R * p`, `unrotate`, `transform_from`, `transform_to` and `matrix34`. -/
theorem C120_values {s : State K} (hs : Reachable s) :
    (∀ i R, s.rotVal i = some R →
      ∃ s', s.step (.rotInverse i) = some s' ∧ s'.rotVal s.rots.length = some (Rot3.inverse R) ∧ SameValues s s') ∧
    (∀ i j R S, s.rotVal i = some R → s.rotVal j = some S →
      ∃ s', s.step (.rotCompose i j) = some s' ∧ s'.rotVal s.rots.length = some (Rot3.compose R S) ∧ SameValues s s') ∧
    (∀ i P, s.poseVal i = some P →
      ∃ s', s.step (.rotation i) = some s' ∧ s'.rotVal s.rots.length = some P.R ∧ SameValues s s') ∧
    (∀ i P, s.poseVal i = some P →
      ∃ s', s.step (.translation i) = some s' ∧ s'.vecVal s.arrays.length = some P.t ∧ SameValues s s') ∧
    (∀ i j R p, s.rotVal i = some R → s.vecVal j = some p →
      ∃ s', s.step (.rotate i j) = some s' ∧ s'.vecVal s.arrays.length = some (Rot3.apply R p) ∧ SameValues s s') ∧
    (∀ i j R p, s.rotVal i = some R → s.vecVal j = some p →
      ∃ s', s.step (.unrotate i j) = some s' ∧ s'.vecVal s.arrays.length = some (Rot3.unrotate R p) ∧ SameValues s s') ∧
    (∀ i j P p, s.poseVal i = some P → s.vecVal j = some p →
      ∃ s', s.step (.transformFrom i j) = some s' ∧ s'.vecVal s.arrays.length = some (P.transformFrom p) ∧ SameValues s s') ∧
    (∀ i j P p, s.poseVal i = some P → s.vecVal j = some p →
      ∃ s', s.step (.transformTo i j) = some s' ∧ s'.vecVal s.arrays.length = some (P.transformTo p) ∧ SameValues s s') ∧
    (∀ i P, s.poseVal i = some P →
      ∃ s' f, s.step (.matrix34 i) = some s' ∧ s'.arrVal s.arrays.length = some f ∧
        [[f 0 0, f 0 1, f 0 2, f 0 3], [f 1 0, f 1 1, f 1 2, f 1 3], [f 2 0, f 2 1, f 2 2, f 2 3]] = P.matrix34 ∧
        SameValues s s') ∧
    (∀ i R, s.rotVal i = some R →
      ∃ s' f, s.step (.matrix i) = some s' ∧ s'.arrVal s.arrays.length = some f ∧
        R = ⟨f 0 0, f 0 1, f 0 2, f 1 0, f 1 1, f 1 2, f 2 0, f 2 1, f 2 2⟩ ∧ SameValues s s') ∧
    (∀ i R j, s.rotVal i = some R → j < 3 →
      ∃ s' v, s.step (.column i j) = some s' ∧ s'.vecVal s.arrays.length = some v ∧
        v = (match j with | 0 => ⟨R.m00, R.m10, R.m20⟩ | 1 => ⟨R.m01, R.m11, R.m21⟩ | _ => ⟨R.m02, R.m12, R.m22⟩) ∧
        SameValues s s') := by
  have hw := run_wf hs
  have key : ∀ {op : Op K} {s'}, (∀ a i j x, op ≠ .write a i j x) → s.step op = some s' → SameValues s s' := by
    intro op s' ho h
    have g := step_grows hw ho h
    exact sameValues_of_mem hw g.2.1 g.2.2
  have newVec : ∀ v, ((s.allocVec v).1.addArray (s.allocVec v).2).vecVal s.arrays.length = some v := by
    intro v
    have : ((s.allocVec v).1.addArray (s.allocVec v).2).arrays[s.arrays.length]? = some (s.allocVec v).2 := by
      simp [State.addArray, State.allocVec, State.alloc]
    simp only [State.vecVal, this, Option.map_some, Option.some.injEq]
    exact vec_allocVec s v
  refine ⟨fun i R hR => ?_, fun i j R S hR hS => ?_, fun i P hP => ?_, fun i P hP => ?_, fun i j R p hR hp => ?_,
    fun i j R p hR hp => ?_, fun i j P p hP hp => ?_, fun i j P p hP hp => ?_, fun i P hP => ?_, fun i R hR => ?_,
    fun i R j hR hj => ?_⟩
  · simp only [State.rotVal, Option.map_eq_some_iff] at hR
    obtain ⟨p, hp, rfl⟩ := hR
    have h : s.step (.rotInverse i) = some (s.addRot p.transpose) := by simp [State.step, hp]
    refine ⟨_, h, ?_, key (by simp) h⟩
    simp [State.rotVal, State.addRot]
    rfl
  · simp only [State.rotVal, Option.map_eq_some_iff] at hR hS
    obtain ⟨p, hp, rfl⟩ := hR
    obtain ⟨q, hq, rfl⟩ := hS
    set M := Rot3.compose (s.mat p) (s.mat q) with hM
    have h : s.step (.rotCompose i j) = some ((s.allocMat M).1.addRot (s.allocMat M).2) := by
      simp [State.step, hp, hq, hM]
    refine ⟨_, h, ?_, key (by simp) h⟩
    have : ((s.allocMat M).1.addRot (s.allocMat M).2).rots[s.rots.length]? = some (s.allocMat M).2 := by
      simp [State.addRot, State.allocMat, State.alloc]
    simp only [State.rotVal, this, Option.map_some, Option.some.injEq]
    exact mat_allocMat s M
  · simp only [State.poseVal, Option.map_eq_some_iff] at hP
    obtain ⟨p, hp, rfl⟩ := hP
    have h : s.step (.rotation i) = some (s.addRot p.1) := by simp [State.step, hp]
    refine ⟨_, h, ?_, key (by simp) h⟩
    simp [State.rotVal, State.addRot]
    rfl
  · simp only [State.poseVal, Option.map_eq_some_iff] at hP
    obtain ⟨p, hp, rfl⟩ := hP
    have h : s.step (.translation i) = some (s.addArray p.2) := by simp [State.step, hp]
    refine ⟨_, h, ?_, key (by simp) h⟩
    simp [State.vecVal, State.addArray]
    rfl
  · simp only [State.rotVal, State.vecVal, Option.map_eq_some_iff] at hR hp
    obtain ⟨r, hr, rfl⟩ := hR
    obtain ⟨q, hq, rfl⟩ := hp
    have h : s.step (.rotate i j) = some ((s.allocVec (Rot3.apply (s.mat r) (s.vec q))).1.addArray
        (s.allocVec (Rot3.apply (s.mat r) (s.vec q))).2) := by simp [State.step, hr, hq]
    exact ⟨_, h, newVec _, key (by simp) h⟩
  · simp only [State.rotVal, State.vecVal, Option.map_eq_some_iff] at hR hp
    obtain ⟨r, hr, rfl⟩ := hR
    obtain ⟨q, hq, rfl⟩ := hp
    have h : s.step (.unrotate i j) = some ((s.allocVec (Rot3.unrotate (s.mat r) (s.vec q))).1.addArray
        (s.allocVec (Rot3.unrotate (s.mat r) (s.vec q))).2) := by simp [State.step, hr, hq]
    exact ⟨_, h, newVec _, key (by simp) h⟩
  · simp only [State.poseVal, State.vecVal, Option.map_eq_some_iff] at hP hp
    obtain ⟨r, hr, rfl⟩ := hP
    obtain ⟨q, hq, rfl⟩ := hp
    have h : s.step (.transformFrom i j) = some ((s.allocVec (Rot3.apply (s.mat r.1) (s.vec q) + s.vec r.2)).1.addArray
        (s.allocVec (Rot3.apply (s.mat r.1) (s.vec q) + s.vec r.2)).2) := by simp [State.step, hr, hq]
    exact ⟨_, h, newVec _, key (by simp) h⟩
  · simp only [State.poseVal, State.vecVal, Option.map_eq_some_iff] at hP hp
    obtain ⟨r, hr, rfl⟩ := hP
    obtain ⟨q, hq, rfl⟩ := hp
    have h : s.step (.transformTo i j) = some ((s.allocVec (Rot3.unrotate (s.mat r.1) (s.vec q - s.vec r.2))).1.addArray
        (s.allocVec (Rot3.unrotate (s.mat r.1) (s.vec q - s.vec r.2))).2) := by simp [State.step, hr, hq]
    exact ⟨_, h, newVec _, key (by simp) h⟩
  · simp only [State.poseVal, Option.map_eq_some_iff] at hP
    obtain ⟨p, hp, rfl⟩ := hP
    set g : ℕ → ℕ → K := fun i j => if j < 3 then s.elem p.1 i j else s.elem p.2 i 0 with hg
    have h : s.step (.matrix34 i) = some ((s.alloc 4 g).1.addArray (s.alloc 4 g).2) := by simp [State.step, hp, hg]
    have : ((s.alloc 4 g).1.addArray (s.alloc 4 g).2).arrays[s.arrays.length]? = some (s.alloc 4 g).2 := by
      simp [State.addArray, State.alloc]
    refine ⟨_, (s.alloc 4 g).1.elem (s.alloc 4 g).2, h, ?_, ?_, key (by simp) h⟩
    · simp only [State.arrVal, this, Option.map_some, Option.some.injEq]
      rfl
    · simp only [elem_alloc s g (show 0 < 4 by decide), elem_alloc s g (show 1 < 4 by decide),
        elem_alloc s g (show 2 < 4 by decide), elem_alloc s g (show 3 < 4 by decide)]
      rfl
  · simp only [State.rotVal, Option.map_eq_some_iff] at hR
    obtain ⟨p, hp, rfl⟩ := hR
    have h : s.step (.matrix i) = some (s.addArray p) := by simp [State.step, hp]
    refine ⟨_, s.elem p, h, ?_, rfl, key (by simp) h⟩
    simp [State.arrVal, State.addArray]
    rfl
  · simp only [State.rotVal, Option.map_eq_some_iff] at hR
    obtain ⟨p, hp, rfl⟩ := hR
    have h : s.step (.column i j) = some (s.addArray (p.column j)) := by simp [State.step, hp]
    refine ⟨_, s.vec (p.column j), h, ?_, ?_, key (by simp) h⟩
    · simp [State.vecVal, State.addArray]
      rfl
    · match j, hj with
      | 0, _ => rfl
      | 1, _ => rfl
      | 2, _ => rfl

/-- A program with a pose, its inverse, their product, and arrays of the pose. -/
def exampleOps : List (Op ℤ) :=
  [.newArray 3 (ofMat ⟨0, -1, 0, 1, 0, 0, 0, 0, 1⟩), .newArray 1 (ofVec ⟨1, 2, 3⟩), .poseOfArray (some 0) (some 1),
    .inverse 0, .compose 0 1, .rotation 0, .translation 0, .matrix 0]

example : ∃ s : State ℤ, Reachable s ∧ s.poseVal 0 = some ⟨⟨0, -1, 0, 1, 0, 0, 0, 0, 1⟩, ⟨1, 2, 3⟩⟩ ∧
    s.poseVal 2 = some Pose3.identity ∧ s.rotVal 0 = some ⟨0, -1, 0, 1, 0, 0, 0, 0, 1⟩ ∧ s.vecVal 2 = some ⟨1, 2, 3⟩ :=
  ⟨_, ⟨exampleOps, rfl⟩, by decide, by decide, by decide, by decide⟩

/-- C120, frame.  As long as a program writes only through arrays it has made itself since, the poses, rotations and arrays it had keep
their values, whatever else it does with them. -/
theorem C120_frame {s s' : State K} {ops : List (Op K)} (hs : Reachable s) (ho : WritesOwn s [] ops)
    (h : s.run ops = some s') : SameValues s s' := by
  have hw := run_wf hs
  exact sameValues_of_mem hw (run_frame hw h).2
    (writesOwn_mem hw (le_refl _) (by simp) ho h)

-- a program that writes to an array it makes, uses it for a pose, and has poses from before
example : ∃ s s' : State ℤ, Reachable s ∧
    WritesOwn s [] [.newArray 1 (ofVec 0), .write 4 0 0 7, .poseOfArray none (some 4), .compose 2 3, .write 4 1 0 8] ∧
    s.run [.newArray 1 (ofVec 0), .write 4 0 0 7, .poseOfArray none (some 4), .compose 2 3, .write 4 1 0 8] = some s' ∧
    s'.poseVal 3 = some ⟨Mat3.one, ⟨7, 8, 0⟩⟩ ∧ s'.poseVal 4 = some ⟨Mat3.one, ⟨7, 0, 0⟩⟩ := by
  refine ⟨_, _, ⟨exampleOps, rfl⟩, ?_, rfl, by decide, by decide⟩
  refine ⟨by simp, fun s1 h1 => ⟨?_, fun s2 _ => ⟨by simp, fun s3 _ => ⟨by simp, fun s4 _ => ⟨?_, fun _ _ => trivial⟩⟩⟩⟩⟩
  all_goals
    intro a i j x e
    cases e
    exact List.mem_cons_self ..

/-- C120, new results.  The pose `compose` makes, the rotation `R * S` makes, and the arrays `matrix34`, `transform_from`, `transform_to`,
`R * p` and `unrotate` make keep their values whatever is written through the arrays the program had before. -/
theorem C120_fresh {s s1 s2 : State K} {op : Op K} {ops : List (Op K)} (hs : Reachable s)
    (hop : (∃ i j, op = .compose i j) ∨ (∃ i j, op = .rotCompose i j) ∨ (∃ i, op = .matrix34 i) ∨
      (∃ i j, op = .transformFrom i j) ∨ (∃ i j, op = .transformTo i j) ∨ (∃ i j, op = .rotate i j) ∨
      ∃ i j, op = .unrotate i j)
    (h1 : s.step op = some s1) (ho : WritesOnly (· < s.arrays.length) ops) (h2 : s1.run ops = some s2) :
    (∀ i, s.poses.length ≤ i → i < s1.poses.length → s2.poseVal i = s1.poseVal i) ∧
    (∀ i, s.rots.length ≤ i → i < s1.rots.length → s2.rotVal i = s1.rotVal i) ∧
    ∀ i, s.arrays.length ≤ i → i < s1.arrays.length → s2.arrVal i = s1.arrVal i := by
  have hw := run_wf hs
  obtain ⟨w1, e1, -⟩ := step_frame hw h1
  have e2 := (run_frame w1 h2).2
  have hmem : ∀ b, s.next ≤ b → b < s1.next → s2.mem b = s1.mem b := by
    intro b hb hb1
    refine run_mem w1 hb1 (fun a ha => ?_) ho h2
    have hv := List.getElem?_eq_getElem ha
    refine ⟨_, Extends.arrays e1 hv, ?_⟩
    have := hw.2.1 _ (List.getElem_mem ha)
    omega
  have fin : (∀ i, s.poses.length ≤ i → (hi : i < s1.poses.length) →
        s.next ≤ (s1.poses[i]).1.buf ∧ s.next ≤ (s1.poses[i]).2.buf) →
      (∀ i, s.rots.length ≤ i → (hi : i < s1.rots.length) → s.next ≤ (s1.rots[i]).buf) →
      (∀ i, s.arrays.length ≤ i → (hi : i < s1.arrays.length) → s.next ≤ (s1.arrays[i]).buf) →
      (∀ i, s.poses.length ≤ i → i < s1.poses.length → s2.poseVal i = s1.poseVal i) ∧
      (∀ i, s.rots.length ≤ i → i < s1.rots.length → s2.rotVal i = s1.rotVal i) ∧
      ∀ i, s.arrays.length ≤ i → i < s1.arrays.length → s2.arrVal i = s1.arrVal i := by
    intro hp hr ha
    refine ⟨fun i h hi => ?_, fun i h hi => ?_, fun i h hi => ?_⟩
    · have hv := List.getElem?_eq_getElem hi
      have hb := w1.2.2.2 _ (List.getElem_mem hi)
      simp only [State.poseVal, Extends.poses e2 hv, hv, Option.map_some, State.pose,
        mat_congr (hmem _ (hp i h hi).1 hb.1), vec_congr (hmem _ (hp i h hi).2 hb.2)]
    · have hv := List.getElem?_eq_getElem hi
      have hb := w1.2.2.1 _ (List.getElem_mem hi)
      simp only [State.rotVal, Extends.rots e2 hv, hv, Option.map_some, mat_congr (hmem _ (hr i h hi) hb)]
    · have hv := List.getElem?_eq_getElem hi
      have hb := w1.2.1 _ (List.getElem_mem hi)
      simp only [State.arrVal, Extends.arrays e2 hv, hv, Option.map_some, elem_congr (hmem _ (ha i h hi) hb)]
  have arr : ∀ c f, s1 = (s.alloc c f).1.addArray (s.alloc c f).2 →
      (∀ i, s.poses.length ≤ i → i < s1.poses.length → s2.poseVal i = s1.poseVal i) ∧
      (∀ i, s.rots.length ≤ i → i < s1.rots.length → s2.rotVal i = s1.rotVal i) ∧
      ∀ i, s.arrays.length ≤ i → i < s1.arrays.length → s2.arrVal i = s1.arrVal i := by
    intro c f e
    subst e
    refine fin (fun i h hi => ?_) (fun i h hi => ?_) (fun i h hi => ?_)
    · simp only [State.addArray, State.alloc] at hi; omega
    · simp only [State.addArray, State.alloc] at hi; omega
    · simp only [State.addArray, State.alloc, List.length_append, List.length_singleton] at hi
      obtain rfl : i = s.arrays.length := by omega
      simp [State.addArray, State.alloc]
  rcases hop with ⟨i, j, rfl⟩ | ⟨i, j, rfl⟩ | ⟨i, rfl⟩ | ⟨i, j, rfl⟩ | ⟨i, j, rfl⟩ | ⟨i, j, rfl⟩ | ⟨i, j, rfl⟩ <;>
    simp only [State.step, Option.bind_eq_bind, Option.bind_eq_some_iff, Option.some.injEq] at h1
  · obtain ⟨x, hx, y, hy, rfl⟩ := h1
    refine fin (fun i h hi => ?_) (fun i h hi => ?_) (fun i h hi => ?_)
    · simp only [State.addPose, State.allocMat, State.allocVec, State.alloc, List.length_append, List.length_singleton] at hi
      obtain rfl : i = s.poses.length := by omega
      simp [State.addPose, State.allocMat, State.allocVec, State.alloc]
    · simp only [State.addPose, State.allocMat, State.allocVec, State.alloc] at hi; omega
    · simp only [State.addPose, State.allocMat, State.allocVec, State.alloc] at hi; omega
  · obtain ⟨x, hx, y, hy, rfl⟩ := h1
    refine fin (fun i h hi => ?_) (fun i h hi => ?_) (fun i h hi => ?_)
    · simp only [State.addRot, State.allocMat, State.alloc] at hi; omega
    · simp only [State.addRot, State.allocMat, State.alloc, List.length_append, List.length_singleton] at hi
      obtain rfl : i = s.rots.length := by omega
      simp [State.addRot, State.allocMat, State.alloc]
    · simp only [State.addRot, State.allocMat, State.alloc] at hi; omega
  · obtain ⟨x, hx, rfl⟩ := h1
    exact arr _ _ rfl
  all_goals
    obtain ⟨x, hx, y, hy, rfl⟩ := h1
    exact arr _ _ rfl

-- a product, and writes to both factors
example : ∃ s s1 s2 : State ℤ, Reachable s ∧ s.step (.compose 0 0) = some s1 ∧
    WritesOnly (· < s.arrays.length) [Op.write 0 0 0 (9 : ℤ), .write 1 0 0 9, .write 2 1 0 9] ∧
    s1.run [.write 0 0 0 9, .write 1 0 0 9, .write 2 1 0 9] = some s2 ∧
    s2.poseVal 0 = some ⟨⟨9, -1, 0, 1, 0, 0, 0, 0, 1⟩, ⟨9, 9, 3⟩⟩ ∧
    s2.poseVal 3 = some ⟨⟨-1, 0, 0, 0, -1, 0, 0, 0, 1⟩, ⟨-1, 3, 6⟩⟩ := by
  refine ⟨_, _, _, ⟨exampleOps, rfl⟩, rfl, ?_, rfl, by decide, by decide⟩
  intro a i j x h
  simp only [List.mem_cons, Op.write.injEq, List.not_mem_nil, or_false] at h
  rcases h with h | h | h <;> (rw [h.1]; decide)

/-- C120, `Rot3.inverse()` and the rotation of `Pose3.inverse()` are views: whatever is written later, through any array, the inverse
stays the transpose of what the original has become. -/
theorem C120_inverse_follows {s s1 s2 : State K} {i : ℕ} {ops : List (Op K)} (hs : Reachable s) (h2 : s1.run ops = some s2) :
    (s.step (.rotInverse i) = some s1 → s2.rotVal s.rots.length = (s2.rotVal i).map Mat3.transpose) ∧
    (s.step (.inverse i) = some s1 →
      (s2.poseVal s.poses.length).map Pose3.R = (s2.poseVal i).map fun P => Mat3.transpose P.R) := by
  have hw := run_wf hs
  constructor <;> intro h1
  · obtain ⟨w1, e1, -⟩ := step_frame hw h1
    have e2 := (run_frame w1 h2).2
    simp only [State.step, Option.bind_eq_bind, Option.bind_eq_some_iff, Option.some.injEq] at h1
    obtain ⟨x, hx, rfl⟩ := h1
    have a1 := Extends.rots e2 (Extends.rots e1 hx)
    have a2 : s2.rots[s.rots.length]? = some x.transpose := Extends.rots e2 (by simp [State.addRot])
    simp only [State.rotVal, a1, a2, Option.map_some, Option.some.injEq]
    rfl
  · obtain ⟨w1, e1, -⟩ := step_frame hw h1
    have e2 := (run_frame w1 h2).2
    simp only [State.step, Option.bind_eq_bind, Option.bind_eq_some_iff, Option.some.injEq] at h1
    obtain ⟨x, hx, h1⟩ := h1
    have a1 := Extends.poses e2 (Extends.poses e1 hx)
    have a2 : ∃ v, s2.poses[s.poses.length]? = some (x.1.transpose, v) :=
      ⟨(s.allocVec (-Rot3.apply (s.mat x.1.transpose) (s.vec x.2))).2, Extends.poses e2 (by
        subst h1; simp [State.addPose, State.allocVec, State.alloc])⟩
    obtain ⟨v, a2⟩ := a2
    simp only [State.poseVal, a1, a2, Option.map_some, Option.some.injEq]
    rfl

example : ∃ s s1 s2 : State ℤ, Reachable s ∧ s.step (.rotInverse 0) = some s1 ∧ s1.run [.write 0 0 2 9] = some s2 ∧
    s2.rotVal 0 = some ⟨0, -1, 9, 1, 0, 0, 0, 0, 1⟩ ∧ s2.rotVal 1 = some ⟨0, 1, 0, -1, 0, 0, 9, 0, 1⟩ :=
  ⟨_, _, _, ⟨exampleOps, rfl⟩, rfl, rfl, by decide, by decide⟩

/-- C120, defaults, partial: `Pose3()` is the identity, `Rot3()` is the identity, and the cameras without a position are at the origin, after
every program that writes only through arrays it made.  Missing: they are not if it writes through an array it got from such an object
(`C120_false`). -/
theorem C120_default_partial {s : State K} {ops : List (Op K)} (ho : WritesOwn State.init [] ops)
    (h : (State.init : State K).run ops = some s) :
    (∃ s', s.step (.poseOfArray none none) = some s' ∧ s'.poseVal s.poses.length = some Pose3.identity) ∧
    (∃ s', s.step (.rot none) = some s' ∧ s'.rotVal s.rots.length = some Rot3.identity) ∧
    (∀ A B C, ∃ s', s.step (.enuCamera A B C none) = some s' ∧ s'.poseVal s.poses.length =
      some ⟨Rot3.compose (Rot3.compose (Rot3.compose Rot3.ENU_R_CAMERA A) B) C, 0⟩) ∧
    (∀ A B C, ∃ s', s.step (.mayaCamera A B C none) = some s' ∧ s'.poseVal s.poses.length =
      some ⟨Rot3.compose (Rot3.compose (Rot3.compose Rot3.MAYA_R_CAMERA A) B) C, 0⟩) := by
  have hm : ∀ b, b < 7 → s.mem b = (State.init : State K).mem b :=
    writesOwn_mem wf_init (le_refl _) (by simp) ho h
  have hw : s.Wf := (run_frame wf_init h).1
  have h7 := hw.1
  have cam : ∀ (base t : Arr) (A B C B0 : Mat3 K), t.buf < 7 → s.mat base = B0 → s.vec t = 0 →
      (s.camera base A B C t).poseVal s.poses.length = some ⟨Rot3.compose (Rot3.compose (Rot3.compose B0 A) B) C, 0⟩ := by
    intro base t A B C B0 ht hB h0
    subst hB
    set M := Rot3.compose (Rot3.compose (Rot3.compose (s.mat base) A) B) C with hM
    have : (s.camera base A B C t).poses[s.poses.length]? = some ((s.allocMat M).2, t) := by
      simp [State.camera, State.addPose, State.allocMat, State.alloc]
    simp only [State.poseVal, this, Option.map_some, Option.some.injEq]
    obtain ⟨g, -, -⟩ := grows_alloc hw 3 (ofMat M)
    show Pose3.mk ((s.allocMat M).1.mat (s.allocMat M).2) ((s.allocMat M).1.vec t) = _
    rw [mat_allocMat, vec_congr (s := s) (s' := (s.allocMat M).1) (g.2.2 _ (by omega)), h0]
  refine ⟨⟨_, rfl, ?_⟩, ⟨_, rfl, ?_⟩, fun A B C => ⟨_, rfl, ?_⟩, fun A B C => ⟨_, rfl, ?_⟩⟩
  · have : (s.addPose (poseR, poseT)).poses[s.poses.length]? = some (poseR, poseT) := by simp [State.addPose]
    simp only [State.poseVal, this, Option.map_some, Option.some.injEq]
    show Pose3.mk (s.mat poseR) (s.vec poseT) = _
    rw [mat_congr (s := State.init) (hm 0 (by decide)), vec_congr (s := State.init) (hm 1 (by decide))]
    rfl
  · have : (s.addRot rotR).rots[s.rots.length]? = some rotR := by simp [State.addRot]
    simp only [State.rotVal, this, Option.map_some, Option.some.injEq]
    show s.mat rotR = _
    rw [mat_congr (s := State.init) (hm 2 (by decide))]
    rfl
  · refine cam enuR enuT A B C _ (by decide) ?_ ?_
    · rw [mat_congr (s := State.init) (hm 5 (by decide))]; rfl
    · rw [vec_congr (s := State.init) (hm 3 (by decide))]; rfl
  · refine cam mayaR mayaT A B C _ (by decide) ?_ ?_
    · rw [mat_congr (s := State.init) (hm 6 (by decide))]; rfl
    · rw [vec_congr (s := State.init) (hm 4 (by decide))]; rfl

-- a program that makes default poses and writes to its own array
example : WritesOwn (State.init : State ℤ) [] [.poseOfArray none none, .newArray 1 (ofVec 0), .poseOfArray none (some 0), .write 0 0 0 7] ∧
    ∃ s, (State.init : State ℤ).run [.poseOfArray none none, .newArray 1 (ofVec 0), .poseOfArray none (some 0), .write 0 0 0 7] = some s ∧
      s.poseVal 1 = some ⟨Mat3.one, ⟨7, 0, 0⟩⟩ := by
  refine ⟨⟨by simp, fun s1 h1 => ⟨by simp, fun s2 _ => ⟨by simp, fun s3 _ => ⟨?_, fun _ _ => trivial⟩⟩⟩⟩, _, rfl, by decide⟩
  intro a i j x e
  cases e
  simp only [State.step, argOr, Option.bind_eq_bind, Option.bind_some, Option.some.injEq] at h1
  subst h1
  exact List.mem_cons_self ..

/-- The claim that default objects are always the identity, that a pose does not change when another is changed, and that a pose does not
change when the array it was made from is changed, is false. -/
theorem C120_false :
    -- `Pose3().translation()[0] = 5`, and the next `Pose3()` is not the identity
    (∃ s : State ℤ, State.init.run [.poseOfArray none none, .translation 0, .write 0 0 0 5, .poseOfArray none none] = some s ∧
      s.poseVal 1 = some ⟨Mat3.one, ⟨5, 0, 0⟩⟩) ∧
    -- `r = Rot3(); r.matrix()[0, 1] = 5`, and the next `Rot3()` is not the identity
    (∃ s : State ℤ, State.init.run [.rot none, .matrix 0, .write 0 0 1 5, .rot none] = some s ∧
      s.rotVal 1 = some ⟨1, 5, 0, 0, 1, 0, 0, 0, 1⟩) ∧
    -- `p = Pose3(R, t); q = p.inverse(); R[0, 1] = 5`: `q` changes, and it is no longer the inverse of `p`
    (∃ s : State ℤ, State.init.run [.newArray 3 (ofMat Mat3.one), .newArray 1 (ofVec ⟨1, 2, 3⟩), .poseOfArray (some 0) (some 1),
        .inverse 0, .write 0 0 1 5] = some s ∧
      s.poseVal 1 = some ⟨⟨1, 0, 0, 5, 1, 0, 0, 0, 1⟩, ⟨-1, -2, -3⟩⟩ ∧
      ∃ P Q, s.poseVal 0 = some P ∧ s.poseVal 1 = some Q ∧ Q ≠ P.inverse) ∧
    -- `p = Pose3.FromMatrix34(T); T[0, 3] = 5` moves `p`
    (∃ s : State ℤ, State.init.run [.newArray 4 (fun _ j => (j : ℤ)), .fromMatrix34 0, .write 0 0 3 5] = some s ∧
      s.poseVal 0 = some ⟨⟨0, 1, 2, 0, 1, 2, 0, 1, 2⟩, ⟨5, 3, 3⟩⟩) := by
  refine ⟨⟨_, rfl, by decide⟩, ⟨_, rfl, by decide⟩, ⟨_, rfl, by decide, _, _, rfl, rfl, by decide⟩, ⟨_, rfl, by decide⟩⟩

end PoseHeap
end Sumo
