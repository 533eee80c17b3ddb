import Verif.Lemmas.Xml
import Mathlib.Logic.Encodable.Basic
import Mathlib.Data.Rat.Encodable
import Mathlib.Tactic.LinearCombination
import Mathlib.Tactic.Positivity

/-! # Serialisation of poses and boxes (C38, C42) -/

namespace Sumo

variable (T : NumText)

/-! ### C38: poses survive serialisation -/

theorem matClose_of (R : Mat3 ℚ) :
    MatClose R (Mat3.ofColumns (printedVec R.col0) (printedVec R.col1) (printedVec R.col2)) :=
  ⟨printedVec_close R.col0, printedVec_close R.col1, printedVec_close R.col2⟩

/-- **C38 (XML).** Reading back the XML of any pose succeeds and gives every number to within half a unit of the
eighth decimal (or of the ninth significant digit). -/
theorem C38_xml_round_trip_partial (p : Pose3 ℚ) :
    ∃ p', Pose3.fromXml T (Pose3.toXml T p) = .ok p' ∧ PoseClose p p' :=
  ⟨_, pose3_fromXml_toXml T p, matClose_of p.R, printedVec_close p.t⟩

/-- **C38 (XML).** A pose whose numbers have at most eight decimals and nine significant digits is read back exactly. -/
theorem C38_xml_exact (p : Pose3 ℚ) (h : ShortPose p) : Pose3.fromXml T (Pose3.toXml T p) = .ok p := by
  rw [pose3_fromXml_toXml, printedVec_short h.1, printedVec_short h.2.1, printedVec_short h.2.2.1,
    printedVec_short h.2.2.2]
  rfl

/-- **C38 (XML)** as worded is false: a third is not read back. -/
theorem C38_false : ∃ p : Pose3 ℚ, Pose3.fromXml T (Pose3.toXml T p) ≠ .ok p := by
  refine ⟨⟨Mat3.one, ⟨1 / 3, 0, 0⟩⟩, ?_⟩
  rw [pose3_fromXml_toXml]
  intro h
  have h1 : (printedVec ⟨1 / 3, 0, 0⟩).x = 1 / 3 := by
    have := congrArg (fun r => match r with | .ok p => p.t.x | .error _ => 0) h
    exact this
  have h2 : (printedVec ⟨1 / 3, 0, 0⟩).x = 33333333 / 10 ^ 8 := by decide +kernel
  rw [h2] at h1
  norm_num at h1

theorem columnOf_ok_iff (l : List ℚ) : (∃ v, columnOf l = .ok v) ↔ l.length = 1 ∨ l.length = 3 := by
  rcases l with _ | ⟨a, _ | ⟨b, _ | ⟨c, _ | ⟨d, l⟩⟩⟩⟩ <;> simp [columnOf]

/-- What one child of `<rotation>` must be. -/
def GoodColumn (e : Xml) : Prop :=
  (e.tag = "c1" ∨ e.tag = "c2" ∨ e.tag = "c3") ∧
    HasNumbers (T.fromstring ",") (fun l => l.length = 1 ∨ l.length = 3) e

/-- The effect of a good child. -/
def columnEffect (st : RotColumns) (e : Xml) : RotColumns :=
  match RotColumns.step T st e with
  | .ok s => s
  | .error _ => st

theorem rotColumns_step_good (st : RotColumns) (e : Xml) (h : GoodColumn T e) :
    ∃ v : Vec3 ℚ, RotColumns.step T st e =
      if e.tag = "c1" then .ok { st with c1 := some v }
      else if e.tag = "c2" then .ok { st with c2 := some v }
      else .ok { st with c3 := some v } := by
  obtain ⟨ht, hn⟩ := h
  obtain ⟨l, hl, hP⟩ := (readNumbers_iff T _ e).1 hn
  obtain ⟨v, hv⟩ := (columnOf_ok_iff l).2 hP
  refine ⟨v, ?_⟩
  unfold RotColumns.step
  rw [hl]
  simp only [bind, Except.bind, hv]
  split_ifs with h1 h2 h3
  · rfl
  · rfl
  · rfl
  · exact absurd ht (by tauto)

theorem rotColumns_step_bad (st : RotColumns) (e : Xml) (h : ¬ GoodColumn T e) :
    ∃ err, RotColumns.step T st e = .error err := by
  unfold RotColumns.step
  cases hl : (do columnOf (← readNumbers T e)) with
  | error err => exact ⟨_, rfl⟩
  | ok v =>
    simp only
    split_ifs with h1 h2 h3
    all_goals first | exact ⟨_, rfl⟩ | skip
    all_goals
      exfalso
      apply h
      refine ⟨by tauto, (readNumbers_iff T _ e).2 ?_⟩
      cases hr : readNumbers T e with
      | error err => rw [hr] at hl; simp [bind, Except.bind] at hl
      | ok l =>
        rw [hr] at hl
        exact ⟨l, rfl, (columnOf_ok_iff l).1 ⟨v, hl⟩⟩

theorem columnEffect_fold (l : List Xml) (hl : ∀ e ∈ l, GoodColumn T e) (st : RotColumns) :
    ((l.foldl (columnEffect T) st).c1.isSome ↔ st.c1.isSome ∨ ∃ e ∈ l, e.tag = "c1") ∧
    ((l.foldl (columnEffect T) st).c2.isSome ↔ st.c2.isSome ∨ ∃ e ∈ l, e.tag = "c2") ∧
    ((l.foldl (columnEffect T) st).c3.isSome ↔ st.c3.isSome ∨ ∃ e ∈ l, e.tag = "c3") := by
  induction l generalizing st with
  | nil => simp
  | cons e l ih =>
    have hg := hl e (by simp)
    obtain ⟨v, hv⟩ := rotColumns_step_good T st e hg
    obtain ⟨i1, i2, i3⟩ := ih (fun e he => hl e (List.mem_cons_of_mem _ he)) (columnEffect T st e)
    rw [List.foldl_cons, i1, i2, i3]
    unfold columnEffect
    rw [hv]
    rcases hg.1 with h | h | h <;> simp [h]

/-- Exactly the documents `Rot3.from_xml` accepts: columns of three numbers, or of one. -/
theorem rot3_accepts_iff (e : Xml) : (∃ R, Rot3.fromXml T e = .ok R) ↔
    RotDoc (T.fromstring ",") (fun l => l.length = 1 ∨ l.length = 3) e := by
  unfold Rot3.fromXml RotDoc
  by_cases ht : e.tag = "rotation"
  swap
  · simp [ht]
  simp only [ht, ne_eq, not_true_eq_false, if_false, true_and]
  have key := foldlM_ok_iff (step := RotColumns.step T) (good := GoodColumn T) (f := columnEffect T)
    (fun st a h => by
      obtain ⟨v, hv⟩ := rotColumns_step_good T st a h
      unfold columnEffect
      rw [hv]; split_ifs <;> rfl)
    (rotColumns_step_bad T) e.children ⟨none, none, none⟩
  constructor
  · rintro ⟨R, hR⟩
    cases hf : e.children.foldlM (RotColumns.step T) ⟨none, none, none⟩ with
    | error err => rw [hf] at hR; simp [bind, Except.bind] at hR
    | ok st =>
      rw [hf] at hR
      obtain ⟨h1, h2⟩ := (key st).1 hf
      obtain ⟨i1, i2, i3⟩ := columnEffect_fold T _ h1 ⟨none, none, none⟩
      rw [h2] at i1 i2 i3
      simp only [Option.isSome_none, Bool.false_eq_true, false_or] at i1 i2 i3
      refine ⟨h1, i1.1 ?_, i2.1 ?_, i3.1 ?_⟩ <;>
      · simp only [bind, Except.bind] at hR
        split at hR <;> simp_all
  · rintro ⟨h1, h2⟩
    have hf := (key _).2 ⟨h1, rfl⟩
    obtain ⟨i1, i2, i3⟩ := columnEffect_fold T _ h1 ⟨none, none, none⟩
    rw [hf]
    simp only [Option.isSome_none, Bool.false_eq_true, false_or] at i1 i2 i3
    obtain ⟨x, hx⟩ := Option.isSome_iff_exists.1 (i1.2 h2.1)
    obtain ⟨y, hy⟩ := Option.isSome_iff_exists.1 (i2.2 h2.2.1)
    obtain ⟨z, hz⟩ := Option.isSome_iff_exists.1 (i3.2 h2.2.2)
    refine ⟨Mat3.ofColumns x y z, ?_⟩
    simp only [bind, Except.bind, hx, hy, hz]

/-- A document `Rot3.from_xml` refuses is reported as `ValueError`. -/
theorem rot3_refuses (e : Xml) (err : PyErr) (h : Rot3.fromXml T e = .error err) : err = .valueError := by
  have hs : ∀ (l : List Xml) (st : RotColumns) (err : PyErr), l.foldlM (RotColumns.step T) st = .error err →
      err = .valueError := by
    intro l
    induction l with
    | nil => intro st err h; simp [pure, Except.pure] at h
    | cons a l ih =>
      intro st err h
      rw [List.foldlM_cons] at h
      cases hst : RotColumns.step T st a with
      | ok s => rw [hst] at h; exact ih s err h
      | error e' =>
        rw [hst] at h
        simp only [bind, Except.bind, Except.error.injEq] at h
        subst h
        unfold RotColumns.step at hst
        revert hst
        split
        · intro h; cases h; rfl
        · split_ifs <;> intro h <;> cases h; rfl
  unfold Rot3.fromXml at h
  split_ifs at h
  · cases h; rfl
  · cases hf : e.children.foldlM (RotColumns.step T) ⟨none, none, none⟩ with
    | error e' => rw [hf] at h; simp only [bind, Except.bind, Except.error.injEq] at h; subst h; exact hs _ _ _ hf
    | ok st =>
      rw [hf] at h
      simp only [bind, Except.bind] at h
      split at h <;> cases h
      rfl

/-- What one child of `<pose>` must be. -/
def GoodPoseChild (e : Xml) : Prop :=
  e.tag = "translation" ∧ HasNumbers (T.fromstring ",") (fun l => l.length = 3) e ∨
    RotDoc (T.fromstring ",") (fun l => l.length = 1 ∨ l.length = 3) e

/-- The effect of a good child. -/
def poseEffect (st : Option (Vec3 ℚ) × Option (Rot3 ℚ)) (e : Xml) : Option (Vec3 ℚ) × Option (Rot3 ℚ) :=
  match Pose3.xmlStep T st e with
  | .ok s => s
  | .error _ => st

theorem length_three {α : Type} {l : List α} (h : l.length = 3) : ∃ a b c, l = [a, b, c] := by
  rcases l with _ | ⟨a, _ | ⟨b, _ | ⟨c, _ | ⟨d, l⟩⟩⟩⟩ <;> simp_all

theorem pose_step_good (st : Option (Vec3 ℚ) × Option (Rot3 ℚ)) (e : Xml) (h : GoodPoseChild T e) :
    (e.tag = "translation" ∧ ∃ v, Pose3.xmlStep T st e = .ok (some v, st.2)) ∨
    (e.tag = "rotation" ∧ ∃ R, Pose3.xmlStep T st e = .ok (st.1, some R)) := by
  rcases h with ⟨ht, hn⟩ | h
  · left
    obtain ⟨l, hl, hP⟩ := (readNumbers_iff T _ e).1 hn
    obtain ⟨a, b, c, rfl⟩ := length_three hP
    refine ⟨ht, ⟨a, b, c⟩, ?_⟩
    unfold Pose3.xmlStep
    rw [if_pos ht, hl]; rfl
  · right
    obtain ⟨R, hR⟩ := (rot3_accepts_iff T e).2 h
    refine ⟨h.1, R, ?_⟩
    unfold Pose3.xmlStep
    rw [h.1, hR, if_neg (by decide), if_pos rfl]; rfl

theorem pose_step_bad (st : Option (Vec3 ℚ) × Option (Rot3 ℚ)) (e : Xml) (h : ¬ GoodPoseChild T e) :
    ∃ err, Pose3.xmlStep T st e = .error err := by
  unfold Pose3.xmlStep
  split_ifs with h1 h2
  · cases hr : readNumbers T e with
    | error err => exact ⟨err, rfl⟩
    | ok l =>
      simp only [bind, Except.bind]
      split
      · rename_i a b c hl
        exact absurd (Or.inl ⟨h1, (readNumbers_iff T _ e).2 ⟨_, hr, by simp⟩⟩) h
      · exact ⟨_, rfl⟩
  · cases hr : Rot3.fromXml T e with
    | error err => exact ⟨err, rfl⟩
    | ok R => exact absurd (Or.inr ((rot3_accepts_iff T e).1 ⟨R, hr⟩)) h
  · exact ⟨_, rfl⟩

theorem poseEffect_fold (l : List Xml) (hl : ∀ e ∈ l, GoodPoseChild T e)
    (st : Option (Vec3 ℚ) × Option (Rot3 ℚ)) :
    ((l.foldl (poseEffect T) st).1.isSome ↔ st.1.isSome ∨ ∃ e ∈ l, e.tag = "translation") ∧
    ((l.foldl (poseEffect T) st).2.isSome ↔ st.2.isSome ∨ ∃ e ∈ l, e.tag = "rotation") := by
  induction l generalizing st with
  | nil => simp
  | cons e l ih =>
    obtain ⟨i1, i2⟩ := ih (fun e he => hl e (List.mem_cons_of_mem _ he)) (poseEffect T st e)
    rw [List.foldl_cons, i1, i2]
    unfold poseEffect
    rcases pose_step_good T st e (hl e (by simp)) with ⟨h, v, hv⟩ | ⟨h, v, hv⟩ <;> simp [h, hv]

/-- **C38 (malformed XML).** `Pose3.from_xml` returns a pose exactly for a `<pose>` with at least one `<translation>` of three
numbers, at least one `<rotation>`, and nothing else, where a rotation has the columns `c1`, `c2`, `c3` and nothing else, each
of three numbers or of *one*; for every other document it raises.  (The documented format has three numbers only:
see `C38_false_column`.) -/
theorem C38_accepts_iff_partial (e : Xml) : (∃ p, Pose3.fromXml T e = .ok p) ↔
    PoseDoc (T.fromstring ",") (fun l => l.length = 1 ∨ l.length = 3) e := by
  unfold Pose3.fromXml PoseDoc
  by_cases ht : e.tag = "pose"
  swap
  · simp [ht]
  simp only [ht, ne_eq, not_true_eq_false, if_false, true_and]
  have key := foldlM_ok_iff (step := Pose3.xmlStep T) (good := GoodPoseChild T) (f := poseEffect T)
    (fun st a h => by
      unfold poseEffect
      rcases pose_step_good T st a h with ⟨-, v, hv⟩ | ⟨-, v, hv⟩ <;> rw [hv])
    (pose_step_bad T) e.children (none, none)
  constructor
  · rintro ⟨p, hp⟩
    cases hf : e.children.foldlM (Pose3.xmlStep T) (none, none) with
    | error err => rw [hf] at hp; simp [bind, Except.bind] at hp
    | ok st =>
      rw [hf] at hp
      obtain ⟨h1, h2⟩ := (key st).1 hf
      obtain ⟨i1, i2⟩ := poseEffect_fold T _ h1 (none, none)
      rw [h2] at i1 i2
      simp only [Option.isSome_none, Bool.false_eq_true, false_or] at i1 i2
      refine ⟨h1, i1.1 ?_, i2.1 ?_⟩ <;>
      · simp only [bind, Except.bind] at hp
        split at hp <;> simp_all
  · rintro ⟨h1, h2⟩
    have hf := (key _).2 ⟨h1, rfl⟩
    obtain ⟨i1, i2⟩ := poseEffect_fold T _ h1 (none, none)
    rw [hf]
    simp only [Option.isSome_none, Bool.false_eq_true, false_or] at i1 i2
    obtain ⟨x, hx⟩ := Option.isSome_iff_exists.1 (i1.2 h2.1)
    obtain ⟨y, hy⟩ := Option.isSome_iff_exists.1 (i2.2 h2.2)
    refine ⟨⟨y, x⟩, ?_⟩
    simp only [bind, Except.bind, hx, hy]

/-- **C38 (malformed XML).** A refused document is reported as `RuntimeError`, as `ValueError` (from the rotation), or as
`TypeError` when a translation has no text at all. -/
theorem C38_refuses (e : Xml) (err : PyErr) (h : Pose3.fromXml T e = .error err) :
    err = .runtimeError ∨ err = .valueError ∨ (err = .typeError ∧ ∃ c ∈ e.children, c.text = none) := by
  have hs : ∀ (l : List Xml) (st : Option (Vec3 ℚ) × Option (Rot3 ℚ)) (err : PyErr),
      l.foldlM (Pose3.xmlStep T) st = .error err →
      err = .runtimeError ∨ err = .valueError ∨ (err = .typeError ∧ ∃ c ∈ l, c.text = none) := by
    intro l
    induction l with
    | nil => intro st err h; simp [pure, Except.pure] at h
    | cons a l ih =>
      intro st err h
      rw [List.foldlM_cons] at h
      cases hst : Pose3.xmlStep T st a with
      | ok s =>
        rw [hst] at h
        rcases ih s err h with h | h | ⟨h, c, hc, hn⟩
        · exact Or.inl h
        · exact Or.inr (Or.inl h)
        · exact Or.inr (Or.inr ⟨h, c, List.mem_cons_of_mem _ hc, hn⟩)
      | error e' =>
        rw [hst] at h
        simp only [bind, Except.bind, Except.error.injEq] at h
        subst h
        unfold Pose3.xmlStep at hst
        split_ifs at hst
        · unfold readNumbers at hst
          cases ht : a.text with
          | none =>
            rw [ht] at hst
            cases hst
            exact Or.inr (Or.inr ⟨rfl, a, by simp, ht⟩)
          | some s =>
            rw [ht] at hst
            simp only [bind, Except.bind] at hst
            split at hst <;> cases hst
            exact Or.inl rfl
        · cases hr : Rot3.fromXml T a with
          | ok R => rw [hr] at hst; cases hst
          | error e'' =>
            rw [hr] at hst
            simp only [bind, Except.bind, Except.error.injEq] at hst
            subst hst
            exact Or.inr (Or.inl (rot3_refuses T a _ hr))
        · cases hst; exact Or.inl rfl
  unfold Pose3.fromXml at h
  split_ifs at h
  · cases h; exact Or.inl rfl
  · cases hf : e.children.foldlM (Pose3.xmlStep T) (none, none) with
    | error e' => rw [hf] at h; simp only [bind, Except.bind, Except.error.injEq] at h; subst h; exact hs _ _ _ hf
    | ok st =>
      rw [hf] at h
      simp only [bind, Except.bind] at h
      split at h <;> cases h
      exact Or.inl rfl

/-- **C38 (malformed XML)** as worded is false: a rotation column with a single number is accepted (and fills the
column). -/
theorem C38_false_column (s : String) (hs : T.fromstring "," s = [1]) :
    Rot3.fromXml T (.node "rotation" [] none [.leaf "c1" s, .leaf "c2" s, .leaf "c3" s]) =
      .ok ⟨1, 1, 1, 1, 1, 1, 1, 1, 1⟩ := by
  have h : ∀ (st : RotColumns) (t : String), RotColumns.step T st (.leaf t s) =
      if t = "c1" then .ok { st with c1 := some ⟨1, 1, 1⟩ }
      else if t = "c2" then .ok { st with c2 := some ⟨1, 1, 1⟩ }
      else if t = "c3" then .ok { st with c3 := some ⟨1, 1, 1⟩ }
      else .error .valueError := by
    intro st t
    unfold RotColumns.step readNumbers Xml.leaf Xml.text
    simp only [hs]
    rfl
  unfold Rot3.fromXml
  simp only [Xml.tag, Xml.children, List.foldlM_cons, List.foldlM_nil, h, ne_eq, not_true_eq_false, if_false, if_true,
    bind, Except.bind, pure, Except.pure]
  simp [Mat3.ofColumns]

/-! #### JSON -/

section
variable {K : Type}

/-- **C38 (JSON).** Reading back the JSON of any pose gives the pose itself. -/
theorem C38_json_round_trip (p : Pose3 K) :
    ∃ r, Pose3.fromJson (Pose3.toJson p) = .ok r ∧ Pose3.ofColumns? r = some p := by
  refine ⟨([[p.R.m00, p.R.m10, p.R.m20], [p.R.m01, p.R.m11, p.R.m21], [p.R.m02, p.R.m12, p.R.m22]], p.t), ?_, rfl⟩
  simp [Pose3.fromJson, Pose3.toJson, Rot3.toJson, Rot3.fromJson, Json.getItem, Dict.get, Dict.get?, Json.ofVec,
    Json.nums?, Json.num?, bind, Except.bind]

theorem dict_get_error {κ υ : Type} [DecidableEq κ] {d : Dict κ υ} {k : κ} (h : k ∉ d.keys) :
    d.get k = .error .keyError := by
  unfold Dict.get
  cases hg : d.get? k with
  | none => rfl
  | some v =>
    exfalso; apply h
    revert hg
    induction d with
    | nil => simp [Dict.get?]
    | cons a d ih =>
      unfold Dict.get?
      split_ifs with he
      · intro _; simp [Dict.keys, he]
      · intro hg
        have := ih (by intro hm; exact h (by simp only [Dict.keys, List.map_cons, List.mem_cons]; exact Or.inr hm)) hg
        simp only [Dict.keys, List.map_cons, List.mem_cons]; exact Or.inr this

/-- **C38 (malformed JSON).** A dictionary without one of the two fields raises (`KeyError`; the documentation announces
`ValueError`). -/
theorem C38_json_missing (d : List (String × Json K)) (h : "Rotation" ∉ Dict.keys d) :
    Pose3.fromJson (.obj d) = .error .keyError := by
  unfold Pose3.fromJson Json.getItem
  simp only [dict_get_error h, bind, Except.bind]

/-- **C38 (malformed JSON)** as worded is false: columns of two numbers are accepted. -/
theorem C38_false_json (a : K) : ∃ r, Pose3.fromJson (.obj
    [("Rotation", .obj [("X", .arr [.num a, .num a]), ("Y", .arr [.num a, .num a]), ("Z", .arr [.num a, .num a])]),
     ("Translation", .ofVec ⟨a, a, a⟩)]) = .ok r ∧ Pose3.ofColumns? r = none := by
  refine ⟨([[a, a], [a, a], [a, a]], ⟨a, a, a⟩), ?_, rfl⟩
  simp [Pose3.fromJson, Rot3.fromJson, Json.getItem, Dict.get, Dict.get?, Json.ofVec,
    Json.nums?, Json.num?, bind, Except.bind]
end

/-! #### The surreal format -/

/-- **C38 (surreal).** Reading back the surreal dictionary of any pose with a rotation matrix gives the pose itself. -/
theorem C38_surreal_round_trip (p : Pose3 ℝ) (h : IsRotation p.R) :
    Pose3.fromSurreal (Pose3.toSurreal p) = .ok (p.R, [p.t.x, p.t.y, p.t.z]) := by
  have hm := (eigenQuat_isQuatOf h).eigenMatrix
  unfold Pose3.fromSurreal Pose3.toSurreal
  generalize eigenQuatOfMatrix p.R = q at hm
  simp [Json.getItem, Dict.get, Dict.get?, bind, Except.bind, Json.ofVec, Json.nums?, Json.num?, npRollLeft, npRollRight,
    quatOfList, List.rotate_cons_succ, hm]

theorem isRotation_unitQuat (w x y z : ℝ) (h : w ^ 2 + x ^ 2 + y ^ 2 + z ^ 2 = 1) :
    IsRotation (⟨1 - (2 * y * y + 2 * z * z), 2 * y * x - 2 * z * w, 2 * z * x + 2 * y * w,
      2 * y * x + 2 * z * w, 1 - (2 * x * x + 2 * z * z), 2 * z * y - 2 * x * w,
      2 * z * x - 2 * y * w, 2 * z * y + 2 * x * w, 1 - (2 * x * x + 2 * y * y)⟩ : Mat3 ℝ) := by
  rw [isRotation_iff]
  refine ⟨?_, ?_⟩
  · ext <;> simp only [Mat3.mul, Mat3.transpose, Mat3.one]
    · linear_combination (4 * (y ^ 2 + z ^ 2)) * h
    · linear_combination (-4 * x * y) * h
    · linear_combination (-4 * x * z) * h
    · linear_combination (-4 * x * y) * h
    · linear_combination (4 * (x ^ 2 + z ^ 2)) * h
    · linear_combination (-4 * y * z) * h
    · linear_combination (-4 * x * z) * h
    · linear_combination (-4 * y * z) * h
    · linear_combination (4 * (x ^ 2 + y ^ 2)) * h
  · simp only [Mat3.det]
    linear_combination (4 * (x ^ 2 + y ^ 2 + z ^ 2)) * h

theorem isRotation_eigenMatrixOfQuat (w x y z : ℝ) (h : ¬ (x = 0 ∧ y = 0 ∧ z = 0 ∧ w = 0)) :
    IsRotation (eigenMatrixOfQuat ⟨w, x, y, z⟩) := by
  have hn : 0 < w ^ 2 + x ^ 2 + y ^ 2 + z ^ 2 := by
    rcases eq_or_ne x 0 with hx | hx
    · rcases eq_or_ne y 0 with hy | hy
      · rcases eq_or_ne z 0 with hz | hz
        · have hw : w ≠ 0 := fun hw => h ⟨hx, hy, hz, hw⟩
          positivity
        · positivity
      · positivity
    · positivity
  have hs : 0 < Real.sqrt (w ^ 2 + x ^ 2 + y ^ 2 + z ^ 2) := Real.sqrt_pos.2 hn
  have hq := Real.sq_sqrt hn.le
  unfold eigenMatrixOfQuat
  simp only [gt_iff_lt, hn, if_true]
  apply isRotation_unitQuat
  generalize Real.sqrt (w ^ 2 + x ^ 2 + y ^ 2 + z ^ 2) = s at hs hq
  field_simp
  linarith

/-- **C38 (surreal).** Any quaternion but zero is read as a rotation, whatever its length. -/
theorem C38_surreal_rotation (x y z w : ℝ) (h : ¬ (x = 0 ∧ y = 0 ∧ z = 0 ∧ w = 0)) (t : Vec3 ℝ) :
    ∃ R, Pose3.fromSurreal (.obj [("QuaternionXYZW", .arr [.num x, .num y, .num z, .num w]),
      ("Translation", .ofVec t)]) = .ok (R, [t.x, t.y, t.z]) ∧ IsRotation R := by
  refine ⟨eigenMatrixOfQuat ⟨w, x, y, z⟩, ?_, isRotation_eigenMatrixOfQuat w x y z h⟩
  unfold Pose3.fromSurreal
  simp [Json.getItem, Dict.get, Dict.get?, bind, Except.bind, Json.ofVec, Json.nums?, Json.num?, npRollRight, quatOfList,
    List.rotate_cons_succ]

/-! ### C42: boxes survive serialisation -/

theorem close8_lo {a b b' : ℚ} (h : a ≤ b) (hb : Close8 b b') : a - 1 / (2 * 10 ^ 8) * max 1 |a| ≤ b' := by
  have h1 := (abs_le.1 hb).1
  have h2 : 1 / (2 * 10 ^ 8) * max 1 |b| ≤ 1 / (2 * 10 ^ 8) * max 1 |a| + (b - a) := by
    have h3 : |b| ≤ |a| + (b - a) := by
      have := abs_sub_abs_le_abs_sub b a
      rw [abs_of_nonneg (sub_nonneg.2 h)] at this
      linarith
    have h4 : max 1 |b| ≤ max 1 |a| + (b - a) := by
      apply max_le
      · linarith [le_max_left (1 : ℚ) |a|]
      · linarith [le_max_right (1 : ℚ) |a|]
    nlinarith
  linarith

theorem close8_hi {a b a' : ℚ} (h : a ≤ b) (ha : Close8 a a') : a' ≤ b + 1 / (2 * 10 ^ 8) * max 1 |b| := by
  have h1 := (abs_le.1 ha).2
  have h2 : 1 / (2 * 10 ^ 8) * max 1 |a| ≤ 1 / (2 * 10 ^ 8) * max 1 |b| + (b - a) := by
    have h3 : |a| ≤ |b| + (b - a) := by
      have := abs_sub_abs_le_abs_sub a b
      rw [abs_sub_comm, abs_of_nonneg (sub_nonneg.2 h)] at this
      linarith
    have h4 : max 1 |a| ≤ max 1 |b| + (b - a) := by
      apply max_le
      · linarith [le_max_left (1 : ℚ) |b|]
      · linarith [le_max_right (1 : ℚ) |b|]
    nlinarith
  linarith

/-- Sorting two rounded numbers keeps each close to its place. -/
theorem close8_min_max {a b a' b' : ℚ} (h : a ≤ b) (ha : Close8 a a') (hb : Close8 b b') :
    Close8 a (min a' b') ∧ Close8 b (max a' b') := by
  have h1 := abs_le.1 ha
  have h2 := abs_le.1 hb
  have h3 := close8_lo h hb
  have h4 := close8_hi h ha
  rcases le_total a' b' with hc | hc
  · rw [min_eq_left hc, max_eq_right hc]; exact ⟨ha, hb⟩
  · rw [min_eq_right hc, max_eq_left hc]
    exact ⟨abs_le.2 ⟨by linarith, by linarith⟩, abs_le.2 ⟨by linarith, by linarith⟩⟩

/-- **C42.** Reading back the XML of any box succeeds and gives every number to within half a unit of the eighth
decimal (or of the ninth significant digit). -/
theorem C42_round_trip_partial (c1 c2 : Vec3 ℚ) :
    ∃ b, Box3d.fromXml T (Box3d.toXml T (Box3d.mk' c1 c2)) = .ok b ∧ BoxClose (Box3d.mk' c1 c2) b := by
  refine ⟨_, box3d_fromXml_toXml T _, ?_⟩
  have hlo := printedVec_close (Box3d.mk' c1 c2).minCorner
  have hhi := printedVec_close (Box3d.mk' c1 c2).maxCorner
  have hx := close8_min_max (min_le_max (a := c1.x) (b := c2.x)) hlo.1 hhi.1
  have hy := close8_min_max (min_le_max (a := c1.y) (b := c2.y)) hlo.2.1 hhi.2.1
  have hz := close8_min_max (min_le_max (a := c1.z) (b := c2.z)) hlo.2.2 hhi.2.2
  exact ⟨⟨hx.1, hy.1, hz.1⟩, ⟨hx.2, hy.2, hz.2⟩⟩

/-- **C42.** A box whose coordinates have at most eight decimals and nine significant digits is read back exactly. -/
theorem C42_exact (c1 c2 : Vec3 ℚ) (h1 : ShortVec c1) (h2 : ShortVec c2) :
    Box3d.fromXml T (Box3d.toXml T (Box3d.mk' c1 c2)) = .ok (Box3d.mk' c1 c2) := by
  have hmin : ∀ {a b : ℚ}, ShortDecimal a → ShortDecimal b → ShortDecimal (min a b) := by
    intro a b ha hb; rcases min_choice a b with h | h <;> rw [h] <;> assumption
  have hmax : ∀ {a b : ℚ}, ShortDecimal a → ShortDecimal b → ShortDecimal (max a b) := by
    intro a b ha hb; rcases max_choice a b with h | h <;> rw [h] <;> assumption
  rw [box3d_fromXml_toXml]
  have e1 : printedVec (Box3d.mk' c1 c2).minCorner = (Box3d.mk' c1 c2).minCorner :=
    printedVec_short ⟨hmin h1.1 h2.1, hmin h1.2.1 h2.2.1, hmin h1.2.2 h2.2.2⟩
  have e2 : printedVec (Box3d.mk' c1 c2).maxCorner = (Box3d.mk' c1 c2).maxCorner :=
    printedVec_short ⟨hmax h1.1 h2.1, hmax h1.2.1 h2.2.1, hmax h1.2.2 h2.2.2⟩
  rw [e1, e2]
  simp [Box3d.mk', Vec3.vmin, Vec3.vmax]

/-- **C42** as worded is false: a box with a corner at a third is not read back. -/
theorem C42_false : ∃ c1 c2 : Vec3 ℚ,
    Box3d.fromXml T (Box3d.toXml T (Box3d.mk' c1 c2)) ≠ .ok (Box3d.mk' c1 c2) := by
  refine ⟨⟨0, 0, 0⟩, ⟨1 / 3, 0, 0⟩, ?_⟩
  rw [box3d_fromXml_toXml]
  intro h
  have h1 := congrArg (fun r => match r with | .ok p => p.maxCorner.x | .error _ => 0) h
  simp only at h1
  have h2 : (Box3d.mk' (printedVec (Box3d.mk' ⟨0, 0, 0⟩ ⟨1 / 3, 0, 0⟩).minCorner)
    (printedVec (Box3d.mk' ⟨0, 0, 0⟩ ⟨1 / 3, 0, 0⟩).maxCorner) : Box3d ℚ).maxCorner.x = 33333333 / 10 ^ 8 := by decide +kernel
  have h3 : (Box3d.mk' ⟨0, 0, 0⟩ ⟨1 / 3, 0, 0⟩ : Box3d ℚ).maxCorner.x = 1 / 3 := by decide +kernel
  rw [h2, h3] at h1
  norm_num at h1

/-- What one child of `<box3d>` must be. -/
def GoodCorner (e : Xml) : Prop :=
  (e.tag = "corner1" ∨ e.tag = "corner2") ∧ HasNumbers (T.fromstring ",") (fun l => l.length = 3) e

/-- The effect of a good child. -/
def cornerEffect (st : Option (Vec3 ℚ) × Option (Vec3 ℚ)) (e : Xml) : Option (Vec3 ℚ) × Option (Vec3 ℚ) :=
  match Box3d.xmlStep T st e with
  | .ok s => s
  | .error _ => st

theorem corner_step_good (st : Option (Vec3 ℚ) × Option (Vec3 ℚ)) (e : Xml) (h : GoodCorner T e) :
    (e.tag = "corner1" ∧ ∃ v, Box3d.xmlStep T st e = .ok (some v, st.2)) ∨
    (e.tag = "corner2" ∧ ∃ v, Box3d.xmlStep T st e = .ok (st.1, some v)) := by
  obtain ⟨ht, hn⟩ := h
  obtain ⟨l, hl, hP⟩ := (readNumbers_iff T _ e).1 hn
  obtain ⟨a, b, c, rfl⟩ := length_three hP
  rcases ht with ht | ht
  · refine Or.inl ⟨ht, ⟨a, b, c⟩, ?_⟩
    unfold Box3d.xmlStep; rw [if_pos ht, hl]; rfl
  · refine Or.inr ⟨ht, ⟨a, b, c⟩, ?_⟩
    unfold Box3d.xmlStep; rw [ht, hl]; rfl

theorem corner_step_bad (st : Option (Vec3 ℚ) × Option (Vec3 ℚ)) (e : Xml) (h : ¬ GoodCorner T e) :
    ∃ err, Box3d.xmlStep T st e = .error err := by
  unfold Box3d.xmlStep
  split_ifs with h1 h2
  · cases hr : readNumbers T e with
    | error err => exact ⟨err, rfl⟩
    | ok l =>
      simp only [bind, Except.bind]
      split
      · exact absurd ⟨Or.inl h1, (readNumbers_iff T _ e).2 ⟨_, hr, by simp⟩⟩ h
      · exact ⟨_, rfl⟩
  · cases hr : readNumbers T e with
    | error err => exact ⟨err, rfl⟩
    | ok l =>
      simp only [bind, Except.bind]
      split
      · exact absurd ⟨Or.inr h2, (readNumbers_iff T _ e).2 ⟨_, hr, by simp⟩⟩ h
      · exact ⟨_, rfl⟩
  · exact ⟨_, rfl⟩

theorem cornerEffect_fold (l : List Xml) (hl : ∀ e ∈ l, GoodCorner T e) (st : Option (Vec3 ℚ) × Option (Vec3 ℚ)) :
    ((l.foldl (cornerEffect T) st).1.isSome ↔ st.1.isSome ∨ ∃ e ∈ l, e.tag = "corner1") ∧
    ((l.foldl (cornerEffect T) st).2.isSome ↔ st.2.isSome ∨ ∃ e ∈ l, e.tag = "corner2") := by
  induction l generalizing st with
  | nil => simp
  | cons e l ih =>
    obtain ⟨i1, i2⟩ := ih (fun e he => hl e (List.mem_cons_of_mem _ he)) (cornerEffect T st e)
    rw [List.foldl_cons, i1, i2]
    unfold cornerEffect
    rcases corner_step_good T st e (hl e (by simp)) with ⟨h, v, hv⟩ | ⟨h, v, hv⟩ <;> simp [h, hv]

/-- **C42 (malformed documents).** `Box3d.from_xml` returns a box exactly for a `<box3d>` with both corners, each of three
numbers, and nothing else. -/
theorem C42_accepts_iff (e : Xml) : (∃ b, Box3d.fromXml T e = .ok b) ↔ BoxDoc (T.fromstring ",") e := by
  unfold Box3d.fromXml BoxDoc
  by_cases ht : e.tag = "box3d"
  swap
  · simp [ht]
  simp only [ht, ne_eq, not_true_eq_false, if_false, true_and]
  have key := foldlM_ok_iff (step := Box3d.xmlStep T) (good := GoodCorner T) (f := cornerEffect T)
    (fun st a h => by
      unfold cornerEffect
      rcases corner_step_good T st a h with ⟨-, v, hv⟩ | ⟨-, v, hv⟩ <;> rw [hv])
    (corner_step_bad T) e.children (none, none)
  constructor
  · rintro ⟨p, hp⟩
    cases hf : e.children.foldlM (Box3d.xmlStep T) (none, none) with
    | error err => rw [hf] at hp; simp [bind, Except.bind] at hp
    | ok st =>
      rw [hf] at hp
      obtain ⟨h1, h2⟩ := (key st).1 hf
      obtain ⟨i1, i2⟩ := cornerEffect_fold T _ h1 (none, none)
      rw [h2] at i1 i2
      simp only [Option.isSome_none, Bool.false_eq_true, false_or] at i1 i2
      refine ⟨h1, i1.1 ?_, i2.1 ?_⟩ <;>
      · simp only [bind, Except.bind] at hp
        split at hp <;> simp_all
  · rintro ⟨h1, h2⟩
    have hf := (key _).2 ⟨h1, rfl⟩
    obtain ⟨i1, i2⟩ := cornerEffect_fold T _ h1 (none, none)
    rw [hf]
    simp only [Option.isSome_none, Bool.false_eq_true, false_or] at i1 i2
    obtain ⟨x, hx⟩ := Option.isSome_iff_exists.1 (i1.2 h2.1)
    obtain ⟨y, hy⟩ := Option.isSome_iff_exists.1 (i2.2 h2.2)
    refine ⟨Box3d.mk' x y, ?_⟩
    simp only [bind, Except.bind, hx, hy]

/-- **C42 (malformed documents).** Whatever else is in it, a document that is refused is reported as `RuntimeError`, or as
`TypeError` when a corner has no text at all. -/
theorem C42_refuses (e : Xml) (err : PyErr) (h : Box3d.fromXml T e = .error err) :
    err = .runtimeError ∨ (err = .typeError ∧ ∃ c ∈ e.children, c.text = none) := by
  have hs : ∀ (l : List Xml) (st : Option (Vec3 ℚ) × Option (Vec3 ℚ)) (err : PyErr),
      l.foldlM (Box3d.xmlStep T) st = .error err →
      err = .runtimeError ∨ (err = .typeError ∧ ∃ c ∈ l, c.text = none) := by
    intro l
    induction l with
    | nil => intro st err h; simp [pure, Except.pure] at h
    | cons a l ih =>
      intro st err h
      rw [List.foldlM_cons] at h
      cases hst : Box3d.xmlStep T st a with
      | ok s =>
        rw [hst] at h
        rcases ih s err h with h | ⟨h, c, hc, hn⟩
        · exact Or.inl h
        · exact Or.inr ⟨h, c, List.mem_cons_of_mem _ hc, hn⟩
      | error e' =>
        rw [hst] at h
        simp only [bind, Except.bind, Except.error.injEq] at h
        subst h
        unfold Box3d.xmlStep readNumbers at hst
        cases ht : a.text with
        | none =>
          rw [ht] at hst
          simp only [bind, Except.bind] at hst
          split_ifs at hst <;> cases hst
          · exact Or.inr ⟨rfl, a, by simp, ht⟩
          · exact Or.inr ⟨rfl, a, by simp, ht⟩
          · exact Or.inl rfl
        | some s =>
          left
          rw [ht] at hst
          simp only [bind, Except.bind] at hst
          split_ifs at hst
          · split at hst <;> cases hst; rfl
          · split at hst <;> cases hst; rfl
          · cases hst; rfl
  unfold Box3d.fromXml at h
  split_ifs at h
  · cases h; exact Or.inl rfl
  · cases hf : e.children.foldlM (Box3d.xmlStep T) (none, none) with
    | error e' => rw [hf] at h; simp only [bind, Except.bind, Except.error.injEq] at h; subst h; exact hs _ _ _ hf
    | ok st =>
      rw [hf] at h
      simp only [bind, Except.bind] at h
      split at h <;> cases h
      exact Or.inl rfl

/-! ### The assumptions on text conversion are consistent -/

/-- A string of `n` letters. -/
def unary (n : ℕ) : String := String.ofList (List.replicate n 'x')

theorem unary_text (n : ℕ) : XmlText (unary (n + 1)) := by
  constructor
  · intro h
    have := congrArg String.toList h
    simp [unary, List.replicate_succ] at this
  · simp [unary]

theorem stripBrackets_unary (n : ℕ) : stripBrackets (unary n) = unary n := by
  unfold stripBrackets unary
  congr 1
  simp

/-- Text conversions that satisfy the assumptions (numbers are written in unary; only existence matters). -/
def NumText.unary : NumText where
    array2string := fun _ v => Sumo.unary (Encodable.encode [(printedVec v).x, (printedVec v).y, (printedVec v).z] + 1)
    fromstring := fun _ s => ((Encodable.decode (s.toList.length - 1)).getD [] : List ℚ)
    strFloat := fun x => Sumo.unary (Encodable.encode x + 1)
    parseFloat := fun s => .ok ((Encodable.decode (s.toList.length - 1)).getD 0)
    fromstring_array2string := by intro v; rw [stripBrackets_unary]; simp [Sumo.unary]
    parseFloat_strFloat := by intro x; simp [Sumo.unary]
    array2string_text := by intro v; rw [stripBrackets_unary]; exact unary_text _
    strFloat_text := by intro x; exact unary_text _

/-- The assumptions on text conversion are consistent, and compatible with a text that reads as a single number. -/
theorem NumText.exists : ∃ T : NumText, ∃ s, T.fromstring "," s = [1] :=
  ⟨NumText.unary, Sumo.unary (Encodable.encode ([1] : List ℚ) + 1), by simp [NumText.unary, Sumo.unary]⟩

/-- A pose to which the theorems apply: a quarter turn at `(1.5, -0.25, 100)`, read back exactly. -/
example : Pose3.fromXml T (Pose3.toXml T ⟨⟨0, -1, 0, 1, 0, 0, 0, 0, 1⟩, ⟨3 / 2, -1 / 4, 100⟩⟩) =
    .ok ⟨⟨0, -1, 0, 1, 0, 0, 0, 0, 1⟩, ⟨3 / 2, -1 / 4, 100⟩⟩ := by
  have h0 : ShortDecimal 0 := ⟨⟨0, by norm_num⟩, 0, 0, by norm_num, by norm_num⟩
  have h1 : ShortDecimal 1 := ⟨⟨10 ^ 8, by norm_num⟩, 1, 0, by norm_num, by norm_num⟩
  have hm : ShortDecimal (-1) := ⟨⟨-10 ^ 8, by norm_num⟩, -1, 0, by norm_num, by norm_num⟩
  apply C38_xml_exact
  refine ⟨⟨h0, h1, h0⟩, ⟨hm, h0, h0⟩, ⟨h0, h0, h1⟩, ⟨?_, ?_, ?_⟩⟩
  · exact ⟨⟨150000000, by norm_num⟩, 15, -1, by norm_num, by norm_num [zpow_neg]⟩
  · exact ⟨⟨-25000000, by norm_num⟩, -25, -2, by norm_num, by norm_num [zpow_neg]⟩
  · exact ⟨⟨10000000000, by norm_num⟩, 1, 2, by norm_num, by norm_num⟩

/-- A refused document: a pose without rotation. -/
example : ¬ ∃ p, Pose3.fromXml T (.node "pose" [] none [.leaf "translation" "1, 2, 3"]) = .ok p := by
  rw [C38_accepts_iff_partial]
  rintro ⟨-, -, -, c, hc, h⟩
  simp only [Xml.children, List.mem_singleton] at hc
  subst hc
  exact absurd h (by decide)

/-- A pose whose rotation is a quarter turn goes through the surreal format. -/
example : Pose3.fromSurreal (Pose3.toSurreal ⟨⟨0, -1, 0, 1, 0, 0, 0, 0, 1⟩, ⟨1, 2, 3⟩⟩) =
    .ok (⟨0, -1, 0, 1, 0, 0, 0, 0, 1⟩, [1, 2, 3]) := by
  apply C38_surreal_round_trip
  rw [isRotation_iff]
  constructor
  · ext <;> simp [Mat3.mul, Mat3.transpose, Mat3.one]
  · simp [Mat3.det]

end Sumo
