import Verif.Model.Xml
import Verif.Spec.Xml
import Verif.Lemmas.Rotation
import Mathlib.Tactic.Linarith
import Mathlib.Tactic.Ring
import Mathlib.Tactic.NormNum
import Mathlib.Tactic.FieldSimp
import Mathlib.Tactic.Push

/-! # Helper lemmas: number text and XML loops -/

namespace Sumo

theorem roundHalfEven_err (x : ℚ) : |(roundHalfEven x : ℚ) - x| ≤ 1 / 2 := by
  have h1 := Int.floor_le x
  have h2 := Int.lt_floor_add_one x
  unfold roundHalfEven
  simp only
  rw [abs_le]
  split_ifs <;> push_cast <;> constructor <;> linarith

theorem roundHalfEven_int (k : ℤ) : roundHalfEven (k : ℚ) = k := by
  unfold roundHalfEven; simp

theorem ten_zpow_pos (n : ℤ) : (0 : ℚ) < 10 ^ n := zpow_pos (by norm_num) n

theorem roundDecimals_err (n : ℤ) (x : ℚ) : |roundDecimals n x - x| ≤ 1 / 2 * 10 ^ (-n) := by
  have hp := ten_zpow_pos n
  have h := roundHalfEven_err (x * 10 ^ n)
  have e : roundDecimals n x - x = ((roundHalfEven (x * 10 ^ n) : ℚ) - x * 10 ^ n) / 10 ^ n := by
    unfold roundDecimals; field_simp
  rw [e, abs_div, abs_of_pos hp, div_le_iff₀ hp, mul_assoc, ← zpow_add₀ (by norm_num : (10 : ℚ) ≠ 0)]
  simpa using h

theorem roundDecimals_exact {n : ℤ} {x : ℚ} (k : ℤ) (h : x * 10 ^ n = k) : roundDecimals n x = x := by
  have hp := ten_zpow_pos n
  unfold roundDecimals
  rw [h, roundHalfEven_int, ← h]
  field_simp

theorem roundScientific_zero (n : ℤ) : roundScientific n 0 = 0 := by
  unfold roundScientific; exact roundDecimals_exact 0 (by simp)

theorem roundScientific_err (x : ℚ) : |roundScientific 8 x - x| ≤ 1 / (2 * 10 ^ 8) * |x| := by
  by_cases hx : x = 0
  · subst hx; rw [roundScientific_zero]; simp
  have hp : 0 < |x| := abs_pos.2 hx
  have h1 := roundDecimals_err (8 - Int.log 10 |x|) x
  have h2 : (10 : ℚ) ^ Int.log 10 |x| ≤ |x| := by
    have := Int.zpow_log_le_self (b := 10) (by norm_num) hp
    exact_mod_cast this
  have e : (10 : ℚ) ^ (-(8 - Int.log 10 |x|)) = 10 ^ Int.log 10 |x| / 10 ^ 8 := by
    rw [neg_sub, zpow_sub₀ (by norm_num)]; norm_cast
  unfold roundScientific
  rw [e] at h1
  refine le_trans h1 ?_
  have : (1 : ℚ) / 2 * (10 ^ Int.log 10 |x| / 10 ^ 8) = 1 / (2 * 10 ^ 8) * 10 ^ Int.log 10 |x| := by ring
  rw [this]
  exact mul_le_mul_of_nonneg_left h2 (by norm_num)

theorem roundScientific_exact {x : ℚ} {m j : ℤ} (hm : |m| < 10 ^ 9) (hx : x = m * (10 : ℚ) ^ j) :
    roundScientific 8 x = x := by
  by_cases h0 : x = 0
  · rw [h0, roundScientific_zero]
  have hp : 0 < |x| := abs_pos.2 h0
  have h2 : (10 : ℚ) ^ Int.log 10 |x| ≤ |x| := by
    have := Int.zpow_log_le_self (b := 10) (by norm_num) hp
    exact_mod_cast this
  have h3 : |x| < 10 ^ (9 + j) := by
    rw [hx, abs_mul, abs_of_pos (ten_zpow_pos j), zpow_add₀ (by norm_num)]
    apply mul_lt_mul_of_pos_right _ (ten_zpow_pos j)
    have : ((|m| : ℤ) : ℚ) < ((10 ^ 9 : ℤ) : ℚ) := by exact_mod_cast hm
    rw [Int.cast_abs] at this
    exact_mod_cast this
  have h4 : Int.log 10 |x| < 9 + j :=
    (zpow_lt_zpow_iff_right₀ (by norm_num : (1 : ℚ) < 10)).1 (lt_of_le_of_lt h2 h3)
  obtain ⟨d, hd⟩ : ∃ d : ℕ, (8 - Int.log 10 |x|) + j = d := ⟨_, (Int.toNat_of_nonneg (by omega)).symm⟩
  unfold roundScientific
  generalize Int.log 10 |x| = L at hd
  apply roundDecimals_exact (m * 10 ^ d)
  rw [mul_comm, hx, mul_left_comm, ← zpow_add₀ (by norm_num), hd]
  push_cast
  norm_cast

theorem roundDecimals8_err (x : ℚ) : Close8 x (roundDecimals 8 x) := by
  have h := roundDecimals_err 8 x
  unfold Close8
  have e : (1 : ℚ) / 2 * 10 ^ (-8 : ℤ) = 1 / (2 * 10 ^ 8) := by norm_num [zpow_neg]
  rw [e] at h
  refine le_trans h ?_
  have : (1 : ℚ) ≤ max 1 |x| := le_max_left _ _
  nlinarith

theorem roundScientific8_err (x : ℚ) : Close8 x (roundScientific 8 x) := by
  have h := roundScientific_err x
  unfold Close8
  refine le_trans h ?_
  exact mul_le_mul_of_nonneg_left (le_max_right _ _) (by norm_num)

theorem printedVec_close (v : Vec3 ℚ) : VecClose v (printedVec v) := by
  unfold printedVec VecClose
  simp only
  split_ifs
  · exact ⟨roundScientific8_err _, roundScientific8_err _, roundScientific8_err _⟩
  · exact ⟨roundDecimals8_err _, roundDecimals8_err _, roundDecimals8_err _⟩

theorem roundDecimals8_short {x : ℚ} (h : ShortDecimal x) : roundDecimals 8 x = x := by
  obtain ⟨⟨k, hk⟩, -⟩ := h
  apply roundDecimals_exact k
  rw [hk, show ((10 : ℚ) ^ (8 : ℤ)) = 10 ^ 8 by norm_cast]
  field_simp

theorem roundScientific8_short {x : ℚ} (h : ShortDecimal x) : roundScientific 8 x = x := by
  obtain ⟨-, m, j, hm, hx⟩ := h
  exact roundScientific_exact hm hx

theorem printedVec_short {v : Vec3 ℚ} (h : ShortVec v) : printedVec v = v := by
  unfold printedVec
  simp only
  split_ifs
  · ext <;> simp only
    · exact roundScientific8_short h.1
    · exact roundScientific8_short h.2.1
    · exact roundScientific8_short h.2.2
  · ext <;> simp only
    · exact roundDecimals8_short h.1
    · exact roundDecimals8_short h.2.1
    · exact roundDecimals8_short h.2.2

/-- A loop whose step succeeds exactly on good elements succeeds exactly when all are good. -/
theorem foldlM_ok_iff {σ α : Type} {step : σ → α → Except PyErr σ} {good : α → Prop} {f : σ → α → σ}
    (hg : ∀ st a, good a → step st a = .ok (f st a)) (hb : ∀ st a, ¬ good a → ∃ e, step st a = .error e)
    (l : List α) (st st' : σ) :
    l.foldlM step st = .ok st' ↔ (∀ a ∈ l, good a) ∧ l.foldl f st = st' := by
  induction l generalizing st with
  | nil => simp [pure, Except.pure]
  | cons a l ih =>
    rw [List.foldlM_cons]
    by_cases h : good a
    · rw [hg st a h]
      simp only [bind, Except.bind, List.foldl_cons, List.forall_mem_cons, h, true_and]
      exact ih _
    · obtain ⟨e, he⟩ := hb st a h
      rw [he]
      simp only [bind, Except.bind, reduceCtorEq, List.forall_mem_cons, h, false_and]

variable (T : NumText)

theorem readNumbers_leaf_vecText (tag : String) (v : Vec3 ℚ) :
    readNumbers T (.leaf tag (vecText T v)) = .ok [(printedVec v).x, (printedVec v).y, (printedVec v).z] := by
  unfold readNumbers Xml.leaf Xml.text vecText
  simp only
  rw [T.fromstring_array2string]

theorem rot3_fromXml_toXml (R : Rot3 ℚ) : Rot3.fromXml T (Rot3.toXml T R) =
    .ok (Mat3.ofColumns (printedVec R.col0) (printedVec R.col1) (printedVec R.col2)) := by
  have h : ∀ (t : String) (v : Vec3 ℚ), (do columnOf (← readNumbers T (.leaf t (vecText T v)))) =
      .ok (printedVec v) := by
    intro t v; rw [readNumbers_leaf_vecText]; rfl
  have hs : ∀ (st : RotColumns) (t : String) (v : Vec3 ℚ), RotColumns.step T st (.leaf t (vecText T v)) =
      if t = "c1" then .ok { st with c1 := some (printedVec v) }
      else if t = "c2" then .ok { st with c2 := some (printedVec v) }
      else if t = "c3" then .ok { st with c3 := some (printedVec v) }
      else .error .valueError := by
    intro st t v; unfold RotColumns.step; rw [h]; rfl
  unfold Rot3.fromXml Rot3.toXml
  simp only [Xml.tag, Xml.children, List.foldlM_cons, List.foldlM_nil, hs, ne_eq, not_true_eq_false, if_false, if_true,
    bind, Except.bind, pure, Except.pure]
  simp

theorem pose3_fromXml_toXml (p : Pose3 ℚ) : Pose3.fromXml T (Pose3.toXml T p) =
    .ok ⟨Mat3.ofColumns (printedVec p.R.col0) (printedVec p.R.col1) (printedVec p.R.col2), printedVec p.t⟩ := by
  have h1 : ∀ st, Pose3.xmlStep T st (.leaf "translation" (vecText T p.t)) = .ok (some (printedVec p.t), st.2) := by
    intro st; unfold Pose3.xmlStep; rw [readNumbers_leaf_vecText]; rfl
  have h2 : ∀ st, Pose3.xmlStep T st (Rot3.toXml T p.R) =
      .ok (st.1, some (Mat3.ofColumns (printedVec p.R.col0) (printedVec p.R.col1) (printedVec p.R.col2))) := by
    intro st; unfold Pose3.xmlStep; rw [rot3_fromXml_toXml]; rfl
  unfold Pose3.fromXml Pose3.toXml
  simp only [Xml.tag, Xml.children, List.foldlM_cons, List.foldlM_nil, h1, h2, ne_eq, not_true_eq_false, if_false,
    bind, Except.bind, pure, Except.pure]

theorem box3d_fromXml_toXml (b : Box3d ℚ) : Box3d.fromXml T (Box3d.toXml T b) =
    .ok (Box3d.mk' (printedVec b.minCorner) (printedVec b.maxCorner)) := by
  have h1 : ∀ st v, Box3d.xmlStep T st (.leaf "corner1" (vecText T v)) = .ok (some (printedVec v), st.2) := by
    intro st v; unfold Box3d.xmlStep; rw [readNumbers_leaf_vecText]; rfl
  have h2 : ∀ st v, Box3d.xmlStep T st (.leaf "corner2" (vecText T v)) = .ok (st.1, some (printedVec v)) := by
    intro st v; unfold Box3d.xmlStep; rw [readNumbers_leaf_vecText]; rfl
  unfold Box3d.fromXml Box3d.toXml
  simp only [Xml.tag, Xml.children, List.foldlM_cons, List.foldlM_nil, h1, h2, ne_eq, not_true_eq_false, if_false,
    bind, Except.bind, pure, Except.pure]

theorem readNumbers_iff (P : List ℚ → Prop) (e : Xml) :
    HasNumbers (T.fromstring ",") P e ↔ ∃ l, readNumbers T e = .ok l ∧ P l := by
  unfold HasNumbers readNumbers
  cases e.text <;> simp

end Sumo
