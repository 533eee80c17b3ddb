import Verif.Spec.FloatRigid
import Verif.Lemmas.Double
import Verif.Lemmas.Mesh
import Mathlib.Algebra.Order.Ring.Pow
import Mathlib.Analysis.SpecialFunctions.Trigonometric.Bounds

/-!
# Helper lemmas for rotations and poses in machine precision
-/

namespace Sumo
open FloatPoseSpec FloatRigidSpec Fl

theorem vnorm_nonneg (v : Vec3 ℝ) : 0 ≤ v.norm := Real.sqrt_nonneg _

theorem vnorm_sq (v : Vec3 ℝ) : v.norm ^ 2 = v.x ^ 2 + v.y ^ 2 + v.z ^ 2 := by
  rw [Vec3.norm, Real.sq_sqrt (normSq_nonneg' v)]; simp only [Vec3.normSq, Vec3.dot]; ring

theorem vnorm_le {v : Vec3 ℝ} {b : ℝ} (hb : 0 ≤ b) (h : v.x ^ 2 + v.y ^ 2 + v.z ^ 2 ≤ b ^ 2) : v.norm ≤ b := by
  rw [← vnorm_sq] at h
  exact (pow_le_pow_iff_left₀ (vnorm_nonneg v) hb two_ne_zero).1 h

theorem vdot_le (a b : Vec3 ℝ) : a.dot b ≤ a.norm * b.norm := by
  refine le_of_sq_le_sq' ?_ (mul_nonneg (vnorm_nonneg a) (vnorm_nonneg b))
  rw [mul_pow, vnorm_sq, vnorm_sq, Vec3.dot]
  nlinarith [sq_nonneg (a.x * b.y - a.y * b.x), sq_nonneg (a.x * b.z - a.z * b.x), sq_nonneg (a.y * b.z - a.z * b.y)]
where
  le_of_sq_le_sq' {x y : ℝ} (h : x ^ 2 ≤ y ^ 2) (hy : 0 ≤ y) : x ≤ y := (abs_le_of_sq_le_sq' h hy).2

theorem vnorm_add (a b : Vec3 ℝ) : (a + b).norm ≤ a.norm + b.norm := by
  refine vnorm_le (add_nonneg (vnorm_nonneg a) (vnorm_nonneg b)) ?_
  have h := vdot_le a b
  have h1 := vnorm_sq a
  have h2 := vnorm_sq b
  simp only [Vec3.dot, Vec3.add_x, Vec3.add_y, Vec3.add_z] at *
  nlinarith

theorem vnorm_neg (a : Vec3 ℝ) : (-a).norm = a.norm := by
  simp [Vec3.norm, Vec3.normSq, Vec3.dot]

theorem vnorm_sub (a b : Vec3 ℝ) : (a - b).norm ≤ a.norm + b.norm := by
  have h := vnorm_add a (-b)
  rw [vnorm_neg] at h
  convert h using 2
  ext <;> simp [sub_eq_add_neg]

theorem vnorm_sub_comm (a b : Vec3 ℝ) : (a - b).norm = (b - a).norm := by
  rw [← vnorm_neg]
  congr 1
  ext <;> simp

theorem vnorm_tri (a b c : Vec3 ℝ) : (a - c).norm ≤ (a - b).norm + (b - c).norm := by
  have h := vnorm_add (a - b) (b - c)
  convert h using 2
  ext <;> simp

theorem vnorm_le_of (a b : Vec3 ℝ) : a.norm ≤ (a - b).norm + b.norm := by
  have h := vnorm_add (a - b) b
  convert h using 2
  ext <;> simp

theorem vnorm_zero : (0 : Vec3 ℝ).norm = 0 := by simp [Vec3.norm, Vec3.normSq, Vec3.dot]

/-- Entrywise smaller vectors are shorter. -/
theorem vnorm_le_scaled {e w : Vec3 ℝ} {k : ℝ} (hk : 0 ≤ k) (hx : |e.x| ≤ k * |w.x|) (hy : |e.y| ≤ k * |w.y|)
    (hz : |e.z| ≤ k * |w.z|) : e.norm ≤ k * w.norm := by
  refine vnorm_le (mul_nonneg hk (vnorm_nonneg w)) ?_
  rw [mul_pow, vnorm_sq]
  have f : ∀ a b : ℝ, |a| ≤ k * |b| → a ^ 2 ≤ k ^ 2 * b ^ 2 := fun a b h => by
    have := pow_le_pow_left₀ (abs_nonneg a) h 2
    rwa [sq_abs, mul_pow, sq_abs] at this
  have := f _ _ hx
  have := f _ _ hy
  have := f _ _ hz
  linarith

theorem norm_rotate {R : Mat3 ℝ} (hR : IsOrthogonal R) (v : Vec3 ℝ) : (R.mulVec v).norm = v.norm := by
  rw [Vec3.norm, Vec3.norm, normSq_mulVec hR]

/-! ### Rounded sums -/

theorem rv_add (a b : Vec3 ℚ) : rv (a + b) = rv a + rv b := by ext <;> simp [rv]
theorem rv_sub (a b : Vec3 ℚ) : rv (a - b) = rv a - rv b := by ext <;> simp [rv]
theorem rv_neg (a : Vec3 ℚ) : rv (-a) = -rv a := by ext <;> simp [rv]

theorem double_errR (x : ℚ) : |(double x : ℝ) - x| ≤ 1 / 2 ^ 53 * |(x : ℝ)| := by
  have h := double_err x
  have h' : (((|double x - x| : ℚ)) : ℝ) ≤ ((|x| / 2 ^ 53 : ℚ) : ℝ) := by exact_mod_cast h
  push_cast at h'
  linarith

theorem plus_err (a b : Vec3 ℚ) : (rv (plus a b) - (rv a + rv b)).norm ≤ 1 / 2 ^ 53 * ((rv a).norm + (rv b).norm) := by
  refine le_trans (vnorm_le_scaled (k := 1 / 2 ^ 53) (w := rv a + rv b) (by positivity) ?_ ?_ ?_)
    (mul_le_mul_of_nonneg_left (vnorm_add _ _) (by positivity)) <;>
  · have h1 := double_errR (a.x + b.x)
    have h2 := double_errR (a.y + b.y)
    have h3 := double_errR (a.z + b.z)
    push_cast at h1 h2 h3
    simp only [rv, plus, Vec3.add_x, Vec3.add_y, Vec3.add_z, Vec3.sub_x, Vec3.sub_y, Vec3.sub_z]
    assumption

theorem minus_err (a b : Vec3 ℚ) : (rv (minus a b) - (rv a - rv b)).norm ≤ 1 / 2 ^ 53 * ((rv a).norm + (rv b).norm) := by
  refine le_trans (vnorm_le_scaled (k := 1 / 2 ^ 53) (w := rv a - rv b) (by positivity) ?_ ?_ ?_)
    (mul_le_mul_of_nonneg_left (vnorm_sub _ _) (by positivity)) <;>
  · have h1 := double_errR (a.x - b.x)
    have h2 := double_errR (a.y - b.y)
    have h3 := double_errR (a.z - b.z)
    push_cast at h1 h2 h3
    simp only [rv, minus, Vec3.add_x, Vec3.add_y, Vec3.add_z, Vec3.sub_x, Vec3.sub_y, Vec3.sub_z]
    assumption

/-! ### Matrices -/

/-- The sum of the squares of the entries. -/
noncomputable def frobSq (A : Mat3 ℝ) : ℝ :=
  A.m00 ^ 2 + A.m01 ^ 2 + A.m02 ^ 2 + (A.m10 ^ 2 + A.m11 ^ 2 + A.m12 ^ 2) + (A.m20 ^ 2 + A.m21 ^ 2 + A.m22 ^ 2)

theorem cauchy3 (a b c x y z : ℝ) : (a * x + b * y + c * z) ^ 2 ≤ (a ^ 2 + b ^ 2 + c ^ 2) * (x ^ 2 + y ^ 2 + z ^ 2) := by
  nlinarith [sq_nonneg (a * y - b * x), sq_nonneg (a * z - c * x), sq_nonneg (b * z - c * y)]

theorem norm_mulVec_le (A : Mat3 ℝ) (v : Vec3 ℝ) {f : ℝ} (hf : 0 ≤ f) (h : frobSq A ≤ f ^ 2) : (A.mulVec v).norm ≤ f * v.norm := by
  refine vnorm_le (mul_nonneg hf (vnorm_nonneg v)) ?_
  rw [mul_pow, vnorm_sq]
  have h1 := cauchy3 A.m00 A.m01 A.m02 v.x v.y v.z
  have h2 := cauchy3 A.m10 A.m11 A.m12 v.x v.y v.z
  have h3 := cauchy3 A.m20 A.m21 A.m22 v.x v.y v.z
  have h4 := mul_le_mul_of_nonneg_right h (show 0 ≤ v.x ^ 2 + v.y ^ 2 + v.z ^ 2 by positivity)
  simp only [frobSq, Mat3.mulVec] at *
  linarith

/-- A bound on where a matrix moves vectors bounds its entries. -/
theorem frobSq_le {A : Mat3 ℝ} {α : ℝ} (h : ∀ v : Vec3 ℝ, (A.mulVec v).norm ≤ α * v.norm) : frobSq A ≤ 3 * α ^ 2 := by
  have g : ∀ v : Vec3 ℝ, v.norm = 1 → (A.mulVec v).norm ^ 2 ≤ α ^ 2 := fun v hv => by
    have := h v
    rw [hv, mul_one] at this
    exact pow_le_pow_left₀ (vnorm_nonneg _) this 2
  have h1 := g ⟨1, 0, 0⟩ (by simp [Vec3.norm, Vec3.normSq, Vec3.dot])
  have h2 := g ⟨0, 1, 0⟩ (by simp [Vec3.norm, Vec3.normSq, Vec3.dot])
  have h3 := g ⟨0, 0, 1⟩ (by simp [Vec3.norm, Vec3.normSq, Vec3.dot])
  rw [vnorm_sq] at h1 h2 h3
  simp only [Mat3.mulVec, mul_one, mul_zero, add_zero, zero_add] at h1 h2 h3
  simp only [frobSq]
  linarith

theorem dottedR {a b c : ℚ} {p : Vec3 ℚ} {v : ℚ} (h : Dotted a b c p v) :
    ((v : ℝ) - (a * p.x + b * p.y + c * p.z)) ^ 2 ≤ (1 / 2 ^ 50) ^ 2 * ((a ^ 2 + b ^ 2 + c ^ 2) * ((p.x : ℝ) ^ 2 + p.y ^ 2 + p.z ^ 2)) := by
  have h' : ((|v - (a * p.x + b * p.y + c * p.z)| : ℚ) : ℝ) ≤ (((|a * p.x| + |b * p.y| + |c * p.z|) / 2 ^ 50 : ℚ) : ℝ) := by
    exact_mod_cast h
  push_cast at h'
  have h2 := pow_le_pow_left₀ (abs_nonneg _) h' 2
  rw [sq_abs] at h2
  have c := cauchy3 |(a : ℝ)| |(b : ℝ)| |(c : ℝ)| |(p.x : ℝ)| |(p.y : ℝ)| |(p.z : ℝ)|
  simp only [sq_abs] at c
  simp only [abs_mul] at h2
  rw [div_pow] at h2
  refine h2.trans ?_
  rw [div_eq_mul_inv, mul_comm, one_div, inv_pow]
  exact mul_le_mul_of_nonneg_left c (by positivity)

/-- A product of a matrix and a vector. -/
theorem dottedVec_err {A : Mat3 ℚ} {p v : Vec3 ℚ} (h : DottedVec A p v) {α : ℝ} (hα : 0 ≤ α)
    (hA : ∀ v : Vec3 ℝ, ((rm A).mulVec v).norm ≤ α * v.norm) :
    (rv v - (rm A).mulVec (rv p)).norm ≤ 1 / 2 ^ 49 * α * (rv p).norm := by
  refine vnorm_le (by have := vnorm_nonneg (rv p); positivity) ?_
  rw [mul_pow, vnorm_sq]
  have hf := frobSq_le hA
  have h1 := dottedR h.1
  have h2 := dottedR h.2.1
  have h3 := dottedR h.2.2
  simp only [frobSq, rm, rv, Mat3.mulVec, Vec3.sub_x, Vec3.sub_y, Vec3.sub_z] at *
  have h4 := mul_le_mul_of_nonneg_right hf (show 0 ≤ (p.x : ℝ) ^ 2 + (p.y : ℝ) ^ 2 + (p.z : ℝ) ^ 2 by positivity)
  have h5 : 0 ≤ α ^ 2 * ((p.x : ℝ) ^ 2 + (p.y : ℝ) ^ 2 + (p.z : ℝ) ^ 2) := by positivity
  nlinarith

theorem nine_le {y : ℝ} (hy : 0 ≤ y) : ((1 : ℝ) / 2 ^ 50) ^ 2 * (9 * y) ≤ (1 / 2 ^ 48) ^ 2 * y := by
  rw [← mul_assoc]
  exact mul_le_mul_of_nonneg_right (by norm_num) hy

/-- A product of two matrices. -/
theorem mat_err {D : Products} (hD : GoodProducts D) {A B : Mat3 ℚ} {α β : ℝ} (hα : 0 ≤ α) (hβ : 0 ≤ β)
    (hA : ∀ v : Vec3 ℝ, ((rm A).mulVec v).norm ≤ α * v.norm) (hB : ∀ v : Vec3 ℝ, ((rm B).mulVec v).norm ≤ β * v.norm) (v : Vec3 ℝ) :
    ((rm (D.mat A B)).mulVec v - (rm A).mulVec ((rm B).mulVec v)).norm ≤ 1 / 2 ^ 48 * (α * β) * v.norm := by
  obtain ⟨⟨a1, a2, a3⟩, ⟨b1, b2, b3⟩, c1, c2, c3⟩ := hD.mat A B
  set M := D.mat A B
  have e : (rm M).mulVec v - (rm A).mulVec ((rm B).mulVec v) = Mat3.mulVec (K := ℝ)
      ⟨M.m00 - (A.m00 * B.m00 + A.m01 * B.m10 + A.m02 * B.m20), M.m01 - (A.m00 * B.m01 + A.m01 * B.m11 + A.m02 * B.m21),
       M.m02 - (A.m00 * B.m02 + A.m01 * B.m12 + A.m02 * B.m22),
       M.m10 - (A.m10 * B.m00 + A.m11 * B.m10 + A.m12 * B.m20), M.m11 - (A.m10 * B.m01 + A.m11 * B.m11 + A.m12 * B.m21),
       M.m12 - (A.m10 * B.m02 + A.m11 * B.m12 + A.m12 * B.m22),
       M.m20 - (A.m20 * B.m00 + A.m21 * B.m10 + A.m22 * B.m20), M.m21 - (A.m20 * B.m01 + A.m21 * B.m11 + A.m22 * B.m21),
       M.m22 - (A.m20 * B.m02 + A.m21 * B.m12 + A.m22 * B.m22)⟩ v := by
    ext <;> simp [rm, Mat3.mulVec] <;> ring
  rw [e]
  refine norm_mulVec_le _ _ (by positivity) ?_
  have hf := frobSq_le hA
  have hg := frobSq_le hB
  have d := fun {a b c p v} (h : Dotted a b c p v) => dottedR h
  have a1 := d a1
  have a2 := d a2
  have a3 := d a3
  have b1 := d b1
  have b2 := d b2
  have b3 := d b3
  have c1 := d c1
  have c2 := d c2
  have c3 := d c3
  have g0 : 0 ≤ frobSq (rm B) := by unfold frobSq; positivity
  have f0 : 0 ≤ frobSq (rm A) := by unfold frobSq; positivity
  have m : frobSq (rm A) * frobSq (rm B) ≤ 9 * (α * β) ^ 2 := by
    calc _ ≤ 3 * α ^ 2 * (3 * β ^ 2) := mul_le_mul hf hg g0 (by positivity)
      _ = _ := by ring
  have s : ((1 : ℝ) / 2 ^ 50) ^ 2 * (9 * (α * β) ^ 2) ≤ (1 / 2 ^ 48 * (α * β)) ^ 2 := by
    rw [mul_pow (1 / 2 ^ 48)]
    exact nine_le (by positivity)
  refine le_trans ?_ s
  refine le_trans ?_ (mul_le_mul_of_nonneg_left m (by positivity))
  simp only [frobSq, rm] at *
  linarith

theorem mulVec_transpose_dot (A : Mat3 ℝ) (v w : Vec3 ℝ) : (A.transpose.mulVec v).dot w = v.dot (A.mulVec w) := by
  simp only [Mat3.mulVec, Mat3.transpose, Vec3.dot]; ring

theorem norm_transpose_le {A : Mat3 ℝ} {ε : ℝ} (h : ∀ v : Vec3 ℝ, (A.mulVec v).norm ≤ ε * v.norm) (hε : 0 ≤ ε) (w : Vec3 ℝ) :
    (A.transpose.mulVec w).norm ≤ ε * w.norm := by
  set u := A.transpose.mulVec w with hu
  have e : u.norm ^ 2 = w.dot (A.mulVec u) := by
    rw [← mulVec_transpose_dot, vnorm_sq, ← hu, Vec3.dot]; ring
  have h1 := vdot_le w (A.mulVec u)
  have h2 := mul_le_mul_of_nonneg_left (h u) (vnorm_nonneg w)
  by_contra hn
  push Not at hn
  have h3 : 0 < u.norm := lt_of_le_of_lt (mul_nonneg hε (vnorm_nonneg w)) hn
  nlinarith

theorem sub_mulVec (A B : Mat3 ℝ) (v : Vec3 ℝ) : A.mulVec v - B.mulVec v = Mat3.mulVec
    ⟨A.m00 - B.m00, A.m01 - B.m01, A.m02 - B.m02, A.m10 - B.m10, A.m11 - B.m11, A.m12 - B.m12, A.m20 - B.m20, A.m21 - B.m21, A.m22 - B.m22⟩ v := by
  ext <;> simp [Mat3.mulVec] <;> ring

theorem near_transpose {A : Mat3 ℚ} {R : Mat3 ℝ} {ε : ℝ} (hε : 0 ≤ ε) (h : Near ε A R) : Near ε A.transpose R.transpose := by
  intro w
  have h' : ∀ v, _ := fun v => (congrArg Vec3.norm (sub_mulVec (rm A) R v)).symm.trans_le (h v)
  have := norm_transpose_le h' hε w
  rw [sub_mulVec]
  exact this

/-! ### The error terms -/

theorem err_nonneg (n : ℕ) : 0 ≤ err n := sub_nonneg.2 (one_le_pow₀ (by norm_num))

theorem one_le_base : (1 : ℝ) ≤ 1 + 1 / 2 ^ 48 := by norm_num

theorem err_mono {m n : ℕ} (h : m ≤ n) : err m ≤ err n := sub_le_sub_right (pow_le_pow_right₀ one_le_base h) 1

theorem err_add (m n : ℕ) : 1 + err (m + n) = (1 + err m) * (1 + err n) := by
  simp only [err]; rw [pow_add]; ring

theorem err_zero : err 0 = 0 := by simp [err]
theorem err_one : err 1 = 1 / 2 ^ 48 := by simp [err]

theorem near_norm {A : Mat3 ℚ} {R : Mat3 ℝ} {ε : ℝ} (hR : IsOrthogonal R) (h : Near ε A R) (v : Vec3 ℝ) :
    ((rm A).mulVec v).norm ≤ (1 + ε) * v.norm := by
  have := vnorm_le_of ((rm A).mulVec v) (R.mulVec v)
  rw [norm_rotate hR] at this
  have := h v
  linarith

/-- An approximate rotation of an approximate vector, rounded once more. -/
theorem near_apply {A : Mat3 ℚ} {R : Mat3 ℝ} {m n : ℕ} (hR : IsOrthogonal R) (h : Near (err m) A R)
    {v w : Vec3 ℚ} (hD : DottedVec A v w) {u : Vec3 ℝ} {s : ℝ} (hu : u.norm ≤ s) (hv : (rv v - u).norm ≤ err n * s) :
    (rv w - R.mulVec u).norm ≤ ((1 + err (m + n)) * (1 + 1 / 2 ^ 49) - 1) * s := by
  have hs : 0 ≤ s := (vnorm_nonneg u).trans hu
  have e1 := dottedVec_err hD (by linarith [err_nonneg m]) (near_norm hR h)
  have e2 := h (rv v)
  have e3 : (R.mulVec (rv v) - R.mulVec u).norm ≤ err n * s := by
    rw [← mulVec_sub, norm_rotate hR]; exact hv
  have l : (rv v).norm ≤ (1 + err n) * s := by
    have := vnorm_le_of (rv v) u
    linarith
  have t1 := vnorm_tri (rv w) ((rm A).mulVec (rv v)) (R.mulVec u)
  have t2 := vnorm_tri ((rm A).mulVec (rv v)) (R.mulVec (rv v)) (R.mulVec u)
  have l1 := mul_le_mul_of_nonneg_left l (show 0 ≤ err m from err_nonneg m)
  have l2 := mul_le_mul_of_nonneg_left l (show 0 ≤ 1 / 2 ^ 49 * (1 + err m) by have := err_nonneg m; positivity)
  have ea := err_add m n
  calc _ ≤ 1 / 2 ^ 49 * (1 + err m) * ((1 + err n) * s) + (err m * ((1 + err n) * s) + err n * s) := by linarith
    _ = (((1 + err m) * (1 + err n)) * (1 + 1 / 2 ^ 49) - 1) * s := by ring
    _ = _ := by rw [ea]

theorem err_round {m n : ℕ} (h : m + 1 ≤ n) : (1 + err m) * (1 + 1 / 2 ^ 49) * (1 + 1 / 2 ^ 53) ≤ 1 + err n := by
  have h1 := err_add m 1
  have h2 := err_mono h
  have h3 := err_nonneg m
  rw [err_one] at h1
  nlinarith

/-- A rounded sum of an approximate rotated vector and an approximate vector. -/
theorem near_plus {a b : Vec3 ℚ} {u w : Vec3 ℝ} {s s' : ℝ} {m m' n : ℕ} (hu : u.norm ≤ s) (hw : w.norm ≤ s') (hm : m + 1 ≤ n)
    (hm' : m' + 1 ≤ n) (ha : (rv a - u).norm ≤ ((1 + err m) * (1 + 1 / 2 ^ 49) - 1) * s) (hb : (rv b - w).norm ≤ err m' * s') :
    (rv (plus a b) - (u + w)).norm ≤ err n * (s + s') := by
  have hs := (vnorm_nonneg u).trans hu
  have hs' := (vnorm_nonneg w).trans hw
  have e := plus_err a b
  have la := vnorm_le_of (rv a) u
  have lb := vnorm_le_of (rv b) w
  have t := vnorm_tri (rv (plus a b)) (rv a + rv b) (u + w)
  have t2 : (rv a + rv b - (u + w)).norm ≤ (rv a - u).norm + (rv b - w).norm := by
    have := vnorm_add (rv a - u) (rv b - w)
    convert this using 2
    ext <;> simp <;> ring
  have r1 := mul_le_mul_of_nonneg_right (err_round hm) hs
  have r2 := mul_le_mul_of_nonneg_right (err_round hm') hs'
  have n1 := mul_nonneg (err_nonneg m') hs'
  have k1 : (rv a).norm ≤ (1 + err m) * (1 + 1 / 2 ^ 49) * s := by linarith
  have k2 : (rv b).norm ≤ (1 + err m') * s' := by linarith
  have k3 : 0 ≤ (1 + err m') * s' := mul_nonneg (by linarith [err_nonneg m']) hs'
  nlinarith

theorem err_small {n : ℕ} (h : n ≤ 2 ^ 47) : err n ≤ n / 2 ^ 47 := by
  have hn : (n : ℝ) ≤ 2 ^ 47 := by exact_mod_cast h
  have n0 : (0 : ℝ) ≤ n := Nat.cast_nonneg n
  have b := one_add_mul_le_pow (a := -(1 / 2 ^ 48 : ℝ)) (by norm_num) n
  have m : (1 + 1 / 2 ^ 48 : ℝ) ^ n * (1 + -(1 / 2 ^ 48)) ^ n ≤ 1 := by
    rw [← mul_pow]
    exact pow_le_one₀ (by norm_num) (by norm_num)
  have p : (0 : ℝ) ≤ (1 + 1 / 2 ^ 48 : ℝ) ^ n := by positivity
  unfold err
  set x := (1 + 1 / 2 ^ 48 : ℝ) ^ n
  have := mul_le_mul_of_nonneg_left b p
  have hx : 1 ≤ x := one_le_pow₀ one_le_base
  have q : x * (1 - n / 2 ^ 48) ≤ 1 := by
    have e : (1 : ℝ) - n / 2 ^ 48 = 1 + n * -(1 / 2 ^ 48) := by ring
    rw [e]; linarith
  have hk : (n : ℝ) / 2 ^ 48 ≤ 1 / 2 := by rw [div_le_iff₀ (by positivity)]; linarith
  have e : (n : ℝ) / 2 ^ 47 = 2 * (n / 2 ^ 48) := by ring
  rw [e]
  have k0 : (0 : ℝ) ≤ n / 2 ^ 48 := by positivity
  generalize (n : ℝ) / 2 ^ 48 = k at *
  by_contra hc
  push Not at hc
  nlinarith

/-! ### Rotations -/

theorem near_of_entries {A : Mat3 ℚ} {R : Mat3 ℝ} (h : frobSq ⟨A.m00 - R.m00, A.m01 - R.m01, A.m02 - R.m02, A.m10 - R.m10,
    A.m11 - R.m11, A.m12 - R.m12, A.m20 - R.m20, A.m21 - R.m21, A.m22 - R.m22⟩ ≤ (1 / 2 ^ 48) ^ 2) : Near (err 1) A R := by
  intro v
  rw [sub_mulVec, err_one]
  exact norm_mulVec_le _ _ (by positivity) h

theorem near_refl {A : Mat3 ℚ} {R : Mat3 ℝ} (h : rm A = R) (ε : ℝ) (hε : 0 ≤ ε) : Near ε A R := by
  intro v
  have : ((rm A).mulVec v - R.mulVec v) = 0 := by rw [h]; ext <;> simp
  rw [this, vnorm_zero]
  exact mul_nonneg hε (vnorm_nonneg v)

theorem trig_sq {a b : ℝ} (h : |a - b| ≤ 1 / 2 ^ 53) : (a - b) ^ 2 ≤ (1 / 2 ^ 53) ^ 2 := by
  rw [← sq_abs]; exact pow_le_pow_left₀ (abs_nonneg _) h 2

theorem rot_spec {D : Products} {T : Trig} (hD : GoodProducts D) (hT : GoodTrig T) :
    ∀ e : RotE, IsRotation e.ideal ∧ Near (err e.steps) (e.run D T) e.ideal
  | .one => ⟨isRotation_one, near_refl (by ext <;> simp [rm, RotE.run, RotE.ideal, Rot3.identity, Mat3.one]) _ (err_nonneg _)⟩
  | .enu => ⟨by rw [isRotation_iff]; constructor <;> simp [RotE.ideal, Mat3.mul, Mat3.transpose, Mat3.one, Mat3.det],
      near_refl (by ext <;> simp [rm, RotE.run, RotE.ideal, Rot3.ENU_R_CAMERA, Mat3.transpose]) _ (err_nonneg _)⟩
  | .maya => ⟨by rw [isRotation_iff]; constructor <;> simp [RotE.ideal, Mat3.mul, Mat3.transpose, Mat3.one, Mat3.det],
      near_refl (by ext <;> simp [rm, RotE.run, RotE.ideal, Rot3.MAYA_R_CAMERA, Mat3.transpose]) _ (err_nonneg _)⟩
  | .rx t => by
    refine ⟨isRotation_Rx t, near_of_entries ?_⟩
    have h1 := trig_sq (hT.sin t)
    have h2 := trig_sq (hT.cos t)
    simp only [frobSq, RotE.run, RotE.ideal, Fl.Rot3.Rx, Rot3.Rx, Rot3.fromScalars]
    push_cast
    nlinarith
  | .ry t => by
    refine ⟨isRotation_Ry t, near_of_entries ?_⟩
    have h1 := trig_sq (hT.sin t)
    have h2 := trig_sq (hT.cos t)
    simp only [frobSq, RotE.run, RotE.ideal, Fl.Rot3.Ry, Rot3.Ry, Rot3.fromScalars]
    push_cast
    nlinarith
  | .rz t => by
    refine ⟨isRotation_Rz t, near_of_entries ?_⟩
    have h1 := trig_sq (hT.sin t)
    have h2 := trig_sq (hT.cos t)
    simp only [frobSq, RotE.run, RotE.ideal, Fl.Rot3.Rz, Rot3.Rz, Rot3.fromScalars]
    push_cast
    nlinarith
  | .given n A R h => h
  | .mul a b => by
    obtain ⟨ra, na⟩ := rot_spec hD hT a
    obtain ⟨rb, nb⟩ := rot_spec hD hT b
    refine ⟨ra.mul rb, fun v => ?_⟩
    have pa := err_nonneg a.steps
    have pb := err_nonneg b.steps
    have e := mat_err hD (by linarith) (by linarith) (near_norm ra.1 na) (near_norm rb.1 nb) v
    have e1 := na ((rm (b.run D T)).mulVec v)
    have l := near_norm rb.1 nb v
    have e2 : (a.ideal.mulVec ((rm (b.run D T)).mulVec v) - a.ideal.mulVec (b.ideal.mulVec v)).norm ≤ err b.steps * v.norm := by
      rw [← mulVec_sub, norm_rotate ra.1]; exact nb v
    simp only [RotE.run, RotE.ideal, RotE.steps]
    rw [mulVec_mul]
    have t1 := vnorm_tri ((rm (D.mat (a.run D T) (b.run D T))).mulVec v) ((rm (a.run D T)).mulVec ((rm (b.run D T)).mulVec v))
      (a.ideal.mulVec (b.ideal.mulVec v))
    have t2 := vnorm_tri ((rm (a.run D T)).mulVec ((rm (b.run D T)).mulVec v)) (a.ideal.mulVec ((rm (b.run D T)).mulVec v))
      (a.ideal.mulVec (b.ideal.mulVec v))
    have l1 := mul_le_mul_of_nonneg_left l pa
    have ea := err_add (a.steps + b.steps) 1
    rw [err_add a.steps b.steps, err_one] at ea
    have ea' : err (a.steps + b.steps + 1) = (1 + err a.steps) * (1 + err b.steps) * (1 + 1 / 2 ^ 48) - 1 := by linarith
    rw [ea']
    linarith
  | .inv a => by
    obtain ⟨ra, na⟩ := rot_spec hD hT a
    exact ⟨ra.transpose, near_transpose (err_nonneg _) na⟩

/-! ### Poses -/

/-- The exact pose an expression stands for. -/
noncomputable def PoseE.ideal : PoseE → Pose3 ℝ
  | .make R t => ⟨R.ideal, rv t⟩
  | .compose a b => (ideal a).compose (ideal b)
  | .inverse a => (ideal a).inverse

theorem poseE_rot {D : Products} {T : Trig} (hD : GoodProducts D) (hT : GoodTrig T) : ∀ e : PoseE, IsRotation (PoseE.ideal e).R
  | .make R _ => (rot_spec hD hT R).1
  | .compose a b => (poseE_rot hD hT a).mul (poseE_rot hD hT b)
  | .inverse a => (poseE_rot hD hT a).transpose

theorem from_to {a : Pose3 ℝ} (h : IsOrthogonal a.R) (p : Vec3 ℝ) : a.transformFrom (a.transformTo p) = p := by
  simp only [Pose3.transformFrom, Pose3.transformTo, Rot3.apply, Rot3.unrotate]
  rw [← mulVec_mul, h.right, mulVec_one, vsub_add]

theorem to_from {a : Pose3 ℝ} (h : IsOrthogonal a.R) (p : Vec3 ℝ) : a.transformTo (a.transformFrom p) = p := by
  simp only [Pose3.transformFrom, Pose3.transformTo, Rot3.apply, Rot3.unrotate]
  rw [vadd_sub, ← mulVec_mul, h.left, mulVec_one]

theorem invFun_from {a : Pose3 ℝ} (h : IsOrthogonal a.R) : Function.invFun a.transformFrom = a.transformTo := by
  have : Nonempty (Vec3 ℝ) := ⟨0⟩
  have hi : Function.LeftInverse a.transformTo a.transformFrom := to_from h
  funext p
  apply hi.injective
  rw [from_to h]
  exact Function.invFun_eq ⟨_, from_to h p⟩

theorem move_eq {D : Products} {T : Trig} (hD : GoodProducts D) (hT : GoodTrig T) :
    ∀ e : PoseE, e.move = (PoseE.ideal e).transformFrom
  | .make R t => by funext p; simp [PoseE.move, PoseE.ideal, Pose3.transformFrom, Rot3.apply]
  | .compose a b => by
    funext p
    rw [PoseE.move, move_eq hD hT a, move_eq hD hT b]
    simp only [PoseE.ideal, Pose3.transformFrom, Pose3.compose, Rot3.apply, Rot3.compose]
    rw [mulVec_mul, mulVec_add, vadd_assoc]
  | .inverse a => by
    have h := (poseE_rot hD hT a).1
    funext p
    rw [PoseE.move, move_eq hD hT a, invFun_from h]
    simp only [PoseE.ideal, Pose3.transformFrom, Pose3.inverse, Pose3.transformTo, Rot3.apply, Rot3.inverse, Rot3.unrotate]
    rw [mulVec_sub]
    ext <;> simp [sub_eq_add_neg]

theorem pose_spec {D : Products} {T : Trig} (hD : GoodProducts D) (hT : GoodTrig T) : ∀ e : PoseE,
    Near (err e.rotSteps) (e.run D T).R (PoseE.ideal e).R ∧ (PoseE.ideal e).t.norm ≤ e.size ∧
      (rv (e.run D T).t - (PoseE.ideal e).t).norm ≤ err e.steps * e.size
  | .make R t => by
    refine ⟨(rot_spec hD hT R).2, le_refl _, ?_⟩
    have : rv t - rv t = 0 := by ext <;> simp
    simp only [PoseE.run, PoseE.ideal, PoseE.steps, err_zero, zero_mul]
    rw [this, vnorm_zero]
  | .compose a b => by
    obtain ⟨ra, sa, ta⟩ := pose_spec hD hT a
    obtain ⟨rb, sb, tb⟩ := pose_spec hD hT b
    have ia := poseE_rot hD hT a
    have ib := poseE_rot hD hT b
    refine ⟨?_, ?_, ?_⟩
    · exact (rot_spec hD hT (.mul (.given _ _ _ ⟨ia, ra⟩) (.given _ _ _ ⟨ib, rb⟩))).2
    · simp only [PoseE.ideal, Pose3.compose, PoseE.size, Rot3.apply]
      have := vnorm_add ((PoseE.ideal a).R.mulVec (PoseE.ideal b).t) (PoseE.ideal a).t
      rw [norm_rotate ia.1] at this
      linarith
    · have e := near_apply ia.1 ra (hD.vec _ _) sb tb
      have := near_plus (n := max (a.rotSteps + b.steps) a.steps + 1) (by rw [norm_rotate ia.1]; exact sb) sa
        (by simp) (by simp) e ta
      simp only [PoseE.ideal, Pose3.compose, PoseE.size, Rot3.apply, PoseE.steps, PoseE.run, Fl.Pose3.compose]
      rwa [add_comm a.size]
  | .inverse a => by
    obtain ⟨ra, sa, ta⟩ := pose_spec hD hT a
    have ia := poseE_rot hD hT a
    refine ⟨near_transpose (err_nonneg _) ra, ?_, ?_⟩
    · simp only [PoseE.ideal, Pose3.inverse, PoseE.size, Rot3.apply, Rot3.inverse]
      rw [vnorm_neg, norm_rotate ia.transpose.1]
      exact sa
    · have e := near_apply ia.transpose.1 (near_transpose (err_nonneg _) ra) (hD.vec _ _) sa ta
      simp only [PoseE.ideal, Pose3.inverse, PoseE.size, Rot3.apply, PoseE.steps, PoseE.run, Fl.Pose3.inverse, Rot3.inverse]
      rw [rv_neg, ← vnorm_neg]
      have eq : ∀ u w : Vec3 ℝ, -(-u - -w) = u - w := fun u w => by ext <;> simp <;> ring
      rw [eq]
      refine e.trans (mul_le_mul_of_nonneg_right ?_ ((vnorm_nonneg _).trans sa))
      have := err_round (le_refl (a.rotSteps + a.steps + 1))
      have := err_nonneg (a.rotSteps + a.steps)
      nlinarith

theorem from_err {A : Pose3 ℚ} {P : Pose3 ℝ} {r s : ℕ} {S : ℝ} (hR : IsOrthogonal P.R) (hr : Near (err r) A.R P.R)
    (hS : P.t.norm ≤ S) (ht : (rv A.t - P.t).norm ≤ err s * S) {p v : Vec3 ℚ} (hv : DottedVec A.R p v) :
    (rv (plus v A.t) - P.transformFrom (rv p)).norm ≤ err (max r s + 1) * ((rv p).norm + S) := by
  have z : (rv p - rv p).norm ≤ err 0 * (rv p).norm := by
    have : rv p - rv p = 0 := by ext <;> simp
    rw [this, vnorm_zero, err_zero, zero_mul]
  exact near_plus (u := P.R.mulVec (rv p)) (by rw [norm_rotate hR]) hS (by simp) (by simp) (near_apply hR hr hv le_rfl z) ht

theorem to_err {A : Pose3 ℚ} {P : Pose3 ℝ} {r s : ℕ} {S : ℝ} (hR : IsRotation P.R) (hr : Near (err r) A.R P.R)
    (hS : P.t.norm ≤ S) (ht : (rv A.t - P.t).norm ≤ err s * S) {q v : Vec3 ℚ} (hv : DottedVec A.R.transpose (minus q A.t) v) :
    (rv v - P.transformTo (rv q)).norm ≤ err (r + s + 1) * ((rv q).norm + S) := by
  have hS0 := (vnorm_nonneg _).trans hS
  have q0 := vnorm_nonneg (rv q)
  have m := minus_err q A.t
  have lt := vnorm_le_of (rv A.t) P.t
  have hd : (rv q - P.t).norm ≤ (rv q).norm + S := (vnorm_sub _ _).trans (by linarith)
  have e1 : (rv (minus q A.t) - (rv q - P.t)).norm ≤ ((1 + err s) * (1 + 1 / 2 ^ 53) - 1) * ((rv q).norm + S) := by
    have t := vnorm_tri (rv (minus q A.t)) (rv q - rv A.t) (rv q - P.t)
    have t2 : (rv q - rv A.t - (rv q - P.t)).norm = (rv A.t - P.t).norm := by
      rw [vnorm_sub_comm (rv A.t)]; congr 1; ext <;> simp
    have es := err_nonneg s
    have := mul_nonneg es q0
    nlinarith
  -- as `near_apply`, with the rounding of the difference counted apart
  have hr' := near_transpose (err_nonneg _) hr
  have hRt := hR.transpose
  have d1 := dottedVec_err hv (by linarith [err_nonneg r]) (near_norm hRt.1 hr')
  have d2 := hr' (rv (minus q A.t))
  have d3 : (P.R.transpose.mulVec (rv (minus q A.t)) - P.R.transpose.mulVec (rv q - P.t)).norm ≤
      ((1 + err s) * (1 + 1 / 2 ^ 53) - 1) * ((rv q).norm + S) := by rw [← mulVec_sub, norm_rotate hRt.1]; exact e1
  have l : (rv (minus q A.t)).norm ≤ (1 + err s) * (1 + 1 / 2 ^ 53) * ((rv q).norm + S) := by
    have := vnorm_le_of (rv (minus q A.t)) (rv q - P.t)
    linarith
  have t1 := vnorm_tri (rv v) ((rm A.R.transpose).mulVec (rv (minus q A.t))) (P.R.transpose.mulVec (rv q - P.t))
  have t2 := vnorm_tri ((rm A.R.transpose).mulVec (rv (minus q A.t))) (P.R.transpose.mulVec (rv (minus q A.t)))
    (P.R.transpose.mulVec (rv q - P.t))
  have pr := err_nonneg r
  have l1 := mul_le_mul_of_nonneg_left l pr
  have l2 := mul_le_mul_of_nonneg_left l (show 0 ≤ 1 / 2 ^ 49 * (1 + err r) by positivity)
  have ea := err_add r s
  have fin := mul_le_mul_of_nonneg_right (err_round (le_refl (r + s + 1))) (add_nonneg q0 hS0)
  show (rv v - P.R.transpose.mulVec (rv q - P.t)).norm ≤ _
  rw [ea] at fin
  linarith

end Sumo
