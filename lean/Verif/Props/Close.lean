import Verif.Model.Close
import Mathlib.Tactic.Linarith
import Mathlib.Tactic.FieldSimp
import Mathlib.Tactic.Ring
import Mathlib.Tactic.Positivity

/-! # Properties of `almost_equal` (C167) -/

namespace Sumo
namespace Close

variable {rtol atol : ℚ}

/-- What "within the tolerance" means for two entries: both finite and near, or the same infinity. -/
def Near (d : ℚ → ℚ → ℚ) (x y : FVal ℚ) : Prop :=
  (∃ a b, x = .fin a ∧ y = .fin b ∧ |a - b| ≤ d a b) ∨ (x = .posInf ∧ y = .posInf) ∨ (x = .negInf ∧ y = .negInf)

theorem isclose_iff (x y : FVal ℚ) : isclose rtol atol x y = true ↔ Near (fun _ b => atol + rtol * |b|) x y := by
  cases x <;> cases y <;> simp [isclose, Near]

theorem allclose_iff {a b : List (FVal ℚ)} (h : a.length = b.length) :
    allclose rtol atol a b = true ↔ List.Forall₂ (Near fun _ b => atol + rtol * |b|) a b := by
  unfold allclose
  rw [List.all_eq_true, List.forall₂_iff_zip]
  constructor
  · intro g
    exact ⟨h, fun {x y} hxy => (isclose_iff x y).1 (g (x, y) hxy)⟩
  · rintro ⟨-, g⟩ ⟨x, y⟩ hxy
    exact (isclose_iff x y).2 (g hxy)

/-- **C167.** Two poses (or rotations) are almost equal exactly if every entry of the first is within `atol + rtol |y|` of the entry `y` of
the second. -/
theorem C167_pose {a b : Entries} (h : a.length = b.length) :
    almostEqual a b rtol atol = true ↔ List.Forall₂ (Near fun _ y => atol + rtol * |y|) a b := allclose_iff h

/-- **C167.** The same for the corners of boxes. -/
theorem C167_box {a b : BoxEntries} (h1 : a.minCorner.length = b.minCorner.length) (h2 : a.maxCorner.length = b.maxCorner.length) :
    a.almostEqual b rtol atol = true ↔ List.Forall₂ (Near fun _ y => atol + rtol * |y|) a.minCorner b.minCorner ∧
      List.Forall₂ (Near fun _ y => atol + rtol * |y|) a.maxCorner b.maxCorner := by
  unfold BoxEntries.almostEqual
  rw [Bool.and_eq_true, allclose_iff h1, allclose_iff h2]

/-- **C167.** A pose is almost equal to itself exactly if no entry is not-a-number. -/
theorem C167_self_partial (ha : 0 ≤ atol) (hr : 0 ≤ rtol) (a : Entries) : almostEqual a a rtol atol = true ↔ FVal.nan ∉ a := by
  rw [C167_pose rfl, List.forall₂_same]
  constructor
  · intro h hn
    have := h _ hn
    simp [Near] at this
  · intro h x hx
    cases x with
    | fin x => exact .inl ⟨x, x, rfl, rfl, by rw [sub_self, abs_zero]; positivity⟩
    | posInf => exact .inr (.inl ⟨rfl, rfl⟩)
    | negInf => exact .inr (.inr ⟨rfl, rfl⟩)
    | nan => exact absurd hx h

/-- **C167.** Exchanging the two needs at most a slightly larger tolerance: by the factor `1 / (1 - rtol)`. -/
theorem C167_symmetric_partial (hr : 0 ≤ rtol) (h1 : rtol < 1) {a b : Entries} (hl : a.length = b.length)
    (h : almostEqual a b rtol atol = true) : almostEqual b a (rtol / (1 - rtol)) (atol / (1 - rtol)) = true := by
  rw [C167_pose hl] at h
  rw [C167_pose hl.symm]
  refine (List.Forall₂.flip h).imp ?_
  rintro x y (⟨p, q, rfl, rfl, hd⟩ | ⟨rfl, rfl⟩ | ⟨rfl, rfl⟩)
  · refine .inl ⟨q, p, rfl, rfl, ?_⟩
    have hpos : 0 < 1 - rtol := by linarith
    change |p - q| ≤ atol + rtol * |q| at hd
    change |q - p| ≤ atol / (1 - rtol) + rtol / (1 - rtol) * |p|
    rw [abs_sub_comm, div_mul_eq_mul_div, ← add_div, le_div_iff₀ hpos]
    have t : |q| ≤ |p - q| + |p| := by
      have := abs_add_le (q - p) p
      rw [sub_add_cancel, abs_sub_comm] at this
      exact this
    have := mul_le_mul_of_nonneg_left t hr
    linarith
  · exact .inr (.inl ⟨rfl, rfl⟩)
  · exact .inr (.inr ⟨rfl, rfl⟩)

/-- **C167.** Boxes are `==` exactly if they have the same entries, none of them not-a-number. -/
theorem C167_eq {a b : BoxEntries} :
    a.eq b = true ↔ a = b ∧ FVal.nan ∉ a.minCorner ∧ FVal.nan ∉ a.maxCorner := by
  have key : ∀ l k : List (FVal ℚ), arrayEqual l k = true ↔ l = k ∧ FVal.nan ∉ l := by
    intro l k
    unfold arrayEqual
    rw [Bool.and_eq_true, decide_eq_true_eq, List.all_eq_true]
    have e : ∀ x y : FVal ℚ, equalEntry x y = true ↔ x = y ∧ x ≠ .nan := by
      intro x y; cases x <;> cases y <;> simp [equalEntry]
    constructor
    · rintro ⟨hl, g⟩
      have f : List.Forall₂ (fun x y => x = y ∧ x ≠ FVal.nan) l k :=
        List.forall₂_iff_zip.2 ⟨hl, fun {x y} hxy => (e x y).1 (g (x, y) hxy)⟩
      refine ⟨List.forall₂_eq_eq_eq ▸ f.imp fun _ _ h => h.1, fun hn => ?_⟩
      obtain ⟨i, hi, hx⟩ := List.mem_iff_getElem.1 hn
      have := (List.forall₂_iff_get.1 f).2 i hi (by omega)
      exact this.2 (by simpa using hx)
    · rintro ⟨rfl, hn⟩
      refine ⟨rfl, ?_⟩
      rintro ⟨x, y⟩ hxy
      have : x = y ∧ x ∈ l := by
        rw [List.mem_iff_getElem] at hxy
        obtain ⟨i, hi, h⟩ := hxy
        rw [List.getElem_zip] at h
        injection h with h1 h2
        exact ⟨h1.symm.trans h2, h1 ▸ List.getElem_mem _⟩
      exact (e x y).2 ⟨this.1, fun h => hn (h ▸ this.2)⟩
  unfold BoxEntries.eq
  rw [Bool.and_eq_true, key, key]
  obtain ⟨a1, a2⟩ := a
  obtain ⟨b1, b2⟩ := b
  simp only [BoxEntries.mk.injEq]
  constructor
  · rintro ⟨⟨h1, h2⟩, h3, h4⟩; exact ⟨⟨h1, h3⟩, h2, h4⟩
  · rintro ⟨⟨h1, h3⟩, h2, h4⟩; exact ⟨⟨h1, h2⟩, h3, h4⟩

/-- **C167.** Boxes that are `==` are almost equal, with every tolerance. -/
theorem C167_eq_close (ha : 0 ≤ atol) (hr : 0 ≤ rtol) {a b : BoxEntries} (h : a.eq b = true) : a.almostEqual b rtol atol = true := by
  obtain ⟨rfl, h1, h2⟩ := C167_eq.1 h
  unfold BoxEntries.almostEqual
  rw [Bool.and_eq_true]
  exact ⟨(C167_self_partial ha hr _).2 h1, (C167_self_partial ha hr _).2 h2⟩

/-- Non-vacuity. -/
example : (BoxEntries.mk [.fin 0, .fin 0, .negInf] [.fin 1, .fin 2, .posInf]).eq ⟨[.fin 0, .fin 0, .negInf], [.fin 1, .fin 2, .posInf]⟩ = true := by
  decide +kernel

/-- **C167.** False of the code: `almost_equal` is not symmetric; it is not transitive; and a pose with an entry that is not a number is not
almost equal to itself. -/
theorem C167_false :
    (∃ a b : BoxEntries, a.almostEqual b = true ∧ b.almostEqual a = false) ∧
      (∃ a b c : BoxEntries, a.almostEqual b = true ∧ b.almostEqual c = true ∧ a.almostEqual c = false) ∧
      ∃ a : Entries, almostEqual a a = false := by
  refine ⟨⟨⟨[.fin 0, .fin 0, .fin 0], [.fin 1, .fin 1, .fin 100000]⟩, ⟨[.fin 0, .fin 0, .fin 0], [.fin 1, .fin 1, .fin (100001 + 1 / 10 ^ 6)]⟩,
    by decide +kernel, by decide +kernel⟩,
    ⟨⟨[.fin 0, .fin 0, .fin 0], [.fin 0, .fin 0, .fin 0]⟩, ⟨[.fin 0, .fin 0, .fin 0], [.fin 0, .fin 0, .fin (1 / 10 ^ 8)]⟩,
      ⟨[.fin 0, .fin 0, .fin 0], [.fin 0, .fin 0, .fin (2 / 10 ^ 8)]⟩, by decide +kernel, by decide +kernel, by decide +kernel⟩,
    [.nan], by decide +kernel⟩

/-- Non-vacuity. -/
example : almostEqual [.fin 1, .posInf, .fin 0] [.fin (1 + 1 / 10 ^ 6), .posInf, .fin (1 / 10 ^ 9)] = true := by decide +kernel

end Close
end Sumo
