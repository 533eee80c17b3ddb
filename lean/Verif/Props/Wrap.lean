import Verif.Spec.Wrap
import Mathlib.Tactic.Ring
import Mathlib.Tactic.Linarith

/-!
# Images between numpy and OpenCV (C183, C184)
-/

namespace Sumo.Wrap

theorem copy_element (mem : Memory) (data : ℤ) {n k size : ℕ} (h : (k + 1) * size ≤ n) :
    ((copy mem data n).drop (k * size)).take size = (List.range size).map fun b : ℕ => mem (data + (k * size : ℕ) + b) := by
  apply List.ext_getElem?
  intro i
  have : k * size + size ≤ n := by rw [Nat.succ_mul] at h; exact h
  by_cases hi : i < size
  · rw [List.getElem?_take_of_lt hi, List.getElem?_drop, copy, List.getElem?_map, List.getElem?_map,
      List.getElem?_range (by omega), List.getElem?_range hi]
    simp only [Option.map_some, Nat.cast_add, add_assoc]
  · rw [List.getElem?_eq_none (by simp; omega), List.getElem?_eq_none (by simp; omega)]

theorem newMat_ok {r c : ℕ} {t : DType} {n : ℕ} {d s : ℤ} {m : Mat} (h : newMat r c t n d s = .ok m) :
    m.rows = r ∧ m.cols = c ∧ m.dtype = t ∧ m.channels = n ∧ m.data = d ∧ (r ≠ 1 → m.step = s) ∧ (r = 1 → m.step = c * n * t.size) := by
  unfold newMat at h
  split_ifs at h with h1
  · injection h with h; subst h; exact ⟨rfl, rfl, rfl, rfl, rfl, fun c => absurd h1 c, fun _ => rfl⟩
  · injection h with h; subst h; exact ⟨rfl, rfl, rfl, rfl, rfl, fun _ => rfl, fun c => absurd c h1⟩

/-- The rows of an image follow each other in memory. -/
theorem number_lt {y x r c : ℕ} (hy : y < r) (hx : x < c) : y * c + x + 1 ≤ r * c := by
  have : (y + 1) * c ≤ r * c := Nat.mul_le_mul_right c hy
  rw [Nat.succ_mul] at this; omega

theorem mat1_ok {t : DType} {a : Arr} {m : Mat} (h : mat1FromArray t a = .ok m) :
    ∃ (r c : ℕ) (s0 : ℤ) (l : List ℤ), a.dtype = t ∧ a.shape = [r, c] ∧ a.strides = s0 :: l ∧ contiguous a = true ∧ a.data ≠ 0 ∧
      newMat r c t 1 a.data s0 = .ok m := by
  unfold mat1FromArray at h
  by_cases ht : a.dtype = t
  swap
  · rw [if_pos ht] at h; exact absurd h (by simp)
  rw [if_neg (not_not.2 ht)] at h
  split at h
  · rename_i r c s0 l hsh hst
    split_ifs at h with h1 h2
    exact ⟨r, c, s0, l, ht, hsh, hst, by simpa using h1, h2, h⟩
  · exact absurd h (by simp)

/-- **C183**: an array that `mat1b_from_array`, `mat1w_from_array` or `mat1f_from_array` accepts is seen by OpenCV with the same size and
the same elements. -/
theorem C183_view {t : DType} {a : Arr} {m : Mat} (hs : a.strides.length = a.shape.length) (h : mat1FromArray t a = .ok m) (mem : Memory) :
    a.dtype = t ∧ m.dtype = t ∧ m.channels = 1 ∧ a.shape = [m.rows, m.cols] ∧
      ∀ y < m.rows, ∀ x < m.cols, m.element mem y x 0 = a.element mem [y, x] := by
  obtain ⟨r, c, s0, l, ht, hsh, hst, hc, hd, hm⟩ := mat1_ok h
  obtain ⟨rfl, rfl, e3, e4, e5, e6, e7⟩ := newMat_ok hm
  refine ⟨ht, e3, e4, hsh, ?_⟩
  intro y hy x hx
  rw [hst, hsh] at hs
  obtain ⟨s1, rfl⟩ : ∃ s1, l = [s1] := by
    match l, hs with
    | [s1], _ => exact ⟨s1, rfl⟩
  have hcs : (m.rows = 1 ∨ s0 = m.cols * t.size) ∧ (m.cols = 1 ∨ s1 = t.size) := by
    unfold contiguous at hc
    rw [hsh, hst, ht] at hc
    simp [cStrides] at hc
    rcases hc with hc | hc
    · omega
    · exact hc
  unfold Mat.element Arr.element
  rw [ht, hst, e3, e4, e5]
  refine List.map_congr_left fun b _ => ?_
  congr 1
  have hy' : (y : ℤ) * m.step = y * s0 := by
    by_cases h1 : m.rows = 1
    · have : y = 0 := by omega
      simp [this]
    · rw [e6 h1]
  have hx' : (x : ℤ) * s1 = x * t.size := by
    rcases hcs.2 with h1 | h1
    · have : x = 0 := by omega
      simp [this]
    · rw [h1]
  simp only [List.zip_cons_cons, List.zip_nil_left, List.map_cons, List.map_nil, List.sum_cons, List.sum_nil, hy', hx']
  push_cast
  ring

/-- **C183**: the array that `array_from_mat1b`, `array_from_mat1w` or `array_from_mat1f` makes of such an image has the type, the shape and
the elements of the array it came from, whatever was in the new memory. -/
theorem C183_round_trip {t : DType} {a : Arr} {m : Mat} (hs : a.strides.length = a.shape.length) (h : mat1FromArray t a = .ok m)
    (mem : Memory) (junk : List UInt8) :
    (arrayFromMat1 mem junk m).dtype = a.dtype ∧ (arrayFromMat1 mem junk m).shape = a.shape ∧
      ∀ y < m.rows, ∀ x < m.cols, (arrayFromMat1 mem junk m).element (y * m.cols + x) = a.element mem [y, x] := by
  obtain ⟨ht, hmt, hch, hsh, hel⟩ := C183_view hs h mem
  refine ⟨hmt.trans ht.symm, hsh.symm, ?_⟩
  intro y hy x hx
  rw [← hel y hy x hx]
  obtain ⟨r, c, s0, l, -, hsh', hst, hc, hd, hm⟩ := mat1_ok h
  obtain ⟨rfl, rfl, e3, e4, e5, e6, e7⟩ := newMat_ok hm
  have hstep : (y : ℤ) * m.step = y * (m.cols * t.size) := by
    by_cases h1 : m.rows = 1
    · have : y = 0 := by omega
      simp [this]
    · rw [e6 h1]
      unfold contiguous at hc
      rw [hsh', hst, ht] at hc
      rw [hst, hsh'] at hs
      match l, hs with
      | [s1], _ =>
        simp [cStrides] at hc
        rcases hc with hc | hc
        · omega
        · rcases hc.1 with hc | hc
          · exact absurd hc h1
          · rw [hc]
  unfold NewArr.element arrayFromMat1 Mat.element
  rw [if_pos (by rw [e5]; exact hd)]
  simp only
  rw [copy_element mem m.data (Nat.mul_le_mul_right _ (number_lt hy hx))]
  refine List.map_congr_left fun b _ => ?_
  congr 1
  rw [hch, hmt, hstep]
  push_cast
  ring

/-- **C183**: an array in C order with elements of one (`uint8`), two (`uint16`) or four bytes (`float32`) is accepted, and the new array has so
many bytes for each element. -/
theorem C183_accepted (r c : ℕ) (data : ℤ) (hd : data ≠ 0) (mem : Memory) (junk : List UInt8) {t : DType} {k : ℕ}
    (hk : (t, k) ∈ [(DType.uint8, 1), (DType.uint16, 2), (DType.float32, 4)]) :
    ∃ m, mat1FromArray t ⟨t, [r, c], [c * k, k], data⟩ = .ok m ∧ (arrayFromMat1 mem junk m).bytes.length = r * c * k := by
  have hs : t.size = k := by
    simp only [List.mem_cons, Prod.mk.injEq, List.not_mem_nil, or_false] at hk
    rcases hk with ⟨rfl, rfl⟩ | ⟨rfl, rfl⟩ | ⟨rfl, rfl⟩ <;> rfl
  have hc : contiguous ⟨t, [r, c], [c * k, k], data⟩ = true := by
    unfold contiguous
    simp [cStrides, hs]
  have hm : ∃ m, newMat r c t 1 data (c * k) = .ok m := by
    unfold newMat
    split_ifs with h1 h2
    · exact ⟨_, rfl⟩
    · rw [hs] at h2; exact absurd (Int.mul_emod_left _ _) h2
    · exact ⟨_, rfl⟩
  obtain ⟨m, hm⟩ := hm
  obtain ⟨e1, e2, e3, e4, e5, -⟩ := newMat_ok hm
  refine ⟨m, ?_, ?_⟩
  · unfold mat1FromArray
    rw [if_neg (by simp)]
    simp only
    rw [if_neg (by rw [hc]; simp), if_neg hd, hm]
  · unfold arrayFromMat1
    simp only
    rw [if_pos (by rw [e5]; exact hd), copy, List.length_map, List.length_range, e1, e2, e3, hs]

/-- Arrays of another type or number of dimensions, and arrays that are not contiguous, are refused. -/
theorem C183_refused (t : DType) (a : Arr) (h : a.dtype ≠ t ∨ a.shape.length ≠ 2 ∨ contiguous a = false) :
    mat1FromArray t a = .error .valueError := by
  unfold mat1FromArray
  by_cases ht : a.dtype = t
  · rw [if_neg (not_not.2 ht)]
    split
    · rename_i r c s0 l hsh hst
      rcases h with h | h | h
      · exact absurd ht h
      · exact absurd (by rw [hsh]; rfl) h
      · rw [if_pos h]
    · rfl
  · rw [if_pos ht]

/-- A 2×3 image of `float32`, accepted; its transpose is refused. -/
example : mat1FromArray .float32 ⟨.float32, [2, 3], [12, 4], 100⟩ = .ok ⟨2, 3, .float32, 1, 100, 12⟩ ∧
    mat1FromArray .float32 ⟨.float32, [3, 2], [4, 12], 100⟩ = .error .valueError := by decide +kernel

/-- **C184** as worded: an array that `mat_from_array` accepts is seen by OpenCV with its own elements. -/
def C184_statement : Prop := ∀ (a : Arr) (m : Mat) (mem : Memory), a.strides.length = a.shape.length → matFromArray a = .ok m →
  ∀ y < m.rows, ∀ x < m.cols, (a.shape.length = 2 → m.element mem y x 0 = a.element mem [y, x]) ∧
    (a.shape.length = 3 → ∀ k < 3, m.element mem y x k = a.element mem [y, x, k])

/-- **C184** is false: of an image with the order of its channels reversed (`image[:, :, ::-1]`, the usual way from RGB to BGR) OpenCV sees
other bytes, of which some do not belong to the image. -/
theorem C184_false : ¬ C184_statement := by
  intro h
  have := (h ⟨.uint8, [1, 1, 3], [3, 3, -1], 102⟩ ⟨1, 1, .uint8, 3, 102, 3⟩ (fun i => UInt8.ofNat i.toNat) rfl rfl 0 (by decide) 0
    (by decide)).2 rfl 1 (by decide)
  revert this
  decide +kernel

/-- **C184** is false also of images with an alpha channel: the second pixel begins with the alpha of the first. -/
theorem C184_alpha_false : ∃ (a : Arr) (m : Mat) (mem : Memory), contiguous a = true ∧ a.shape = [1, 2, 4] ∧ matFromArray a = .ok m ∧
    m.element mem 0 1 0 = a.element mem [0, 0, 3] ∧ m.element mem 0 1 0 ≠ a.element mem [0, 1, 0] :=
  ⟨⟨.uint8, [1, 2, 4], [8, 4, 1], 100⟩, ⟨1, 2, .uint8, 3, 100, 6⟩, fun i => UInt8.ofNat i.toNat, by decide +kernel⟩

/-- **C184** is false of the way back: of a part of an image (`image[:, :1]`), which OpenCV sees correctly, `array_from_mat` makes an
array with other elements. -/
theorem C184_part_false : ∃ (a : Arr) (m : Mat) (mem : Memory) (b : NewArr), a.shape = [2, 1] ∧ matFromArray a = .ok m ∧
    (∀ y < 2, m.element mem y 0 0 = a.element mem [y, 0]) ∧ arrayFromMat mem [] m = .ok b ∧ b.element 1 ≠ a.element mem [1, 0] :=
  ⟨⟨.uint8, [2, 1], [2, 1], 100⟩, ⟨2, 1, .uint8, 1, 100, 2⟩, fun i => UInt8.ofNat i.toNat, ⟨.uint8, [2, 1], [100, 101]⟩, by decide +kernel⟩

/-- **C184**, the part that holds: if the elements of each row follow each other in memory, and a colour image has three channels, OpenCV
sees the elements of the array, whatever the distance of the rows; if the rows also follow each other, `array_from_mat` gives the same
type, shape and elements back. -/
theorem C184_grey_partial (r c : ℕ) (t : DType) (s0 : ℤ) (data : ℤ) {m : Mat} (mem : Memory) (junk : List UInt8)
    (h : matFromArray ⟨t, [r, c], [s0, t.size], data⟩ = .ok m) :
    m.rows = r ∧ m.cols = c ∧ m.channels = 1 ∧
    (∀ y < r, ∀ x < c, m.element mem y x 0 = Arr.element mem ⟨t, [r, c], [s0, t.size], data⟩ [y, x]) ∧
    (s0 = c * t.size → ∃ b, arrayFromMat mem junk m = .ok b ∧ b.dtype = t ∧ b.shape = [r, c] ∧
      ∀ y < r, ∀ x < c, b.element (y * c + x) = Arr.element mem ⟨t, [r, c], [s0, t.size], data⟩ [y, x]) := by
  unfold matFromArray at h
  simp only at h
  by_cases hd : data = 0
  · rw [if_pos hd] at h; exact absurd h (by simp)
  rw [if_neg hd] at h
  have hm : newMat r c t 1 data s0 = .ok m ∧ (t = .uint8 ∨ t = .float32) := by
    split_ifs at h with h1 h2
    · subst h1; exact ⟨h, Or.inl rfl⟩
    · subst h2; exact ⟨h, Or.inr rfl⟩
  obtain ⟨hm, ht⟩ := hm
  obtain ⟨e1, e2, e3, e4, e5, e6, e7⟩ := newMat_ok hm
  have hy : ∀ y < r, (y : ℤ) * m.step = y * s0 := by
    intro y hy
    by_cases h1 : r = 1
    · have : y = 0 := by omega
      simp [this]
    · rw [e6 h1]
  have view : ∀ y < r, ∀ x < c, m.element mem y x 0 = Arr.element mem ⟨t, [r, c], [s0, t.size], data⟩ [y, x] := by
    intro y hyr x hx
    unfold Mat.element Arr.element
    rw [e3, e4, e5]
    refine List.map_congr_left fun b _ => ?_
    congr 1
    simp only [List.zip_cons_cons, List.zip_nil_left, List.map_cons, List.map_nil, List.sum_cons, List.sum_nil, hy y hyr]
    push_cast
    ring
  refine ⟨e1, e2, e4, view, ?_⟩
  intro hs
  refine ⟨⟨m.dtype, [m.rows, m.cols], copy mem m.data (m.rows * m.cols * 1 * m.dtype.size)⟩, ?_, e3, by rw [e1, e2], ?_⟩
  · unfold arrayFromMat
    rw [if_pos e4, if_pos (by rw [e3]; exact ht), if_pos (by rw [e5]; exact hd)]
  · intro y hyr x hx
    rw [← view y hyr x hx]
    unfold NewArr.element Mat.element
    simp only
    rw [copy_element mem m.data (Nat.mul_le_mul_right _ (by rw [e1, e2, mul_one]; exact number_lt hyr hx))]
    refine List.map_congr_left fun b _ => ?_
    congr 1
    rw [e4, e3, hy y hyr, hs]
    push_cast
    ring

/-- **C184**, the same for colour images. -/
theorem C184_color_partial (r c : ℕ) (s0 : ℤ) (data : ℤ) {m : Mat} (mem : Memory) (junk : List UInt8)
    (h : matFromArray ⟨.uint8, [r, c, 3], [s0, 3, 1], data⟩ = .ok m) :
    m.rows = r ∧ m.cols = c ∧ m.channels = 3 ∧
    (∀ y < r, ∀ x < c, ∀ k < 3, m.element mem y x k = Arr.element mem ⟨.uint8, [r, c, 3], [s0, 3, 1], data⟩ [y, x, k]) ∧
    (s0 = c * 3 → ∃ b, arrayFromMat mem junk m = .ok b ∧ b.dtype = .uint8 ∧ b.shape = [r, c, 3] ∧
      ∀ y < r, ∀ x < c, ∀ k < 3,
        b.element ((y * c + x) * 3 + k) = Arr.element mem ⟨.uint8, [r, c, 3], [s0, 3, 1], data⟩ [y, x, k]) := by
  unfold matFromArray at h
  simp only at h
  by_cases hd : data = 0
  · rw [if_pos hd] at h; exact absurd h (by simp)
  rw [if_neg hd] at h
  have hm : newMat r c .uint8 3 data s0 = .ok m := by simpa using h
  obtain ⟨e1, e2, e3, e4, e5, e6, e7⟩ := newMat_ok hm
  have hy : ∀ y < r, (y : ℤ) * m.step = y * s0 := by
    intro y hy
    by_cases h1 : r = 1
    · have : y = 0 := by omega
      simp [this]
    · rw [e6 h1]
  have view : ∀ y < r, ∀ x < c, ∀ k < 3, m.element mem y x k =
      Arr.element mem ⟨.uint8, [r, c, 3], [s0, 3, 1], data⟩ [y, x, k] := by
    intro y hyr x hx k hk
    unfold Mat.element Arr.element
    rw [e3, e4, e5]
    refine List.map_congr_left fun b _ => ?_
    congr 1
    simp only [List.zip_cons_cons, List.zip_nil_left, List.map_cons, List.map_nil, List.sum_cons, List.sum_nil, hy y hyr, DType.size]
    push_cast
    ring
  refine ⟨e1, e2, e4, view, ?_⟩
  intro hs
  refine ⟨⟨.uint8, [m.rows, m.cols, 3], copy mem m.data (m.rows * m.cols * 3 * 1)⟩, ?_, rfl, by rw [e1, e2], ?_⟩
  · unfold arrayFromMat
    rw [if_neg (by rw [e4]; decide), if_pos ⟨e4, e3⟩, if_pos (by rw [e5]; exact hd)]
  · intro y hyr x hx k hk
    rw [← view y hyr x hx k hk]
    unfold NewArr.element Mat.element
    simp only [DType.size, e3]
    rw [copy_element mem m.data (Nat.mul_le_mul_right _ (by have := number_lt hyr hx; rw [e1, e2]; omega))]
    refine List.map_congr_left fun b _ => ?_
    congr 1
    rw [e4, hy y hyr, hs]
    push_cast
    ring

/-- **C184**: arrays of one dimension, or more than three, and of other types are refused. -/
theorem C184_refused (a : Arr) (h : (a.shape.length ≠ 2 ∧ a.shape.length ≠ 3) ∨ (a.dtype ≠ .uint8 ∧ a.dtype ≠ .float32) ∨
    (a.shape.length = 3 ∧ a.dtype ≠ .uint8)) : matFromArray a = .error .assertionError := by
  unfold matFromArray
  by_cases hd : a.data = 0
  · rw [if_pos hd]
  rw [if_neg hd]
  split
  · rename_i r c s0 l hsh hst
    rw [hsh] at h
    rcases h with h | h | h
    · exact absurd rfl h.1
    · rw [if_neg h.1, if_neg h.2]
    · exact absurd h.1 (by simp)
  · rename_i r c n s0 l hsh hst
    rw [hsh] at h
    rcases h with h | h | h
    · exact absurd rfl h.2
    · rw [if_neg h.1]
    · rw [if_neg h.2]
  · rfl

/-- A part of a larger colour image, and a whole grey image, are accepted; an image of `uint16` is refused. -/
example : matFromArray ⟨.uint8, [2, 2, 3], [30, 3, 1], 100⟩ = .ok ⟨2, 2, .uint8, 3, 100, 30⟩ ∧
    matFromArray ⟨.float32, [2, 3], [12, 4], 100⟩ = .ok ⟨2, 3, .float32, 1, 100, 12⟩ ∧
    arrayFromMat (fun i => UInt8.ofNat i.toNat) [] ⟨2, 1, .uint8, 3, 100, 3⟩ =
      .ok ⟨.uint8, [2, 1, 3], [100, 101, 102, 103, 104, 105]⟩ ∧
    matFromArray ⟨.uint16, [2, 3], [6, 2], 100⟩ = .error .assertionError := by decide +kernel

end Sumo.Wrap
