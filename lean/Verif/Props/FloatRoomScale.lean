import Verif.Props.FloatPerceptual

/-!
# C143: the room scale in machine precision
-/

namespace Sumo
open Fl

variable {ι σ : Type}

namespace RoomSpec

/-- The area of the floor of a box. -/
def area (p : PerceptualPayload) : ℚ :=
  (p.bounds.maxCorner.x - p.bounds.minCorner.x) * (p.bounds.maxCorner.z - p.bounds.minCorner.z)

/-- The floor of the ground truth: what is evaluated of it. -/
def truth (els : Elements ι σ PerceptualPayload) : ℚ :=
  ((els.values.filter fun e => e.category = "floor" ∧ e.evaluated = true).map fun e => area e.payload).sum

/-- The floor of the submission. -/
def submitted (els : Elements ι σ PerceptualPayload) : ℚ :=
  ((els.values.filter fun e => e.category = "floor").map fun e => area e.payload).sum

end RoomSpec
open RoomSpec

theorem rnd_err (s : Bool) (x : ℚ) : |rnd s x - x| ≤ |x| / 2 ^ 24 := by
  unfold rnd
  cases s
  · refine (double_err x).trans ?_
    have := abs_nonneg x
    gcongr <;> norm_num
  · simpa using single_err x

theorem rnd_rel (s : Bool) {x : ℚ} (h : 0 ≤ x) : x * (1 - 1 / 2 ^ 24) ≤ rnd s x ∧ rnd s x ≤ x * (1 + 1 / 2 ^ 24) := by
  have := abs_le.1 (rnd_err s x)
  rw [abs_of_nonneg h] at this
  constructor <;> linarith [this.1, this.2]

theorem floorSize_rel {p : PerceptualPayload} (h : Fl.Ordered p) : 0 ≤ area p ∧
    area p * (1 - 4 / 2 ^ 24) ≤ Fl.floorSize p ∧ Fl.floorSize p ≤ area p * (1 + 4 / 2 ^ 24) := by
  obtain ⟨hx, -, hz⟩ := h
  unfold Fl.floorSize area
  dsimp only
  set x := p.bounds.maxCorner.x - p.bounds.minCorner.x with ex
  set z := p.bounds.maxCorner.z - p.bounds.minCorner.z with ez
  have x0 : 0 ≤ x := by rw [ex]; linarith
  have z0 : 0 ≤ z := by rw [ez]; linarith
  obtain ⟨a1, a2⟩ := rnd_rel p.isSingle x0
  obtain ⟨b1, b2⟩ := rnd_rel p.isSingle z0
  set X := rnd p.isSingle x
  set Z := rnd p.isSingle z
  have X0 : 0 ≤ X := le_trans (mul_nonneg x0 (by norm_num)) a1
  have Z0 : 0 ≤ Z := le_trans (mul_nonneg z0 (by norm_num)) b1
  obtain ⟨c1, c2⟩ := rnd_rel p.isSingle (mul_nonneg X0 Z0)
  have xz := mul_nonneg x0 z0
  have lo : x * z * (1 - 1 / 2 ^ 24) ^ 2 ≤ X * Z := by
    have := mul_le_mul a1 b1 (mul_nonneg z0 (by norm_num)) X0
    calc x * z * (1 - 1 / 2 ^ 24) ^ 2 = x * (1 - 1 / 2 ^ 24) * (z * (1 - 1 / 2 ^ 24)) := by ring
      _ ≤ X * Z := this
  have hi : X * Z ≤ x * z * (1 + 1 / 2 ^ 24) ^ 2 := by
    have := mul_le_mul a2 b2 Z0 (mul_nonneg x0 (by norm_num))
    calc X * Z ≤ x * (1 + 1 / 2 ^ 24) * (z * (1 + 1 / 2 ^ 24)) := this
      _ = x * z * (1 + 1 / 2 ^ 24) ^ 2 := by ring
  refine ⟨xz, ?_, ?_⟩
  · refine le_trans ?_ (le_trans (mul_le_mul_of_nonneg_right lo (by norm_num)) c1)
    rw [mul_assoc (x * z)]
    exact mul_le_mul_of_nonneg_left (by norm_num) xz
  · refine le_trans (le_trans c2 (mul_le_mul_of_nonneg_right hi (by norm_num))) ?_
    rw [mul_assoc (x * z)]
    exact mul_le_mul_of_nonneg_left (by norm_num) xz

/-- The loop that adds up the floors. -/
theorem floors_rel {α : Type} (P : α → Prop) [DecidablePred P] {f g : α → ℚ} (l : List α)
    (h : ∀ e ∈ l, P e → 0 ≤ g e ∧ g e * (1 - 4 / 2 ^ 24) ≤ f e ∧ f e ≤ g e * (1 + 4 / 2 ^ 24)) :
    ∀ (k : ℕ) (a S : ℚ), k + l.length ≤ 2 ^ 20 → 0 ≤ S → S * (1 - 4 / 2 ^ 24 - k * (2 / 2 ^ 53)) ≤ a → a ≤ S * (1 + 4 / 2 ^ 24 + k * (2 / 2 ^ 53)) →
      let a' := l.foldl (fun a e => if P e then double (a + f e) else a) a
      let S' := S + ((l.filter fun e => P e).map g).sum
      0 ≤ S' ∧ S' * (1 - 5 / 2 ^ 24) ≤ a' ∧ a' ≤ S' * (1 + 5 / 2 ^ 24) := by
  induction l with
  | nil =>
    intro k a S hk hS h1 h2
    have hk' : (k : ℚ) ≤ 2 ^ 20 := by exact_mod_cast (by simpa using hk)
    simp only [List.foldl_nil, List.filter_nil, List.map_nil, List.sum_nil, add_zero]
    refine ⟨hS, le_trans (mul_le_mul_of_nonneg_left ?_ hS) h1, le_trans h2 (mul_le_mul_of_nonneg_left ?_ hS)⟩
    · linarith
    · linarith
  | cons e l ih =>
    intro k a S hk hS h1 h2
    have hk2 : k + 1 + l.length ≤ 2 ^ 20 := by simp only [List.length_cons] at hk; omega
    have hk' : (k : ℚ) + 1 ≤ 2 ^ 20 := by exact_mod_cast (by omega : k + 1 ≤ 2 ^ 20)
    have k0 : (0 : ℚ) ≤ k := Nat.cast_nonneg k
    have ih' := ih fun e' he' => h e' (by simp [he'])
    by_cases hp : P e
    · obtain ⟨g0, g1, g2⟩ := h e (by simp) hp
      have a0 : 0 ≤ a := le_trans (mul_nonneg hS (by linarith)) h1
      have f0 : 0 ≤ f e := le_trans (mul_nonneg g0 (by norm_num)) g1
      have d1 := mul_le_double (add_nonneg a0 f0)
      have d2 := double_le_mul (add_nonneg a0 f0)
      have w1 : (S + g e) * (1 - 4 / 2 ^ 24 - k * (2 / 2 ^ 53)) ≤ a + f e := by
        have : g e * (1 - 4 / 2 ^ 24 - k * (2 / 2 ^ 53)) ≤ g e * (1 - 4 / 2 ^ 24) := mul_le_mul_of_nonneg_left (by linarith) g0
        linarith
      have w2 : a + f e ≤ (S + g e) * (1 + 4 / 2 ^ 24 + k * (2 / 2 ^ 53)) := by
        have : g e * (1 + 4 / 2 ^ 24) ≤ g e * (1 + 4 / 2 ^ 24 + k * (2 / 2 ^ 53)) := mul_le_mul_of_nonneg_left (by linarith) g0
        linarith
      have T0 : 0 ≤ S + g e := add_nonneg hS g0
      have r := ih' (k + 1) (double (a + f e)) (S + g e) hk2 T0 ?_ ?_
      · simpa [hp, add_assoc] using r
      · refine le_trans ?_ (le_trans (mul_le_mul_of_nonneg_right w1 (by norm_num)) d1)
        rw [mul_assoc]
        refine mul_le_mul_of_nonneg_left ?_ T0
        push_cast
        nlinarith
      · refine le_trans (le_trans d2 (mul_le_mul_of_nonneg_right w2 (by norm_num))) ?_
        rw [mul_assoc]
        refine mul_le_mul_of_nonneg_left ?_ T0
        push_cast
        nlinarith
    · have r := ih' (k + 1) a S hk2 hS ?_ ?_
      · simpa [hp] using r
      · refine le_trans (mul_le_mul_of_nonneg_left ?_ hS) h1
        push_cast; linarith
      · refine le_trans h2 (mul_le_mul_of_nonneg_left ?_ hS)
        push_cast; linarith

/-- **C143** The room scale: the floor area of the submission divided by that of the evaluated ground truth, with a relative error of at
most `2^-20`, whether corners are `float32` or `float64` and in scenes of up to a million elements; 0 exactly if the ground truth has
no floor area, or the submission none. -/
theorem C143_room_scale {sub gt : Elements ι σ PerceptualPayload} (bs : Boxes sub) (bg : Boxes gt) (ls : sub.length ≤ 2 ^ 20)
    (lg : gt.length ≤ 2 ^ 20) : 0 ≤ truth gt ∧ 0 ≤ submitted sub ∧
    |Fl.roomScale sub gt - submitted sub / truth gt| ≤ submitted sub / truth gt / 2 ^ 20 ∧
    (Fl.roomScale sub gt = 0 ↔ truth gt = 0 ∨ submitted sub = 0) := by
  have rg := floors_rel (fun e : Obj ι σ PerceptualPayload => e.category = "floor" ∧ e.evaluated = true) gt.values
    (f := fun e => Fl.floorSize e.payload) (g := fun e => area e.payload) (fun e he _ => floorSize_rel (bg e he))
    0 0 0 (by simpa [Dict.values] using lg) le_rfl (by simp) (by simp)
  have rs := floors_rel (fun e : Obj ι σ PerceptualPayload => e.category = "floor") sub.values
    (f := fun e => Fl.floorSize e.payload) (g := fun e => area e.payload) (fun e he _ => floorSize_rel (bs e he))
    0 0 0 (by simpa [Dict.values] using ls) le_rfl (by simp) (by simp)
  simp only [zero_add] at rg rs
  obtain ⟨g0, g1, g2⟩ := rg
  obtain ⟨s0, s1, s2⟩ := rs
  have eG : ((gt.values.filter fun e => decide (e.category = "floor" ∧ e.evaluated = true)).map fun e => area e.payload).sum = truth gt := rfl
  have eS : ((sub.values.filter fun e => decide (e.category = "floor")).map fun e => area e.payload).sum = submitted sub := rfl
  rw [eG] at g0 g1 g2
  rw [eS] at s0 s1 s2
  unfold Fl.roomScale
  dsimp only
  set a := gt.values.foldl (fun a e => if e.category = "floor" ∧ e.evaluated = true then double (a + Fl.floorSize e.payload) else a) 0
  set b := sub.values.foldl (fun a e => if e.category = "floor" then double (a + Fl.floorSize e.payload) else a) 0
  set G := truth gt
  set S := submitted sub
  refine ⟨g0, s0, ?_⟩
  rcases g0.eq_or_lt with hG | hG
  · have ha : a = 0 := by rw [← hG] at g1 g2; linarith
    rw [if_neg (by rw [ha]; exact lt_irrefl _), ← hG]
    simp
  · have apos : 0 < a := lt_of_lt_of_le (mul_pos hG (by norm_num)) g1
    rw [if_pos apos]
    have b0 : 0 ≤ b := le_trans (mul_nonneg s0 (by norm_num)) s1
    have q0 : 0 ≤ S / G := div_nonneg s0 hG.le
    have up : b / a ≤ S / G * (1 + 12 / 2 ^ 24) := by
      rw [div_mul_eq_mul_div, div_le_div_iff₀ apos hG]
      calc b * G ≤ S * (1 + 5 / 2 ^ 24) * G := mul_le_mul_of_nonneg_right s2 hG.le
        _ = S * G * (1 + 5 / 2 ^ 24) := by ring
        _ ≤ S * G * ((1 + 12 / 2 ^ 24) * (1 - 5 / 2 ^ 24)) := mul_le_mul_of_nonneg_left (by norm_num) (mul_nonneg s0 hG.le)
        _ = S * (1 + 12 / 2 ^ 24) * (G * (1 - 5 / 2 ^ 24)) := by ring
        _ ≤ S * (1 + 12 / 2 ^ 24) * a := mul_le_mul_of_nonneg_left g1 (mul_nonneg s0 (by norm_num))
    have lo : S / G * (1 - 12 / 2 ^ 24) ≤ b / a := by
      rw [div_mul_eq_mul_div, div_le_div_iff₀ hG apos]
      calc S * (1 - 12 / 2 ^ 24) * a ≤ S * (1 - 12 / 2 ^ 24) * (G * (1 + 5 / 2 ^ 24)) :=
            mul_le_mul_of_nonneg_left g2 (mul_nonneg s0 (by norm_num))
        _ = S * G * ((1 - 12 / 2 ^ 24) * (1 + 5 / 2 ^ 24)) := by ring
        _ ≤ S * G * (1 - 5 / 2 ^ 24) := mul_le_mul_of_nonneg_left (by norm_num) (mul_nonneg s0 hG.le)
        _ = S * (1 - 5 / 2 ^ 24) * G := by ring
        _ ≤ b * G := mul_le_mul_of_nonneg_right s1 hG.le
    have d1 := mul_le_double (div_nonneg b0 apos.le)
    have d2 := double_le_mul (div_nonneg b0 apos.le)
    constructor
    · rw [abs_le]
      constructor <;> nlinarith
    · constructor
      · intro h
        right
        by_contra hne
        have Spos : 0 < S := lt_of_le_of_ne s0 (Ne.symm hne)
        have : 0 < b := lt_of_lt_of_le (mul_pos Spos (by norm_num)) s1
        exact (double_pos (div_pos this apos)).ne' h
      · rintro (h | h)
        · exact absurd h hG.ne'
        · have hb : b = 0 := by rw [h] at s1 s2; linarith
          rw [hb]; simp

namespace RoomExample

def floor (w : ℚ) (s ev : Bool) : Obj ℕ ℚ PerceptualPayload := ⟨0, "floor", 1, ev, ⟨⟨⟨0, 0, 0⟩, ⟨w, 1, 3⟩⟩, s, ⟨0, 0, 0⟩⟩⟩

/-- Two floors, one of them not evaluated; and a submission with single precision corners. -/
def gt : Elements ℕ ℚ PerceptualPayload := [(0, floor 3 false true), (1, floor 7 false false)]
def sub : Elements ℕ ℚ PerceptualPayload := [(0, floor (1 / 10) true true)]

example : Boxes sub ∧ Boxes gt ∧ truth gt = 9 ∧ submitted sub = 3 / 10 := by
  refine ⟨?_, ?_, by decide +kernel, by decide +kernel⟩ <;> intro e he <;>
    simp only [Dict.values, sub, gt, List.map_cons, List.map_nil, List.mem_cons, List.not_mem_nil, or_false] at he <;>
    [subst he; rcases he with rfl | rfl] <;> unfold Fl.Ordered <;> decide +kernel

/-- The error is visible: single precision stores a different floor. -/
example : Fl.roomScale sub gt ≠ 3 / 10 / 9 ∧ |Fl.roomScale sub gt - 3 / 10 / 9| < 1 / 2 ^ 25 := by decide +kernel

end RoomExample
end Sumo
