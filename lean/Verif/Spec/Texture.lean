import Verif.Model.Texture

/-! # What textures are to keep -/

namespace Sumo
namespace Texture

/-- The element `a[i, j, k]` of an array of three dimensions. -/
def State.elem (s : State) (a : Arr) (i j k : ℕ) : Option ℕ :=
  match a.strides with
  | [x, y, z] => s.byte a.buf (a.off + x * i + y * j + z * k)
  | _ => none

/-- A state that a program can reach. -/
def Reachable (s : State) : Prop := ∃ ops, ({} : State).run ops = some s

/-- The elements of an array of three dimensions lie one after the other, rows first. -/
def Packed (a : Arr) (h w c : ℕ) : Prop :=
  ∃ x y z, a.strides = [x, y, z] ∧
    ∀ i j k : ℕ, i < h → j < w → k < c → x * i + y * j + z * k = (((i * w + j) * c + k : ℕ) : ℤ)

/-- The two arrays have the same shape and the same elements. -/
def SameArray (s : State) (a : Arr) (t : State) (b : Arr) : Prop :=
  a.isU8 = b.isU8 ∧ a.shape = b.shape ∧ ∃ h w, a.shape = [h, w, 3] ∧
    ∀ i j k, i < h → j < w → k < 3 → s.elem a i j k = t.elem b i j k ∧ ∃ v, s.elem a i j k = some v

end Texture
end Sumo
