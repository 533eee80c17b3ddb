import Verif.Model.Tiff
import Mathlib.Data.List.Forall2

/-! # What TIFF files are to keep -/

namespace Sumo
namespace Tiff

variable {K : Type} [Field K] [LinearOrder K]

/-- An image with at least one pixel. -/
def HasPixels {α : Type} (rows : List (List α)) : Prop := ∃ row ∈ rows, row ≠ []

/-- An image with 16 bit values. -/
def Values16 (rows : List (List ℕ)) : Prop := ∀ row ∈ rows, ∀ c ∈ row, c ≤ 65535

/-- A page map with colour and depth, and possibly categories and instances, all of the documented types
and not empty. -/
structure Valid (d : Dict String (NpImage K)) : Prop where
  nodup : d.NodupKeys
  keys : ∀ k ∈ d.keys, k ∈ ["rgb", "depth", "category", "instance"]
  rgb : ∃ rows, d.get? "rgb" = some (.rgb8 rows) ∧ HasPixels rows
  depth : ∃ rows, d.get? "depth" = some (.f32 rows) ∧ HasPixels rows
  labels : ∀ k ∈ ["category", "instance"], ∀ im, d.get? k = some im → ∃ rows, im = .u16 rows ∧ HasPixels rows

/-- `y` is `x` after being stored as a 16 bit inverse depth with the given near plane: the code is the inverse depth rounded to
nearest (up to `2^-34`) and clipped to the near plane, and `y` is the depth of that code to single precision, infinity for
code 0.  Zero (unknown) and NaN become infinity; negative depths become the near plane. -/
def Quantised (near : K) (x y : FVal K) : Prop :=
  match x with
  | .posInf => y = .posInf
  | .negInf => y = .fin near
  | .nan => y = .posInf
  | .fin x =>
    if x = 0 then y = .posInf
    else if x ≤ near then y = .fin near
    else ∃ n : ℕ, n ≤ 65535 ∧ |(n : K) - near * 65535 / x| ≤ 1 / 2 + 1 / 2 ^ 34 ∧
      (n = 0 → y = .posInf) ∧
      (n ≠ 0 → ∃ z, y = .fin z ∧ |z - near * 65535 / n| ≤ near * 65535 / n / 2 ^ 23)

/-- The same shape, each pixel quantised. -/
def QuantisedImage (near : K) (im im' : List (List (FVal K))) : Prop := List.Forall₂ (List.Forall₂ (Quantised near)) im im'

/-- The array types `save` takes for each key; arrays of uint8 and uint16 have to be contiguous. -/
def Typed : String × NpImage K → Prop
  | (k, .rgb8 _) => k = "rgb"
  | (k, .f32 _) => k = "depth"
  | (k, .u16 _) => k = "invdepth" ∨ k = "category" ∨ k = "instance"
  | (_, .rgb8s _) => False
  | (_, .u16s _) => False
  | (_, .other) => False

/-- A page that `load` can digest: not a 16 bit colour image, and not a colour image labelled as categories or instances. -/
def Harmless (p : Page K) : Prop :=
  (∀ rows, p.raster ≠ .rgb16 rows) ∧
  (∀ rows, p.raster = .rgb8 rows → p.pageName ≠ some "category" ∧ p.pageName ≠ some "semantic" ∧ p.pageName ≠ some "instance")

end Tiff
end Sumo
