import Verif.Model.Gltf

/-!
# What C157 says: the data of a glTF model made by any program

From the glTF 2.0 specification (3.6.2, accessors): where the elements of an accessor lie, and how they are encoded.
-/

namespace Sumo
namespace Gltf
namespace ForeignSpec

/-- The number with these bytes, the lowest first. -/
def little : List UInt8 → ℕ
  | [] => 0
  | b :: l => b.toNat + 256 * little l

/-- The bytes of element `k` of an accessor: elements follow each other at the stride of the view, or without gaps if it has none. -/
def elementAt (M : Model) (a : Accessor) (size k : ℕ) : Option (List UInt8) :=
  if a.bufferView < 0 then none
  else match M.bufferViews[a.bufferView.toNat]? with
    | none => none
    | some v =>
      if v.buffer < 0 then none
      else match M.buffers[v.buffer.toNat]? with
        | none => none
        | some b =>
          let start := v.byteOffset + a.byteOffset + k * (if v.byteStride = 0 then size else v.byteStride)
          if start + size ≤ b.length then some ((b.drop start).take size) else none

/-- Indices are numbers of one, two or four bytes. -/
def indexSize : ℕ → Option ℕ
  | 5121 => some 1
  | 5123 => some 2
  | 5125 => some 4
  | _ => none

/-- The accessor has these elements. -/
def HasElements {α : Type} (M : Model) (i : ℤ) (size : Accessor → Option ℕ) (value : List UInt8 → α) (l : List α) : Prop :=
  ∃ a n, 0 ≤ i ∧ M.accessors[i.toNat]? = some a ∧ size a = some n ∧ a.count = l.length ∧
    (∃ v b, 0 ≤ a.bufferView ∧ M.bufferViews[a.bufferView.toNat]? = some v ∧ 0 ≤ v.buffer ∧ M.buffers[v.buffer.toNat]? = some b) ∧
    ∀ k x, l[k]? = some x → (elementAt M a n k).map value = some x

/-- The indices of a primitive. -/
def HasIndices (M : Model) (p : Primitive) (l : List ℕ) : Prop :=
  HasElements M p.indices (fun a => indexSize a.componentType) little l

/-- The number `j` of an element of floats. -/
def floatAt (b : List UInt8) (j : ℕ) : F32 := ⟨UInt32.ofNat (little ((b.drop (4 * j)).take 4))⟩

/-- Vectors of three floats. -/
def HasVectors (M : Model) (i : ℤ) (l : List (Vec3 F32)) : Prop :=
  HasElements M i (fun a => if a.componentType = 5126 ∧ a.type = 3 then some 12 else none)
    (fun b => ⟨floatAt b 0, floatAt b 1, floatAt b 2⟩) l

/-- Pairs of floats. -/
def HasPairs (M : Model) (i : ℤ) (l : List (F32 × F32)) : Prop :=
  HasElements M i (fun a => if a.componentType = 5126 ∧ a.type = 2 then some 8 else none) (fun b => (floatAt b 0, floatAt b 1)) l

/-- Nothing lies between the elements of the accessor. -/
def Packed (M : Model) (i : ℤ) (size : ℕ) : Prop :=
  ∀ a v, M.accessors[i.toNat]? = some a → M.bufferViews[a.bufferView.toNat]? = some v → v.byteStride = 0 ∨ v.byteStride = size

/-- The indices are not of one byte. -/
def NotBytes (M : Model) (p : Primitive) : Prop := ∀ a, M.accessors[p.indices.toNat]? = some a → a.componentType ≠ 5121

end ForeignSpec
end Gltf
end Sumo
