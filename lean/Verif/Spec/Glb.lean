import Verif.Model.Glb

/-! # Reading binary glTF: a parser after the glTF 2.0 specification, and slices of a buffer -/

namespace Sumo

/-- A little-endian 32-bit number and the rest. -/
def readU32 : List UInt8 → Option (ℕ × List UInt8)
  | a :: b :: c :: d :: l => some (a.toNat + 256 * b.toNat + 65536 * c.toNat + 16777216 * d.toNat, l)
  | _ => none

/-- A GLB file of version 2 with a JSON and a binary chunk: the contents of the two. Magic number, total length, chunk types,
chunk lengths and their alignment are checked. -/
def parseGlb (l : List UInt8) : Option (List UInt8 × List UInt8) :=
  (readU32 l).bind fun (magic, l1) =>
  (readU32 l1).bind fun (version, l2) =>
  (readU32 l2).bind fun (len, l3) =>
  (readU32 l3).bind fun (n, l4) =>
  (readU32 l4).bind fun (type1, l5) =>
  (readU32 (l5.drop n)).bind fun (m, l6) =>
  (readU32 l6).bind fun (type2, l7) =>
  if magic = 0x46546C67 ∧ version = 2 ∧ len = l.length ∧ type1 = 0x4E4F534A ∧ n ≤ l5.length ∧ 4 ∣ n ∧
      type2 = 0x004E4942 ∧ m = l7.length ∧ 4 ∣ m then some (l5.take n, l7) else none

/-- `n` bytes from `o` on. -/
def sliceBytes (l : List UInt8) (o n : ℕ) : List UInt8 := (l.drop o).take n

/-- Encoders that have been filled by `add_to_body`. -/
inductive Filled (files : Files) : BodyEncoder → Prop
  | empty : Filled files BodyEncoder.empty
  | add {enc enc' : BodyEncoder} {uri : String} {o n : ℕ} : Filled files enc →
      enc.addToBody files uri = .ok (enc', o, n) → Filled files enc'

end Sumo
