import Verif.Model.PicoJson

/-! # Which JSON values are written and read -/

namespace Sumo.PicoJson

open Ply (Bytes)

mutual
/-- A value as the library can hold it: finite doubles, 64 bit integers, one entry for each key of an object. -/
def Value.Valid : Value → Prop
  | .null => True
  | .bool _ => True
  | .int i => -2 ^ 63 ≤ i ∧ i < 2 ^ 63
  | .number x => IsDouble x ∧ |x| < 2 ^ 1024
  | .str _ => True
  | .array l => ValidItems l
  | .object l => (l.map Prod.fst).Nodup ∧ ValidMembers l

def ValidItems : List Value → Prop
  | [] => True
  | v :: l => v.Valid ∧ ValidItems l

def ValidMembers : List (Bytes × Value) → Prop
  | [] => True
  | (_, v) :: l => v.Valid ∧ ValidMembers l
end

mutual
/-- Two values are the same for a reader: a number may have been turned into the integer that is equal to it as a double. -/
def Value.Same : Value → Value → Prop
  | .null, .null => True
  | .bool a, .bool b => a = b
  | .int a, .int b => a = b
  | .number a, .number b => a = b
  | .number a, .int b => a = double b
  | .str a, .str b => a = b
  | .array a, .array b => SameItems a b
  | .object a, .object b => SameMembers a b
  | _, _ => False

def SameItems : List Value → List Value → Prop
  | [], [] => True
  | a :: l, b :: r => a.Same b ∧ SameItems l r
  | _, _ => False

def SameMembers : List (Bytes × Value) → List (Bytes × Value) → Prop
  | [], [] => True
  | (j, a) :: l, (k, b) :: r => j = k ∧ a.Same b ∧ SameMembers l r
  | _, _ => False
end

end Sumo.PicoJson
