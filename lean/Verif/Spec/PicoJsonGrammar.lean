import Verif.Spec.PicoJsonString

/-!
# The grammar of JSON texts

Which texts stand for which values (RFC 8259), except that numbers are any run of the characters of numbers, and that the number it
stands for is left open; used in the statement of C186.
-/

namespace Sumo.PicoJson

open Ply (Bytes txt)

/-- Blanks between the parts of a text. -/
def Blanks (w : Bytes) : Prop := ∀ b ∈ w, b ∈ [(32 : UInt8), 9, 10, 13]

/-- An object made of members in their order: the last member of each key counts. -/
def LastOf (l ps : List (Bytes × Value)) : Prop := (l.map Prod.fst).Nodup ∧ ∀ k, l.lookup k = ps.reverse.lookup k

mutual
/-- A value, with blanks before it. -/
inductive Text : Bytes → Value → Prop
  | null {w : Bytes} (hw : Blanks w) : Text (w ++ txt "null") .null
  | false {w : Bytes} (hw : Blanks w) : Text (w ++ txt "false") (.bool Bool.false)
  | true {w : Bytes} (hw : Blanks w) : Text (w ++ txt "true") (.bool Bool.true)
  | str {w body o : Bytes} (hw : Blanks w) (h : Reads body o) : Text (w ++ 34 :: (body ++ [34])) (.str o)
  | int {w t : Bytes} {i : ℤ} (hw : Blanks w) (h : ∀ b ∈ t, b ∈ txt "0123456789+-eE.")
      (h1 : ∃ b ∈ t.head?, b ∈ txt "-0123456789") (hi : -2 ^ 63 ≤ i ∧ i < 2 ^ 63) : Text (w ++ t) (.int i)
  | number {w t : Bytes} {x : ℚ} (hw : Blanks w) (h : ∀ b ∈ t, b ∈ txt "0123456789+-eE.")
      (h1 : ∃ b ∈ t.head?, b ∈ txt "-0123456789") (hx : |x| < 2 ^ 1024) : Text (w ++ t) (.number x)
  | emptyArray {w u : Bytes} (hw : Blanks w) (hu : Blanks u) : Text (w ++ 91 :: (u ++ [93])) (.array [])
  | array {w t : Bytes} {l : List Value} (hw : Blanks w) (h : Items t l) : Text (w ++ 91 :: t) (.array l)
  | emptyObject {w u : Bytes} (hw : Blanks w) (hu : Blanks u) : Text (w ++ 123 :: (u ++ [125])) (.object [])
  | object {w t : Bytes} {ps l : List (Bytes × Value)} (hw : Blanks w) (h : Members t ps) (hl : LastOf l ps) :
      Text (w ++ 123 :: t) (.object l)

/-- One or more values with commas between them, and the closing bracket. -/
inductive Items : Bytes → List Value → Prop
  | last {t w : Bytes} {v : Value} (h : Text t v) (hw : Blanks w) : Items (t ++ (w ++ [93])) [v]
  | cons {t w u : Bytes} {v : Value} {l : List Value} (h : Text t v) (hw : Blanks w) (hu : Items u l) :
      Items (t ++ (w ++ 44 :: u)) (v :: l)

/-- One or more members with commas between them, and the closing brace. -/
inductive Members : Bytes → List (Bytes × Value) → Prop
  | last {k : Bytes} {t w : Bytes} {key : Bytes} {v : Value} (hk : Key k key) (h : Text t v) (hw : Blanks w) :
      Members (k ++ (t ++ (w ++ [125]))) [(key, v)]
  | cons {k : Bytes} {t w u : Bytes} {key : Bytes} {v : Value} {l : List (Bytes × Value)} (hk : Key k key) (h : Text t v)
      (hw : Blanks w) (hu : Members u l) : Members (k ++ (t ++ (w ++ 44 :: u))) ((key, v) :: l)

/-- The key of a member with its colon. -/
inductive Key : Bytes → Bytes → Prop
  | mk {w body key u : Bytes} (hw : Blanks w) (h : Reads body key) (hu : Blanks u) :
      Key (w ++ 34 :: (body ++ 34 :: (u ++ [58]))) key
end

end Sumo.PicoJson
