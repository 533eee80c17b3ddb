import Verif.Model.PicoJson

/-!
# Strings of JSON texts

The grammar of strings in a JSON text (RFC 8259, section 7) and their meaning; used in the statement of C185.
-/

namespace Sumo.PicoJson

open Ply (Bytes txt)

/-- A hexadecimal digit and its value. -/
def Hex (a : UInt8) (x : ℕ) : Prop := (txt "0123456789abcdef")[x]? = some a ∨ (txt "0123456789ABCDEF")[x]? = some a

instance (a : UInt8) (x : ℕ) : Decidable (Hex a x) := inferInstanceAs (Decidable (_ ∨ _))

/-- Four hexadecimal digits and their value. -/
def Hex4 (h : Bytes) (u : ℕ) : Prop :=
  ∃ a b c d x y z w, h = [a, b, c, d] ∧ Hex a x ∧ Hex b y ∧ Hex c z ∧ Hex d w ∧ u = ((x * 16 + y) * 16 + z) * 16 + w

/-- What the characters between two quotes stand for; code points in UTF-8. -/
inductive Reads : Bytes → Bytes → Prop
  | done : Reads [] []
  | plain {b : UInt8} {t o : Bytes} (h : 32 ≤ b) (h1 : b ≠ 34) (h2 : b ≠ 92) (r : Reads t o) : Reads (b :: t) (b :: o)
  | escape {e b : UInt8} {t o : Bytes}
      (h : (e, b) ∈ [((34 : UInt8), (34 : UInt8)), (92, 92), (47, 47), (98, 8), (102, 12), (110, 10), (114, 13), (116, 9)])
      (r : Reads t o) : Reads (92 :: e :: t) (b :: o)
  | unicode {h t o : Bytes} {c : Char} (hh : Hex4 h c.toNat) (r : Reads t o) :
      Reads (92 :: 117 :: (h ++ t)) (String.utf8EncodeChar c ++ o)
  | pair {h l t o : Bytes} {c : Char} {hi lo : ℕ} (hh : Hex4 h hi) (hl : Hex4 l lo) (h1 : 0xd800 ≤ hi ∧ hi < 0xdc00)
      (h2 : 0xdc00 ≤ lo ∧ lo ≤ 0xdfff) (hc : c.toNat = 0x10000 + (hi - 0xd800) * 0x400 + (lo - 0xdc00)) (r : Reads t o) :
      Reads (92 :: 117 :: (h ++ 92 :: 117 :: (l ++ t))) (String.utf8EncodeChar c ++ o)

end Sumo.PicoJson
