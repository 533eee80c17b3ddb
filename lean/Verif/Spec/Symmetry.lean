import Verif.Model.Symmetry

/-!
# Specification of admissible symmetries

The nine rules listed in the docstring of the constructor (`semantic/object_symmetry.py:57-69`), each as an
unordered choice of axes; axes not mentioned have no symmetry.
-/

namespace Sumo.SymSpec
open SymmetryType

/-- The docstring's rules, in the docstring's order. -/
def rules : List (List SymmetryType) :=
  [[none, none, none],
   [twoFold, none, none],
   [fourFold, none, none],
   [twoFold, twoFold, fourFold],
   [fourFold, fourFold, fourFold],
   [twoFold, twoFold, twoFold],
   [cylindrical, none, none],
   [cylindrical, twoFold, twoFold],
   [spherical, spherical, spherical]]

/-- A triple follows the rules if it is some rule's triple in some order of the axes. -/
def Allowed (x y z : SymmetryType) : Prop := ∃ r ∈ rules, [x, y, z].Perm r

instance (x y z : SymmetryType) : Decidable (Allowed x y z) := by
  unfold Allowed; infer_instance

/-- The text an XML document gives to a tag: that of the last child with the tag, if there is one and it is
not empty. -/
def textOf (e : Xml) (tag : String) : Option String :=
  ((e.children.filter (fun c => c.tag = tag)).getLast?).bind Xml.text

/-- The type a text names. -/
def Names (t : Option String) (s : SymmetryType) : Prop := t = some s.toText

end Sumo.SymSpec
