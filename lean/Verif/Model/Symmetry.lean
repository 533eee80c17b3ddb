import Verif.Model.Py

/-!
# XML trees and object symmetry

Model of `sumo-api/sumo/semantic/object_symmetry.py`.
-/

namespace Sumo

/-- An `xml.etree.cElementTree` element: tag, attributes, text (`None` when empty) and children. Tail text is
never read by the code and is left out. -/
inductive Xml
  | node (tag : String) (attrs : List (String × String)) (text : Option String) (children : List Xml)

namespace Xml
/-- `elem.tag` -/
def tag : Xml → String | node t _ _ _ => t
/-- `elem.attrib` -/
def attrs : Xml → List (String × String) | node _ a _ _ => a
/-- `elem.text` -/
def text : Xml → Option String | node _ _ t _ => t
/-- Iteration over `elem`. -/
def children : Xml → List Xml | node _ _ _ c => c
/-- `e = ET.Element(tag); e.text = text` -/
def leaf (tag : String) (text : String) : Xml := node tag [] (some text) []
end Xml

/-- `SymmetryType` (`semantic/object_symmetry.py:18-27`). -/
inductive SymmetryType
  | none | twoFold | fourFold | cylindrical | spherical
  deriving DecidableEq, Repr

namespace SymmetryType

/-- All values of the enum, in declaration order (`semantic/object_symmetry.py:23-27`). -/
def all : List SymmetryType := [none, twoFold, fourFold, cylindrical, spherical]

/-- `_symmetry_type_to_text` (`semantic/object_symmetry.py:222-228`). -/
def toText : SymmetryType → String
  | none => "none"
  | twoFold => "twoFold"
  | fourFold => "fourFold"
  | cylindrical => "cylindrical"
  | spherical => "spherical"

/-- `_symmetry_text_to_type.get(text, None)` (`semantic/object_symmetry.py:230-236`). -/
def ofText? (s : String) : Option SymmetryType :=
  Dict.get? [("none", none), ("twoFold", twoFold), ("fourFold", fourFold), ("cylindrical", cylindrical),
    ("spherical", spherical)] s

end SymmetryType

open SymmetryType in
/-- `_valid_symmetries` (`semantic/object_symmetry.py:240-269`). -/
def validSymmetries : List (SymmetryType × SymmetryType × SymmetryType) :=
  [(none, none, none),
   (twoFold, none, none), (none, twoFold, none), (none, none, twoFold),
   (fourFold, none, none), (none, fourFold, none), (none, none, fourFold),
   (fourFold, twoFold, twoFold), (twoFold, fourFold, twoFold), (twoFold, twoFold, fourFold),
   (fourFold, fourFold, fourFold),
   (twoFold, twoFold, twoFold),
   (cylindrical, none, none), (none, cylindrical, none), (none, none, cylindrical),
   (cylindrical, twoFold, twoFold), (twoFold, cylindrical, twoFold), (twoFold, twoFold, cylindrical),
   (spherical, spherical, spherical)]

/-- An `ObjectSymmetry` object (`semantic/object_symmetry.py:74-76`). -/
structure ObjectSymmetry where
  x : SymmetryType
  y : SymmetryType
  z : SymmetryType
  deriving DecidableEq, Repr

namespace ObjectSymmetry

/-- `is_valid` (`semantic/object_symmetry.py:111-123`). A Python `None` is `Option.none`; no triple with a
`None` is in the set. -/
def isValid (x y z : Option SymmetryType) : Bool :=
  (x, y, z) ∈ validSymmetries.map (fun t => (some t.1, some t.2.1, some t.2.2))

/-- `ObjectSymmetry.__init__` (`semantic/object_symmetry.py:41-76`). The `match` only unwraps arguments already
known to be enum values. -/
def mk? (x y z : Option SymmetryType) : Except PyErr ObjectSymmetry :=
  if !isValid x y z then .error .valueError
  else match x, y, z with
    | some x, some y, some z => .ok ⟨x, y, z⟩
    | _, _, _ => .error .valueError

/-- `__eq__` (`semantic/object_symmetry.py:88-93`). -/
def eq (a b : ObjectSymmetry) : Bool := a.x == b.x && a.y == b.y && a.z == b.z

/-- `__ne__` (`semantic/object_symmetry.py:95-96`): `return self != other` calls itself. The first argument is
what is left of the interpreter's recursion limit. -/
def ne : ℕ → ObjectSymmetry → ObjectSymmetry → Except PyErr Bool
  | 0, _, _ => .error .recursionError
  | n + 1, a, b => ne n a b

/-- `from_strings` (`semantic/object_symmetry.py:125-148`). -/
def fromStrings (strings : List String) : Except PyErr ObjectSymmetry :=
  if strings.length ≠ 3 then .error .valueError
  else
    let symmetries := strings.filterMap SymmetryType.ofText?
    if symmetries.length < 3 then .error .valueError
    else mk? symmetries[0]? symmetries[1]? symmetries[2]?

/-- The child loop of `from_xml` (`semantic/object_symmetry.py:178-185`). -/
def parseChildren (children : List Xml) :
    Option SymmetryType × Option SymmetryType × Option SymmetryType :=
  children.foldl (fun st e =>
    if e.tag = "x" then (e.text.bind SymmetryType.ofText?, st.2.1, st.2.2)
    else if e.tag = "y" then (st.1, e.text.bind SymmetryType.ofText?, st.2.2)
    else if e.tag = "z" then (st.1, st.2.1, e.text.bind SymmetryType.ofText?)
    else st) (none, none, none)

/-- `from_xml` (`semantic/object_symmetry.py:150-193`). On `ValueError` the code builds a `RuntimeError` object,
does not raise it, and falls off the end: the result is Python's `None`. -/
def fromXml (e : Xml) : Except PyErr (Option ObjectSymmetry) :=
  if e.tag ≠ "symmetry" then .error .runtimeError
  else
    let p := parseChildren e.children
    match mk? p.1 p.2.1 p.2.2 with
    | .ok s => .ok (some s)
    | .error .valueError => .ok none
    | .error err => .error err

/-- `to_xml` (`semantic/object_symmetry.py:195-211`). -/
def toXml (s : ObjectSymmetry) : Xml :=
  .node "symmetry" [] none [.leaf "x" s.x.toText, .leaf "y" s.y.toText, .leaf "z" s.z.toText]

/-- `example` (`semantic/object_symmetry.py:213-216`). -/
def «example» : Except PyErr ObjectSymmetry :=
  mk? (some .twoFold) (some .cylindrical) (some .twoFold)

end ObjectSymmetry
end Sumo
