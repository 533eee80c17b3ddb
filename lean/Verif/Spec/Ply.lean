import Verif.Model.Ply

/-!
# What a PLY file is

The binary PLY format, written from its definition (a header of text lines, then the tables of the file row by row), not
from `/repo`.  It shares with the model the type `Bytes`, the enumeration `PlyType` of the eight number types, and the
bytes of ASCII text (`txt`).
-/

namespace Sumo.Ply.Spec

/-- The number of bytes of a value. -/
def width : PlyType → ℕ
  | .invalid => 0
  | .int8 | .uint8 => 1
  | .int16 | .uint16 => 2
  | .int32 | .uint32 | .float32 => 4
  | .float64 => 8

/-- The two names a number type has in headers. -/
def typeNames : PlyType → List Bytes
  | .invalid => []
  | .int8 => [txt "char", txt "int8"]
  | .uint8 => [txt "uchar", txt "uint8"]
  | .int16 => [txt "short", txt "int16"]
  | .uint16 => [txt "ushort", txt "uint16"]
  | .int32 => [txt "int", txt "int32"]
  | .uint32 => [txt "uint", txt "uint32"]
  | .float32 => [txt "float", txt "float32"]
  | .float64 => [txt "double", txt "float64"]

/-- A column of a table: its name, its type with the name used for it, and for a list the type of the length with the name
used for it. -/
structure Column where
  name : Bytes
  type : PlyType
  typeName : Bytes
  list : Option (PlyType × Bytes)
  deriving DecidableEq

/-- A cell: the values it holds (one, or those of a list), each as little endian bytes. -/
abbrev Cell := List Bytes

/-- A table (an "element" in PLY terms): the rows hold one cell for each column. -/
structure Table where
  name : Bytes
  columns : List Column
  rows : List (List Cell)

/-- A file; each comment is a `comment` line or, if it has `true`, an `obj_info` line. -/
structure Content where
  bigEndian : Bool
  comments : List (Bool × Bytes)
  tables : List Table

/-- The `w` little endian bytes of a number. -/
def numberBytes : ℕ → ℕ → Bytes
  | 0, _ => []
  | w + 1, n => UInt8.ofNat (n % 256) :: numberBytes w (n / 256)

/-- A value in the byte order of the file. -/
def value (be : Bool) (v : Bytes) : Bytes := if be then v.reverse else v

/-- A cell of a column in the file. -/
def cell (be : Bool) (c : Column) (x : Cell) : Bytes :=
  match c.list with
  | none => x.flatMap (value be)
  | some (t, _) => value be (numberBytes (width t) x.length) ++ x.flatMap (value be)

/-- The lines of the header that describe a column, and a table. -/
def columnLine (c : Column) : Bytes :=
  match c.list with
  | none => txt "property " ++ c.typeName ++ txt " " ++ c.name
  | some (_, n) => txt "property list " ++ n ++ txt " " ++ c.typeName ++ txt " " ++ c.name

/-- The decimal digits of a number. -/
def digits (n : ℕ) : Bytes := txt (toString n)

def tableLines (t : Table) : List Bytes :=
  (txt "element " ++ t.name ++ txt " " ++ digits t.rows.length) :: t.columns.map columnLine

/-- The line of a comment. -/
def commentLine (c : Bool × Bytes) : Bytes := (if c.1 then txt "obj_info " else txt "comment ") ++ c.2

/-- The lines of the header. -/
def headerLines (f : Content) : List Bytes :=
  [txt "ply", if f.bigEndian then txt "format binary_big_endian 1.0" else txt "format binary_little_endian 1.0"] ++
  f.comments.map commentLine ++ f.tables.flatMap tableLines ++ [txt "end_header"]

/-- The bytes of a row, and of the whole file. -/
def row (be : Bool) (columns : List Column) (r : List Cell) : Bytes :=
  ((columns.zip r).map fun p => cell be p.1 p.2).flatten

def bytes (f : Content) : Bytes :=
  (headerLines f).flatMap (· ++ [10]) ++ f.tables.flatMap fun t => t.rows.flatMap (row f.bigEndian t.columns)

/-- A word: not empty, no white space. -/
def Word (w : Bytes) : Prop := w ≠ [] ∧ ∀ b ∈ w, b ≠ 32 ∧ ¬ (9 ≤ b ∧ b ≤ 13)

/-- The lengths of lists are integers. -/
def Integral : PlyType → Prop
  | .int8 | .uint8 | .int16 | .uint16 | .int32 | .uint32 => True
  | _ => False

/-- A column whose cell `x` is well formed: the values have the width of the type; a plain cell holds one value, the length
of a list fits the type of its length. -/
def Fits (c : Column) (x : Cell) : Prop :=
  (∀ v ∈ x, v.length = width c.type) ∧
  match c.list with
  | none => x.length = 1
  | some (t, _) => x.length < 256 ^ width t

structure Column.WF (c : Column) : Prop where
  name : Word c.name
  typeName : c.typeName ∈ typeNames c.type
  list : ∀ t n, c.list = some (t, n) → n ∈ typeNames t ∧ Integral t

structure Table.WF (t : Table) : Prop where
  name : Word t.name
  columns : ∀ c ∈ t.columns, c.WF
  rows : ∀ r ∈ t.rows, List.Forall₂ Fits t.columns r
  size : t.rows.length < 2 ^ 64

/-- A well formed binary PLY file. -/
structure Content.WF (f : Content) : Prop where
  comments : ∀ c ∈ f.comments, 10 ∉ c.2
  tables : ∀ t ∈ f.tables, t.WF

/-- The value of a row in the column of a name. -/
def field (t : Table) (r : List Cell) (name : Bytes) : Option Cell :=
  ((t.columns.zip r).find? fun p => p.1.name = name).map (·.2)

/-- The names of the coordinates. -/
def xyz : List Bytes := [txt "x", txt "y", txt "z"]

/-- A table of points: it is called `vertex` and has `float` columns `x`, `y`, `z`, in this order, among others. -/
structure PointTable (t : Table) : Prop where
  name : t.name = txt "vertex"
  order : (t.columns.filter fun c => c.name ∈ xyz).map (·.name) = xyz
  floats : ∀ c ∈ t.columns, c.name ∈ xyz → c.type = .float32 ∧ c.list = none

/-- No other column has the key of a coordinate: the reader finds columns by a 32 bit hash of the table's and the column's
names put together. -/
def NoCollision (hash : Bytes → UInt32) (tables : List Table) : Prop :=
  ∀ t ∈ tables, ∀ c ∈ t.columns, hash (t.name ++ c.name) ∈ xyz.map (fun n => hash (txt "vertex" ++ n)) →
    t.name = txt "vertex" ∧ c.name ∈ xyz

/-- The point a row stands for. -/
def IsPoint {K : Type} (C : SingleCodec K) (t : Table) (r : List Cell) (p : Vec3 K) : Prop :=
  ∃ x y z : Bytes, field t r (txt "x") = some [x] ∧ field t r (txt "y") = some [y] ∧ field t r (txt "z") = some [z] ∧
    p = ⟨C.dec x, C.dec y, C.dec z⟩

/-- `c` says what the single precision numbers are: four bytes that widen to what the number was narrowed to. -/
structure SingleCodec.Lawful {K : Type} (C : SingleCodec K) (narrow : K → K) : Prop where
  length : ∀ x, (C.enc x).length = 4
  dec : ∀ x, C.dec (C.enc x) = narrow x

/-- The `vertex` table with the `float` columns `x`, `y`, `z` of some points, and `uchar` columns `red`, `green`, `blue` of
their colours if there are any. -/
def cloudTable {K : Type} (C : SingleCodec K) (points : List (Vec3 K)) (colors : Option (List Color)) : Table where
  name := txt "vertex"
  columns := [⟨txt "x", .float32, txt "float", none⟩, ⟨txt "y", .float32, txt "float", none⟩,
    ⟨txt "z", .float32, txt "float", none⟩] ++
    (if colors.isSome then [⟨txt "red", .uint8, txt "uchar", none⟩, ⟨txt "green", .uint8, txt "uchar", none⟩,
      ⟨txt "blue", .uint8, txt "uchar", none⟩] else [])
  rows := match colors with
    | none => points.map fun p => [[C.enc p.x], [C.enc p.y], [C.enc p.z]]
    | some cs => (points.zip cs).map fun q => [[C.enc q.1.x], [C.enc q.1.y], [C.enc q.1.z],
        [[UInt8.ofNat q.2.r]], [[UInt8.ofNat q.2.g]], [[UInt8.ofNat q.2.b]]]

/-- The little endian file with this table only. -/
def cloudContent {K : Type} (C : SingleCodec K) (points : List (Vec3 K)) (colors : Option (List Color)) : Content :=
  ⟨false, [], [cloudTable C points colors]⟩

end Sumo.Ply.Spec
