import Verif.Model.Py

/-!
# Category colours

Model of `sumo-api/sumo/base/colored_category.pyx`.  The CSV file is modelled by the list of rows `csv.DictReader` yields:
each row maps the header's column names to the cell text, or to `None` (`none`) where the row is shorter than the header.
-/

namespace Sumo

/-- The decimal value of a string of digits (at least one). -/
def pyDigits (s : List Char) : Option ℕ :=
  if s ≠ [] ∧ s.all Char.isDigit then some (s.foldl (fun n c => 10 * n + (c.toNat - '0'.toNat)) 0) else none

/-- `str.strip()` -/
def pyStrip (s : List Char) : List Char :=
  ((s.dropWhile Char.isWhitespace).reverse.dropWhile Char.isWhitespace).reverse

/-- Python's `int(text)`: optional surrounding white space and sign, then ASCII digits.  Underscores between digits and
non-ASCII digits, which Python accepts too, are not modelled. -/
def pyInt (s : List Char) : Except PyErr ℤ :=
  let r : Option ℤ := match pyStrip s with
    | '-' :: t => (pyDigits t).map fun (n : ℕ) => -Int.ofNat n
    | '+' :: t => (pyDigits t).map Int.ofNat
    | t => (pyDigits t).map Int.ofNat
  match r with
  | some n => .ok n
  | none => .error .valueError

/-- A row as yielded by `csv.DictReader` (`base/colored_category.pyx:77`). -/
abbrev CsvRow := Dict String (Option String)

/-- One entry of `_data` (`base/colored_category.pyx:78-81`). -/
structure CategoryRow where
  category : Option String
  isEvaluated : Option String
  color : List ℤ
  deriving DecidableEq

/-- The state of a `ColoredCategory` (`base/colored_category.pyx:78-87`).  `lut` is the cached table; `[]` until first
requested. -/
structure ColoredCategory where
  data : List CategoryRow
  reverse : Dict (Option String) (List ℤ)
  lut : List (List ℕ)
  deriving DecidableEq

namespace ColoredCategory

/-- `tuple(map(int, line["color"].split(";")))` (`base/colored_category.pyx:81`). -/
def parseColor (cell : Option String) : Except PyErr (List ℤ) :=
  match cell with
  | none => .error .attributeError
  | some s => (s.toList.splitOn ';').mapM pyInt

/-- One row of the comprehension at `base/colored_category.pyx:78-81`. -/
def parseRow (line : CsvRow) : Except PyErr CategoryRow := do
  let category ← line.get "category"
  let isEvaluated ← line.get "is_evaluated"
  let cell ← line.get "color"
  let color ← parseColor cell
  pure ⟨category, isEvaluated, color⟩

/-- The comprehension at `base/colored_category.pyx:83-85`: later rows overwrite earlier rows of the same name. -/
def reverseData (data : List CategoryRow) : Dict (Option String) (List ℤ) :=
  data.foldl (fun d x => Dict.set d x.category x.color) []

/-- The constructor (`base/colored_category.pyx:73-87`).  `file` is `none` if the file does not exist. -/
def new (file : Option (List CsvRow)) : Except PyErr ColoredCategory :=
  match file with
  | none => .error .ioError
  | some lines => do
    let data ← lines.mapM parseRow
    pure ⟨data, reverseData data, []⟩

/-- The property `LUT` (`base/colored_category.pyx:90-100`): the table and the object with the table cached.
`np.array(..., dtype=np.uint8)` needs rows of equal length (`ValueError` otherwise) and keeps the low eight bits. -/
def getLut (s : ColoredCategory) : Except PyErr (List (List ℕ) × ColoredCategory) :=
  if s.lut.length = 0 then
    match s.data with
    | [] => .ok ([], s)
    | x :: xs =>
      if xs.all fun y => y.color.length = x.color.length then
        let t := (x :: xs).map fun y => y.color.map fun v => (v % 256).toNat
        .ok (t, { s with lut := t })
      else .error .valueError
  else .ok (s.lut, s)

/-- `category_id_to_rgb` (`base/colored_category.pyx:102-117`).  `self._data[id]` raises `IndexError` past the end. -/
def categoryIdToRgb (s : ColoredCategory) (id : ℤ) : Except PyErr (List ℤ) :=
  if id > s.data.length ∨ id < 0 then .error .keyError
  else
    match s.data[id.toNat]? with
    | some x => .ok x.color
    | none => .error .indexError

/-- `category_name_to_rgb` (`base/colored_category.pyx:119-132`). -/
def categoryNameToRgb (s : ColoredCategory) (name : Option String) : Except PyErr (List ℤ) :=
  if !s.reverse.has name then .error .keyError
  else s.reverse.get name

/-- numpy's `table[i]` for one integer index: negative indices count from the end. -/
def npIndex {α : Type} (t : List α) (i : ℤ) : Except PyErr α :=
  let j := if i < 0 then i + t.length else i
  if j < 0 then .error .indexError
  else
    match t[j.toNat]? with
    | some x => .ok x
    | none => .error .indexError

/-- `convert_to_rgb_im` (`base/colored_category.pyx:134-148`): fancy indexing of the table by an integer image (the list of
its rows). -/
def convertToRgbIm (s : ColoredCategory) (im : List (List ℤ)) : Except PyErr (List (List (List ℕ)) × ColoredCategory) := do
  let (t, s') ← s.getLut
  let r ← im.mapM fun row => row.mapM fun i => npIndex t i
  pure (r, s')

end ColoredCategory

end Sumo
