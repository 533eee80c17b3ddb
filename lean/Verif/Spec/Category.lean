import Verif.Lemmas.Category

/-!
# Category tables as a user writes them

A table is a list of entries; each entry is written as a CSV row whose colour cell is the decimal numbers joined by
semicolons (the format of the repository's own tables).
-/

namespace Sumo

/-- An entry of a category table. -/
structure CategoryEntry where
  idText : String
  name : String
  evaluated : String
  color : List ℕ
  deriving DecidableEq

/-- The row `csv.DictReader` yields for an entry. -/
def CategoryEntry.row (e : CategoryEntry) : CsvRow :=
  [("id", some e.idText), ("category", some e.name), ("is_evaluated", some e.evaluated),
    ("color", some (String.ofList (List.intercalate [';'] (e.color.map decimal))))]

end Sumo
