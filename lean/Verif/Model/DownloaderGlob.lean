import Verif.Model.Downloader

/-!
# The destination folder of `tools/download_sumo_datasets.py`

`get_zip_file_count` hands the name of the destination folder to `glob.glob`, which takes `*`, `?` and `[` in it as a pattern.
This file lifts the restriction of `Downloader` to names without these characters: the destination is a folder with any name,
next to other folders.

Simplifications: the folders above the destination have names without these characters; the other folders do not change during a
run; ranges in brackets whose ends are in the wrong order (for which Python's `re` raises) match nothing.
-/

namespace Sumo
namespace Downloader

/-- The elements of a pattern of Python's `fnmatch`. -/
inductive Tok
  | star
  | any
  | one (c : Char)
  | set (negated : Bool) (ranges : List (Char × Char))
  deriving DecidableEq

/-- The contents of brackets as a character class of `re`: single characters and ranges; a `-` at the end stands for itself. -/
def ranges : List Char → List (Char × Char)
  | a :: '-' :: b :: s => (a, b) :: ranges s
  | a :: s => (a, a) :: ranges s
  | [] => []

/-- The contents of brackets and what follows them; a `]` at the beginning stands for itself.  `none` if the brackets are not
closed. -/
def bracket : List Char → Option (List Char × List Char)
  | ']' :: s => if ']' ∈ s then some (']' :: s.takeWhile (· ≠ ']'), (s.dropWhile (· ≠ ']')).tail) else none
  | s => if ']' ∈ s then some (s.takeWhile (· ≠ ']'), (s.dropWhile (· ≠ ']')).tail) else none

/-- Python's `fnmatch.translate`, as a list of elements instead of a regular expression.  `fuel` is the length of the pattern. -/
def toks : ℕ → List Char → List Tok
  | 0, _ => []
  | _, [] => []
  | n + 1, '*' :: s => .star :: toks n s
  | n + 1, '?' :: s => .any :: toks n s
  | n + 1, '[' :: '!' :: s =>
    match bracket s with
    | some (inside, rest) => .set true (ranges inside) :: toks n rest
    | none => .one '[' :: toks n ('!' :: s)
  | n + 1, '[' :: s =>
    match bracket s with
    | some (inside, rest) => .set false (ranges inside) :: toks n rest
    | none => .one '[' :: toks n s
  | n + 1, c :: s => .one c :: toks n s

/-- Whether a name matches a list of elements from beginning to end. -/
def tokMatch : List Tok → List Char → Bool
  | [], s => s.isEmpty
  | .star :: ts, s => s.tails.any (fun r => tokMatch ts r)
  | .any :: ts, s => match s with
    | [] => false
    | _ :: r => tokMatch ts r
  | .one a :: ts, s => match s with
    | [] => false
    | c :: r => decide (a = c) && tokMatch ts r
  | .set neg rs :: ts, s => match s with
    | [] => false
    | c :: r => (rs.any (fun x => decide (x.1 ≤ c) && decide (c ≤ x.2)) != neg) && tokMatch ts r

/-- `fnmatch.fnmatch(name, pattern)`. -/
def fnmatch (pattern name : String) : Bool := tokMatch (toks pattern.toList.length pattern.toList) name.toList

/-- `glob.has_magic`. -/
def hasMagic (s : String) : Bool := s.toList.any (fun c => decide (c = '*') || decide (c = '?') || decide (c = '['))

/-- Which folders `glob.glob(os.path.join(dest, ...))` looks into: the folder itself if the name has no special characters, else
those that match it; hidden folders are matched only by a pattern that starts with a dot. -/
def looksInto (dest folder : String) : Bool :=
  if hasMagic dest then
    fnmatch dest folder && (decide (folder.toList.head? ≠ some '.') || decide (dest.toList.head? = some '.'))
  else decide (folder = dest)

/-- Where the script works: the name of the destination folder and the folders next to it. -/
structure Place where
  dest : String
  others : List (String × Disk)

/-- The folders `get_zip_file_count` sees, the destination having the contents `d`. -/
def Place.seen (p : Place) (d : Disk) : List Disk :=
  (((p.dest, d) :: p.others).filter (fun f => looksInto p.dest f.1)).map Prod.snd

/-- `existing_zip_files` (`tools/download_sumo_datasets.py:240-243`), in any folder. -/
def Place.existing (p : Place) (d : Disk) : List String := (p.seen d).flatMap existingZips

/-- `extracted_zip_files` (`tools/download_sumo_datasets.py:244-247`), in any folder; `args.cache_folder` is
`os.path.join(args.destination_dir, ".cache")` (264). -/
def Place.extracted (p : Place) (d : Disk) : List String := (p.seen d).flatMap extractedZips

/-- `remaining_zip_files_to_be_downloaded` (`tools/download_sumo_datasets.py:248-250`), in any folder. -/
def Place.remaining (p : Place) (cfg : Config) (d : Disk) : List String :=
  removeExistingFiles cfg.requested (p.existing d ++ p.extracted d)

/-- `unzip_files_in_parallel` (`tools/download_sumo_datasets.py:185-223`), in any folder; see `enterUnzip`. -/
def Place.enterUnzip (p : Place) (s : Sys) (attempts : ℕ) (downloaded : Bool) : Sys :=
  if p.existing s.disk = [] then { s with main := .finished downloaded true, tasks := [] }
  else if attempts < maxRetries then
    { s with main := .unzip (attempts + 1) downloaded, tasks := (p.existing s.disk).map .unzip }
  else { s with main := .finished downloaded false, tasks := [] }

/-- `download_zips_in_parallel` (`tools/download_sumo_datasets.py:136-172`), in any folder; see `enterDownload`. -/
def Place.enterDownload (p : Place) (cfg : Config) (s : Sys) (attempts : ℕ) : Sys :=
  if p.remaining cfg s.disk = [] then p.enterUnzip s 0 true
  else if attempts < maxRetries then
    { s with main := .download (attempts + 1), tasks := (p.remaining cfg s.disk).map .fetch }
  else p.enterUnzip s 0 false

/-- The main process (`tools/download_sumo_datasets.py:293-302`), in any folder; see `mainStep`. -/
def Place.mainStep (p : Place) (cfg : Config) (s : Sys) : Sys :=
  match s.main with
  | .idle => p.enterDownload cfg s 0
  | .download n => p.enterDownload cfg s n
  | .unzip n b => p.enterUnzip s n b
  | .finished _ _ => { s with main := .idle }

/-- The steps of the system, in any folder; see `Step`. -/
inductive Place.Step (p : Place) (cfg : Config) (occurs : Task → Event → Prop) (killed : Bool) : Sys → Sys → Prop
  | work (d : Disk) (m : Main) (l r : List Task) (t : Task) (e : Event) : occurs t e →
      Place.Step p cfg occurs killed ⟨d, m, l ++ t :: r⟩ ⟨(taskStep cfg d t e).1, m, l ++ (taskStep cfg d t e).2.toList ++ r⟩
  | main (d : Disk) (m : Main) : Place.Step p cfg occurs killed ⟨d, m, []⟩ (p.mainStep cfg ⟨d, m, []⟩)
  | crash (s : Sys) : killed = true → Place.Step p cfg occurs killed s ⟨s.disk, .idle, []⟩

end Downloader
end Sumo
