import Verif.Model.Py

/-!
# `tools/download_sumo_datasets.py`

The script as a transition system: the destination directory on disk, the position of the main process and the tasks of its
process pool.  Tasks of a pool are interleaved arbitrarily (the pool runs at most three at a time; here any of them may move),
and the run may be killed between any two steps.

Simplifications: the zip files, the marker files in `.cache` and the extracted data are kept in three separate name spaces (no
archive contains a member that lies in `.cache` or is itself a `*.zip` in the destination directory); `destination_dir` contains
none of the characters `*?[` that `glob` interprets (`DownloaderGlob` does without this); logging and the check of the free disk space
(`download_sumo_datasets.py:269-281`) have no effect but to end the run, which is the step `crash`.
-/

namespace Sumo
namespace Downloader

/-- The contents of a file. -/
abbrev Bytes := List UInt8

/-- What the script works with: the file list of the server's configuration
(`args.training_input + args.training_ground_truth`, `tools/download_sumo_datasets.py:60-72, 239`), the server's files, and
Python's `zipfile`: `none` where `ZipFile(...)` raises, else the members in order, a member being `none` where its extraction
raises (damaged data). -/
structure Config where
  requested : List String
  server : String → Bytes
  unpack : Bytes → Option (List (String × Option Bytes))

/-- The destination directory: its files, the files in `.cache` and the extracted data. -/
structure Disk where
  zips : Dict String Bytes
  markers : List String
  data : Dict String Bytes

/-- `str.replace(old, new)` on characters; `skip` is the number of characters still to be dropped. -/
def replaceAux (old new : List Char) : ℕ → List Char → List Char
  | _, [] => []
  | k + 1, _ :: s => replaceAux old new k s
  | 0, c :: s => if old <+: c :: s then new ++ replaceAux old new (old.length - 1) s else c :: replaceAux old new 0 s

/-- `s.replace(old, new)` for non-empty `old`. -/
def pyReplace (s old new : String) : String := String.ofList (replaceAux old.toList new.toList 0 s.toList)

/-- `glob.glob(dir + "/*" + ext)`: names with that ending, hidden ones excepted. -/
def globMatches (ext name : String) : Bool :=
  decide (ext.toList <:+ name.toList) && decide (name.toList.head? ≠ some '.')

/-- The name of the marker file of an archive (`tools/download_sumo_datasets.py:123`). -/
def markerOf (f : String) : String := pyReplace f ".zip" ".cache"

/-- The archive a marker file stands for (`tools/download_sumo_datasets.py:245`); the replacement in the directory part of the
path is undone by `basename`. -/
def zipOfMarker (m : String) : String := pyReplace m ".cache" ".zip"

/-- `remove_existing_files` (`tools/download_sumo_datasets.py:55-57`). -/
def removeExistingFiles (zipFiles existing : List String) : List String := zipFiles.filter (fun f => decide (f ∉ existing))

/-- `existing_zip_files` of `get_zip_file_count` (`tools/download_sumo_datasets.py:240-243`). -/
def existingZips (d : Disk) : List String := d.zips.keys.filter (globMatches ".zip")

/-- `extracted_zip_files` of `get_zip_file_count` (`tools/download_sumo_datasets.py:244-247`). -/
def extractedZips (d : Disk) : List String := (d.markers.filter (globMatches ".cache")).map zipOfMarker

/-- `remaining_zip_files_to_be_downloaded` of `get_zip_file_count` (`tools/download_sumo_datasets.py:248-250`). -/
def remainingZips (cfg : Config) (d : Disk) : List String :=
  removeExistingFiles cfg.requested (existingZips d ++ extractedZips d)

/-- Where a task of the pool is.  `fetch`, `write`, `cleanup`: `download_one` before the request, while copying the response
(the chunks to come, and whether an exception follows the last one), in its exception handler.  `unzip`, `extract`, `remove`,
`mark`: `unzip_one` before opening the archive, while extracting the remaining members, before `os.remove`, before the marker
file is created. -/
inductive Task
  | fetch (f : String)
  | write (f : String) (rest : List Bytes) (broken : Bool)
  | cleanup (f : String)
  | unzip (f : String)
  | extract (f : String) (rest : List (String × Option Bytes))
  | remove (f : String)
  | mark (f : String)

/-- The archive a task works on. -/
def Task.name : Task → String
  | fetch f | write f _ _ | cleanup f | unzip f | extract f _ | remove f | mark f => f

/-- What happens at a step of a task: the operation succeeds; it raises (network, disk full, permissions, or a
`KeyboardInterrupt`); the server answers with these chunks, the connection breaking with or without an exception; some part of
the file being extracted has reached the disk. -/
inductive Event
  | good
  | fail
  | response (chunks : List Bytes) (broken : Bool)
  | partly (b : Bytes)

/-- One step of a task: the new disk, and what remains of the task.
`download_one` (`tools/download_sumo_datasets.py:75-110`): nothing compares the length of what was received with
`content-length`.  `unzip_one` (`tools/download_sumo_datasets.py:113-133`). -/
def taskStep (cfg : Config) (d : Disk) : Task → Event → Disk × Option Task
  | .fetch f, .response chunks broken => ({ d with zips := d.zips.set f [] }, some (.write f chunks broken))
  | .fetch f, _ => (d, some (.cleanup f))
  | .write f (c :: rest) broken, .good =>
    match d.zips.get? f with
    | some z => ({ d with zips := d.zips.set f (z ++ c) }, some (.write f rest broken))
    | none => (d, some (.write f rest broken))
  | .write f [] false, .good => (d, none)
  | .write f _ _, _ => (d, some (.cleanup f))
  | .cleanup f, .good => ({ d with zips := d.zips.pop f }, none)
  | .unzip f, .good =>
    match d.zips.get? f with
    | none => (d, none)
    | some z =>
      match cfg.unpack z with
      | none => (d, none)
      | some members => (d, some (.extract f members))
  | .extract f ((m, some b) :: rest), .good => ({ d with data := d.data.set m b }, some (.extract f rest))
  | .extract f ((m, x) :: rest), .partly b => ({ d with data := d.data.set m b }, some (.extract f ((m, x) :: rest)))
  | .extract f [], .good => (d, some (.remove f))
  | .remove f, .good => ({ d with zips := d.zips.pop f }, some (.mark f))
  | .mark f, .good => ({ d with markers := markerOf f :: d.markers }, none)
  | _, _ => (d, none)

/-- Where the main process is: not running; in an attempt of `download_zips_in_parallel` or `unzip_files_in_parallel`; finished,
with what the two functions logged ("... complete." or an error). -/
inductive Main
  | idle
  | download (attempt : ℕ)
  | unzip (attempt : ℕ) (downloaded : Bool)
  | finished (downloaded extracted : Bool)

/-- The system. -/
structure Sys where
  disk : Disk
  main : Main
  tasks : List Task

/-- `MAX_RETRIES` (`tools/download_sumo_datasets.py:49`). -/
def maxRetries : ℕ := 3

/-- `unzip_files_in_parallel` when it is entered (`attempts = 0`) or an attempt has ended
(`tools/download_sumo_datasets.py:185-223`). -/
def enterUnzip (s : Sys) (attempts : ℕ) (downloaded : Bool) : Sys :=
  if existingZips s.disk = [] then { s with main := .finished downloaded true, tasks := [] }
  else if attempts < maxRetries then
    { s with main := .unzip (attempts + 1) downloaded, tasks := (existingZips s.disk).map .unzip }
  else { s with main := .finished downloaded false, tasks := [] }

/-- `download_zips_in_parallel` when it is entered (`attempts = 0`) or an attempt has ended
(`tools/download_sumo_datasets.py:136-172`), going on with `unzip_files_in_parallel` (301-302). -/
def enterDownload (cfg : Config) (s : Sys) (attempts : ℕ) : Sys :=
  if remainingZips cfg s.disk = [] then enterUnzip s 0 true
  else if attempts < maxRetries then
    { s with main := .download (attempts + 1), tasks := (remainingZips cfg s.disk).map .fetch }
  else enterUnzip s 0 false

/-- The main process, once no task is left (`tools/download_sumo_datasets.py:293-302`); a finished run can be followed by
another. -/
def mainStep (cfg : Config) (s : Sys) : Sys :=
  match s.main with
  | .idle => enterDownload cfg s 0
  | .download n => enterDownload cfg s n
  | .unzip n b => enterUnzip s n b
  | .finished _ _ => { s with main := .idle }

/-- The steps of the system, for a given idea of which events occur and whether the run may be killed. -/
inductive Step (cfg : Config) (occurs : Task → Event → Prop) (killed : Bool) : Sys → Sys → Prop
  | work (d : Disk) (m : Main) (l r : List Task) (t : Task) (e : Event) : occurs t e →
      Step cfg occurs killed ⟨d, m, l ++ t :: r⟩ ⟨(taskStep cfg d t e).1, m, l ++ (taskStep cfg d t e).2.toList ++ r⟩
  | main (d : Disk) (m : Main) : Step cfg occurs killed ⟨d, m, []⟩ (mainStep cfg ⟨d, m, []⟩)
  | crash (s : Sys) : killed = true → Step cfg occurs killed s ⟨s.disk, .idle, []⟩

/-- An empty destination directory. -/
def Disk.empty : Disk := ⟨[], [], []⟩

end Downloader
end Sumo
