import Verif.Model.Py
import Mathlib.Algebra.Order.Field.Rat

/-!
# The main program of `tools/download_sumo_datasets.py`

What the main process does when one of the calls it makes raises: the log, the order of the steps and the exit status
(`tools/download_sumo_datasets.py:136-233,269-281,293-311`).  What happens on the disk is in `Downloader`; here every call into a library, and
every function whose failures are not handled inside it, has an outcome from outside.
-/

namespace Sumo
namespace DownloaderMain

/-- What a call can raise: an `Exception` with some message, or `KeyboardInterrupt` (which is none). -/
inductive Exc
  | exception (message : String)
  | interrupt
  deriving DecidableEq

/-- A line of the log, without the progress messages ("Attempt …"). -/
inductive Line
  | complete (stage : String)                 -- "Download complete." (143, 162), "Extraction complete." (191, 213)
  | unable (stage : String) (remaining : ℕ)   -- "Unable to download …" (168-171), "Unable to extract …" (219-224)
  | error (message : String)                  -- `logging.error(e)` (180, 231)
  | interrupted                               -- "Download interrupted by user." (308)
  | terminated (message : String)             -- "Program terminated with the following error: …" (311)
  deriving DecidableEq

/-- The message of the `UnboundLocalError`. -/
def unbound : String := "local variable 'pool' referenced before assignment"

/-- The outcomes of the calls of one attempt: `Pool(MAX_CORES)` (149, 199); `map_async`, `close` and `join` (155-157, 205-208); the
number of files left, by `get_zip_file_count` (160, 210). -/
structure Attempt where
  pool : Except Exc Unit
  work : Except Exc Unit
  count : Except Exc ℕ

/-- The outcomes of the calls of a stage: the first `get_zip_file_count` (140, 188), the attempts, the last `get_zip_file_count`
(166, 217; for unzipping, the number of archives that are not marked as extracted, 218). -/
structure Stage where
  name : String
  first : Except Exc ℕ
  attempts : List Attempt
  last : Except Exc ℕ

/-- `MAX_RETRIES` (`tools/download_sumo_datasets.py:49`). -/
def maxRetries : ℕ := 3

/-- How the body of `try` ends: the lines logged, whether the variable `pool` is bound, and the exception, if any.  The loop
(`tools/download_sumo_datasets.py:146-163,196-214`): `n` attempts are left. -/
def loop (s : Stage) : ℕ → List Attempt → Bool → List Line × Bool × Option Exc
  | n + 1, a :: as, bound =>
    match a.pool with
    | .error e => ([], bound, some e)
    | .ok () =>
      match a.work with
      | .error e => ([], true, some e)
      | .ok () =>
        match a.count with
        | .error e => ([], true, some e)
        | .ok 0 => ([.complete s.name], true, none)
        | .ok (_ + 1) => loop s n as true
  | _, _, bound =>
    match s.last with
    | .error e => ([], bound, some e)
    | .ok 0 => ([], bound, none)
    | .ok (k + 1) => ([.unable s.name (k + 1)], bound, none)

/-- The body of `try` (`tools/download_sumo_datasets.py:138-172,187-224`). -/
def body (s : Stage) : List Line × Bool × Option Exc :=
  match s.first with
  | .error e => ([], false, some e)
  | .ok 0 => ([.complete s.name], false, none)
  | .ok (_ + 1) => loop s maxRetries s.attempts false

/-- `download_zips_in_parallel` and `unzip_files_in_parallel` (`tools/download_sumo_datasets.py:136-182,185-233`): the lines logged and what
is raised.  Both handlers use `pool`; where it is not bound that raises an `UnboundLocalError`. -/
def stage (s : Stage) : List Line × Option Exc :=
  match body s with
  | (log, _, none) => (log, none)
  | (log, bound, some .interrupt) => (log, some (if bound then .interrupt else .exception unbound))
  | (log, bound, some (.exception m)) => (log ++ [.error m], if bound then none else some (.exception unbound))

/-- What happens before the stages: the outcomes of `get_args`, `read_config`, `create_target_folder` and `calculate_disk_space_needed`
(`tools/download_sumo_datasets.py:299-303`). -/
structure Run where
  preparation : List (Except Exc Unit)
  download : Stage
  unzip : Stage

/-- The first exception. -/
def firstError : List (Except Exc Unit) → Option Exc
  | [] => none
  | .error e :: _ => some e
  | .ok () :: l => firstError l

/-- The body of the main program (`tools/download_sumo_datasets.py:298-305`). -/
def mainBody (r : Run) : List Line × Option Exc :=
  match firstError r.preparation with
  | some e => ([], some e)
  | none =>
    match stage r.download with
    | (log, some e) => (log, some e)
    | (log, none) =>
      match stage r.unzip with
      | (log', e) => (log ++ log', e)

/-- The main program (`tools/download_sumo_datasets.py:296-311`): the log and the exit status.  That of wrong arguments (`SystemExit`, which is
no `Exception`) is not modelled. -/
def main (r : Run) : List Line × ℕ :=
  match mainBody r with
  | (log, none) => (log, 0)
  | (log, some .interrupt) => (log ++ [.interrupted], 0)
  | (log, some (.exception m)) => (log ++ [.terminated m], 0)

/-! ### Disk space -/

/-- `calculate_disk_space_needed` (`tools/download_sumo_datasets.py:269-281`): `free` is in bytes, `remaining` the number of archives to be
downloaded; division by powers of two is exact. -/
def spaceCheck (free remaining : ℕ) : Except Exc Unit :=
  if (free : ℚ) / 1024 / 1024 / 1024 < remaining * 6 + 10 then
    .error (.exception "Your destination folder needs to have at least …GB of free space.")
  else .ok ()

end DownloaderMain
end Sumo
