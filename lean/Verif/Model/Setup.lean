import Verif.Model.Py
import Mathlib.Data.List.Basic

/-!
# `setup.py`

The command line of `sumo-api/setup.py` and its rule `cleanall`, which starts shell commands and does not wait for them.  The commands run
at the same time: an execution is any sequence of their steps.  Files are regular files in folders; links, permissions and quotes or
backslashes in names (which `xargs` treats specially) are left out.  The table of extensions and the call of `setup` are not modelled.
-/

namespace Sumo
namespace Setup

/-- A file below the folder of `setup.py`: the names on its path, and whether it contains the text `Generated by Cython`. -/
structure File where
  path : List (List Char)
  phrase : Bool
  deriving DecidableEq

/-- The pieces between the characters that satisfy `q`. -/
def pieces (q : Char → Bool) : List Char → List (List Char)
  | [] => [[]]
  | c :: cs =>
    if q c then [] :: pieces q cs
    else match pieces q cs with
      | [] => [[c]]
      | w :: ws => (c :: w) :: ws

/-- Blanks and line ends, where `xargs` splits its input. -/
def blank (c : Char) : Bool := c = ' ' || c = '\t' || c = '\n'

/-- The line `grep -rl … .` prints for a file. -/
def printed (path : List (List Char)) : List Char := '.' :: path.flatMap fun n => '/' :: n

/-- The arguments `xargs` makes of a line. -/
def words (line : List Char) : List (List Char) := (pieces blank line).filter fun w => !w.isEmpty

/-- The path an argument of `rm` names, relative to the folder of `setup.py`. -/
def pathOf (word : List Char) : List (List Char) := (pieces (· = '/') word).filter fun w => !w.isEmpty && w != ['.']

/-- The last name of a path. -/
def baseName (path : List (List Char)) : List Char := path.getLast?.getD []

/-- `rm -rf build` (`setup.py:25`). -/
def inBuild (f : File) : Bool := f.path.head? == some "build".toList

/-- `find sumo -type f -name '*.so' -delete` (`setup.py:31-32`). -/
def isSo (f : File) : Bool := f.path.head? == some "sumo".toList && ".so".toList.isSuffixOf (baseName f.path)

/-- `find sumo -type f -name '*.c' -delete` (`setup.py:33-34`). -/
def isC (f : File) : Bool := f.path.head? == some "sumo".toList && ".c".toList.isSuffixOf (baseName f.path)

/-- What `grep --exclude 'setup.py' --exclude-dir 'venv' -rl -e 'Generated by Cython' .` lists (`setup.py:36-37`). -/
def listed (f : File) : Bool := f.phrase && baseName f.path != "setup.py".toList && !(f.path.dropLast.contains "venv".toList)

/-- One step of one of the commands: `rm -rf build`, the two `find` commands and `grep` come to a file, or `xargs rm` takes a line from
the pipe. -/
inductive Event
  | rmBuild (f : File)
  | findSo (f : File)
  | findC (f : File)
  | grep (f : File)
  | xargs

/-- The files that are left, and the lines in the pipe between `grep` and `xargs`. -/
structure State where
  files : List File
  pipe : List (List Char)

/-- The file is deleted. -/
def State.delete (s : State) (path : List (List Char)) : State := { s with files := s.files.filter fun f => f.path != path }

/-- One step (`setup.py:25-37`).  A command that comes to a file that is gone does nothing. -/
def step (s : State) : Event → State
  | .rmBuild f => if inBuild f then s.delete f.path else s
  | .findSo f => if isSo f then s.delete f.path else s
  | .findC f => if isC f then s.delete f.path else s
  | .grep f => if f ∈ s.files && listed f then { s with pipe := s.pipe ++ [printed f.path] } else s
  | .xargs => match s.pipe with
    | [] => s
    | line :: rest => (words line).foldl (fun s w => s.delete (pathOf w)) { s with pipe := rest }

/-- `cleanall` on a folder with the given files, for one order of the steps. -/
def cleanall (files : List File) (events : List Event) : State := events.foldl step ⟨files, []⟩

/-- What `setup.py` goes on to do with its command line (`setup.py:20-44`): nothing (after `cleanall` has started its commands), or the
call of `setup` with the given `sys.argv`. -/
inductive Outcome
  | exits
  | setup (argv : List String)
  deriving DecidableEq

/-- `sys.argv.insert(sys.argv.index("build_ext") + 1, "--inplace")`. -/
def insertAfter (argv : List String) : List String :=
  argv.take (argv.idxOf "build_ext" + 1) ++ "--inplace" :: argv.drop (argv.idxOf "build_ext" + 1)

/-- The command line (`setup.py:20-44`). -/
def commandLine (argv : List String) : Outcome :=
  let args := argv.drop 1
  if "cleanall" ∈ args then .exits
  else if args.count "build_ext" > 0 && args.count "--inplace" == 0 then .setup (insertAfter argv)
  else .setup argv

end Setup
end Sumo
