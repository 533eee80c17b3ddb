import Verif.Model.Glb

/-!
# `GltfModel.save_as_glb`

Model of `sumo-api/sumo/threedee/gltf_model.pyx:221-271`.  The file system has directories and files named by absolute paths;
a path given by the caller is absolute or relative to the working directory and has no `.` or `..` components; there are no
symbolic links, permissions or full disks.  What tinygltf and `saveImages` write into the temporary folder, and what reading the
document from there gives, are parameters.
-/

namespace Sumo
namespace GlbSave

/-- A directory: the components of its absolute path. -/
abbrev Dir := List String

/-- The state of the operating system. -/
structure Os where
  cwd : Dir
  isDir : Dir → Bool
  file : Dir → String → Option (List UInt8)

/-- A path as the caller gives it: `absolute` if it starts with a slash, its directories and its last component
(`os.path.basename`). -/
structure GlbPath where
  absolute : Bool
  dirs : List String
  name : String

/-- The directory of a path, seen from the working directory. -/
def Os.resolve (os : Os) (p : GlbPath) : Dir := if p.absolute then p.dirs else os.cwd ++ p.dirs

/-- `tempfile.mkdtemp()` (`threedee/gltf_model.pyx:261`), which returns the new folder `temp`. -/
def Os.mkdtemp (os : Os) (temp : Dir) : Os := { os with isDir := fun d => if d = temp then true else os.isDir d }

/-- `os.chdir` -/
def Os.chdir (os : Os) (d : Dir) : Os := { os with cwd := d }

/-- A file of the given contents in the given directory. -/
def Os.write (os : Os) (d : Dir) (n : String) (b : List UInt8) : Os :=
  { os with file := fun d' n' => if d' = d ∧ n' = n then some b else os.file d' n' }

/-- `shutil.rmtree` -/
def Os.rmtree (os : Os) (t : Dir) : Os :=
  { os with
    isDir := fun d => if t <+: d then false else os.isDir d
    file := fun d n => if t <+: d then none else os.file d n }

/-- `os.path.splitext` of a file name: the extension starts at the last dot, unless there are only dots before it. -/
def splitext (name : String) : String × String :=
  let ext := name.toList.reverse.takeWhile (· != '.')
  let rest := name.toList.reverse.dropWhile (· != '.')
  match rest with
  | [] => (name, "")
  | _ :: root =>
    if root.all (· == '.') then (name, "")
    else (String.ofList root.reverse, String.ofList ('.' :: ext.reverse))

/-- The parts of the export that are not modelled here: the files written into the temporary folder for a root name, by
tinygltf and `saveImages`, and how that ends (`save_as_gltf`, `threedee/gltf_model.pyx:220-242`); and the header and body that
`gltf2glb` makes from the files in that folder (`threedee/glb_converter.pyx:153-230`). -/
structure Exporter where
  write : String → List (String × List UInt8) × Except PyErr Unit
  convert : String → Files → Except PyErr (List UInt8 × BodyEncoder)

/-- `encoder.export(fname_out)` (`threedee/glb_converter.pyx:82-91,231`): the directory must exist; the file is emptied when
opened. -/
def exportTo (os : Os) (p : GlbPath) (header : List UInt8) (body : BodyEncoder) : Os × Except PyErr Unit :=
  if os.isDir (os.resolve p) then
    let (b, r) := exportFile header body
    (os.write (os.resolve p) p.name b, r)
  else (os, .error .ioError)

/-- The body of the `try` (`threedee/gltf_model.pyx:269-270`). -/
def tryBody (E : Exporter) (os : Os) (temp : Dir) (root : String) (p : GlbPath) : Os × Except PyErr Unit :=
  let (written, r) := E.write root
  let os := written.foldl (fun os f => os.write temp f.1 f.2) os
  match r with
  | .error e => (os, .error e)
  | .ok () =>
    match E.convert root (os.file temp) with
    | .error e => (os, .error e)
    | .ok (header, body) => exportTo os p header body

/-- `save_as_glb` (`threedee/gltf_model.pyx:244-271`); `temp` is the folder `mkdtemp` makes. -/
def saveAsGlb (E : Exporter) (os : Os) (temp : Dir) (p : GlbPath) : Os × Except PyErr Unit :=
  let os := os.mkdtemp temp
  let (root, extension) := splitext p.name
  if extension ≠ ".glb" then (os, .error .assertionError)
  else
    let current := os.cwd
    let (os, r) := tryBody E (os.chdir temp) temp root p
    ((os.rmtree temp).chdir current, r)

end GlbSave
end Sumo
