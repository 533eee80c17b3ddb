import Verif.Model.GlbSave

/-! # File names and new folders -/

namespace Sumo
namespace GlbSave

/-- A folder that does not exist yet: nothing is in it. -/
def Fresh (os : Os) (temp : Dir) : Prop :=
  (∀ d, temp <+: d → os.isDir d = false) ∧ ∀ d n, temp <+: d → os.file d n = none

/-- Files are in existing directories. -/
def Sound (os : Os) : Prop := ∀ d n b, os.file d n = some b → os.isDir d = true

/-- A file name with a non-empty stem and the extension `.glb`. -/
def GlbName (name root : String) : Prop := name = root ++ ".glb" ∧ ∃ c ∈ root.toList, c ≠ '.'

/-- The files in a folder after these were written there one after the other. -/
def contents (l : List (String × List UInt8)) : Files := fun n => (l.reverse.find? (fun f => n == f.1)).map Prod.snd

end GlbSave
end Sumo
