import Verif.Model.Downloader
import Mathlib.Logic.Relation

/-!
# What is claimed of the dataset downloader
-/

namespace Sumo
namespace Downloader

/-- Which events the world can produce: a response is a beginning of the file asked for (all of it, if the transfer is not cut
short), and a half written member holds a beginning of its contents. -/
def Possible (cfg : Config) : Task → Event → Prop
  | .fetch f, .response chunks _ => chunks.flatten <+: cfg.server f
  | .extract _ ((_, some b) :: _), .partly p => p <+: b
  | _, _ => True

/-- The events of a world in which transfers that break off raise an exception, and files can be deleted; every operation may
still fail. -/
def Orderly (cfg : Config) : Task → Event → Prop
  | .fetch f, .response chunks broken => chunks.flatten <+: cfg.server f ∧ (broken = false → chunks.flatten = cfg.server f)
  | .extract _ ((_, some b) :: _), .partly p => p <+: b
  | .cleanup _, e => e = .good
  | _, _ => True

/-- The events of a world in which nothing fails. -/
def FaultFree (cfg : Config) : Task → Event → Prop
  | .fetch f, .response chunks broken => chunks.flatten = cfg.server f ∧ broken = false
  | .fetch _, _ => False
  | _, e => e = .good

/-- The states reached from a given one by any sequence of steps: interleaved tasks, failures, killed and repeated runs. -/
def Reaches (cfg : Config) (occurs : Task → Event → Prop) (killed : Bool) : Sys → Sys → Prop :=
  Relation.ReflTransGen (Step cfg occurs killed)

/-- No run has taken place yet. -/
def Sys.initial : Sys := ⟨Disk.empty, .idle, []⟩

/-- An archive name: a stem without slashes that does not begin with a dot, and `.zip`; nowhere in it is `.cache`
(`C75_cache_in_name` says what happens otherwise). -/
def GoodName (f : String) : Prop :=
  ∃ stem : List Char, (∃ c, stem.head? = some c ∧ c ≠ '.') ∧ '/' ∉ stem ∧ ¬ ".cache".toList <:+: f.toList ∧
    f.toList = stem ++ ".zip".toList

/-- All members of the server's archive are on the disk with the right contents. -/
def Extracted (cfg : Config) (d : Disk) (f : String) : Prop :=
  ∃ members, cfg.unpack (cfg.server f) = some members ∧
    ∀ p ∈ members, ∃ b, p.2 = some b ∧ d.data.get? p.1 = some b

/-- The script's record that an archive has been extracted. -/
def Marked (d : Disk) (f : String) : Prop := markerOf f ∈ d.markers

/-- What is assumed of the dataset: archives have different names, no proper beginning of an archive opens as an archive (the
directory of a zip file is at its end), no member is repeated within an archive or
in different archives. -/
structure Dataset (cfg : Config) : Prop where
  nodup : cfg.requested.Nodup
  names : ∀ f ∈ cfg.requested, GoodName f
  truncated : ∀ f ∈ cfg.requested, ∀ z, z <+: cfg.server f → z ≠ cfg.server f → cfg.unpack z = none
  members : ∀ f ∈ cfg.requested, ∀ ms, cfg.unpack (cfg.server f) = some ms → (ms.map Prod.fst).Nodup
  disjoint : ∀ f ∈ cfg.requested, ∀ g ∈ cfg.requested, f ≠ g → ∀ ms ns, cfg.unpack (cfg.server f) = some ms →
    cfg.unpack (cfg.server g) = some ns → ∀ p ∈ ms, ∀ q ∈ ns, p.1 ≠ q.1

/-- The server's archives are intact. -/
def Intact (cfg : Config) : Prop :=
  ∀ f ∈ cfg.requested, ∃ ms, cfg.unpack (cfg.server f) = some ms ∧ ∀ p ∈ ms, p.2 ≠ none

/-- No archive on the disk is incomplete. -/
def Whole (cfg : Config) (d : Disk) : Prop := ∀ f z, d.zips.get? f = some z → z = cfg.server f

end Downloader
end Sumo
