import Verif.Model.Tiff

/-!
# What `rgbd_tiff.load` and `rgbd_tiff.save` leave behind

The same functions as in `Verif.Model.Tiff`, with the `cv::Mat` objects they allocate by `new` and the TIFF files they open.  Python
does not know of either: what a call has not deleted or closed when it ends stays until the process ends.
-/

namespace Sumo
namespace Tiff

variable {K : Type} [Field K] [LinearOrder K] [FloorRing K]

/-- The `cv::Mat` objects of a call of `load` that are allocated and not deleted, by the key under which they were entered, with
what they hold, and the number of TIFF files open. -/
structure Native where
  mats : PageType → Option CvMat
  openFiles : ℕ

/-- `new Mat()` for every type of page (`images/rgbd_tiff.pyx:75-76`). -/
def newMats : PageType → Option CvMat := fun _ => some (.c8 [])

/-- The objects of `newMats` after `readImage` has filled some (`images/RgbdTiff.cpp:156-176`). -/
def filledMats (pm : PageMap) : PageType → Option CvMat := fun t => some ((pm t).getD (.c8 []))

/-- The `while` of `readRgbdTiff` (`images/RgbdTiff.cpp:196`), with the images read so far if it throws. -/
def readImagesN : PageMap → List (Page K) → PageMap × Except PyErr Unit
  | pm, [] => (pm, .ok ())
  | pm, p :: l =>
    match readImage pm p with
    | .error e => (pm, .error e)
    | .ok pm' => readImagesN pm' l

/-- `readRgbdTiff` (`images/RgbdTiff.cpp:185-198`): if it throws after `TIFFOpen`, `TIFFClose` is not reached. -/
def readRgbdTiffN (ρ : Rounding K) (files : TiffFiles K) (path : String) : Native × Except PyErr (PageMap × K) :=
  match files path with
  | none => (⟨newMats, 0⟩, .error .runtimeError)
  | some [] => (⟨newMats, 0⟩, .error .runtimeError)
  | some (p :: l) =>
    match readMetadata ρ p.description with
    | .error e => (⟨newMats, 1⟩, .error e)
    | .ok near =>
      match readImagesN (fun _ => none) (p :: l) with
      | (pm, .error e) => (⟨filledMats pm, 1⟩, .error e)
      | (pm, .ok ()) => (⟨filledMats pm, 0⟩, .ok (pm, near))

/-- The loop of `load` (`images/rgbd_tiff.pyx:80-102`): an empty image is passed over by `continue`, before `del it.second`; an image
that is refused is not deleted either. -/
def loadLoopN (ρ : Rounding K) (pm : PageMap) : Native → Dict String (NpImage K) × K → List PageType →
    Native × Except PyErr (Dict String (NpImage K) × K)
  | n, st, [] => (n, .ok st)
  | n, st, t :: l =>
    match loadStep ρ pm st t with
    | .error e => (n, .error e)
    | .ok st' =>
      if ((pm t).getD (.c8 [])).isEmpty then loadLoopN ρ pm n st' l
      else loadLoopN ρ pm ⟨fun t' => if t' = t then none else n.mats t', n.openFiles⟩ st' l

/-- `load` (`images/rgbd_tiff.pyx:66-111`). -/
def loadN (ρ : Rounding K) (files : TiffFiles K) (path : String) : Native × Except PyErr (Dict String (NpImage K)) :=
  match readRgbdTiffN ρ files path with
  | (n, .error e) => (n, .error e)
  | (n, .ok (pm, near)) =>
    match loadLoopN ρ pm n ([], near) PageType.all with
    | (n, .error e) => (n, .error e)
    | (n, .ok (images, near)) =>
      match images.get "depth" with
      | .error e => (n, .error e)
      | .ok (.u16 codes) => (n, .ok (images.set "depth" (.f32 (depthImageOfInverseDepthMap ρ codes near))))
      | .ok _ => (n, .error .assertionError)

/-- The number of entries of a page map. -/
def PageMap.size (pm : PageMap) : ℕ := (PageType.all.filter fun t => (pm t).isSome).length

/-- The loop of `save` (`images/rgbd_tiff.pyx:139-158`) with the number of `cv::Mat` objects to which no pointer is left: an entry of
the map that is replaced is not deleted (the size of the map tells), and if the loop raises none is. -/
def saveLoopN (ρ : Rounding K) (near : K) : ℕ → PageMap → List (String × NpImage K) → ℕ × Except PyErr PageMap
  | lost, pm, [] => (lost, .ok pm)
  | lost, pm, kv :: l =>
    match saveStep ρ near pm kv with
    | .error e => (lost + pm.size, .error e)
    | .ok pm' => saveLoopN ρ near (lost + 1 + pm.size - pm'.size) pm' l

/-- `save` (`images/rgbd_tiff.pyx:127-165`): the objects are deleted after the file is written (160-165), so not if
`writeRgbdTiff` throws. The pixels belong to numpy. -/
def saveN (ρ : Rounding K) (writable : String → Bool) (files : TiffFiles K) (images : Dict String (NpImage K)) (path : String)
    (near : K) : ℕ × TiffFiles K × Except PyErr Unit :=
  match validate images with
  | .error e => (0, files, .error e)
  | .ok () =>
    match saveLoopN ρ near 0 (fun _ => none) images with
    | (lost, .error e) => (lost, files, .error e)
    | (lost, .ok pm) =>
      match writeRgbdTiff writable files pm path (ρ.f32 near) with
      | (files', .error e) => (lost + pm.size, files', .error e)
      | (files', .ok ()) => (lost, files', .ok ())

/-- The number of `cv::Mat` objects a call of `load` leaves. -/
def Native.left (n : Native) : ℕ := (PageType.all.filter fun t => (n.mats t).isSome).length

/-- Loading some files one after the other, whatever comes of it: objects and open files left in all. -/
def loadAllN (ρ : Rounding K) (files : TiffFiles K) (paths : List String) : ℕ × ℕ :=
  ((paths.map fun p => (loadN ρ files p).1.left).sum, (paths.map fun p => (loadN ρ files p).1.openFiles).sum)

end Tiff
end Sumo
