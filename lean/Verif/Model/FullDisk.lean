import Verif.Model.Ply
import Verif.Model.Tiff
import Verif.Model.TinyGltf

/-!
# Saving to a disk that may be full

Model of `PointCloud.write_ply`, `GltfModel.save_as_gltf`, `GltfModel.save_as_glb` and of the TIFF writers, on a disk on which a
given number of bytes is free: what the calls leave there and what the caller is told.  What the files should contain is
modelled in `Ply`, `TinyGltf` and `Tiff`.  Directories and names need no room.  A file is a list of bytes that is written from
the beginning; what `cv::imwrite` leaves if it cannot write everything is taken to be the part that fits.
-/

namespace Sumo

/-- The files of a folder, and how many bytes are free on its disk. -/
structure Volume where
  free : ℕ
  file : String → Option (List UInt8)

/-- How long a file of this name can be: opening it for writing empties it. -/
def Volume.room (v : Volume) (name : String) : ℕ := v.free + ((v.file name).getD []).length

/-- Opening a file for writing, writing to it and closing it: what fits is stored. -/
def Volume.store (v : Volume) (name : String) (b : List UInt8) : Volume :=
  ⟨v.room name - b.length, fun n => if n = name then some (b.take (v.room name)) else v.file n⟩

/-- Writing through `std::filebuf`, `std::ofstream` or `cv::imwrite` when nobody looks at the state of the stream or at the
result (`threedee/point_cloud_ply_c.cpp:71-73,105-107`, `threedee/tiny_gltf/tiny_gltf.h:4006-4014,4457-4462`,
`threedee/GltfModel.cpp:516-522`): there is no exception. -/
def Volume.cppWrite (v : Volume) (name : String) (b : List UInt8) : Volume × Except PyErr Unit := (v.store name b, .ok ())

/-- Writing to a Python file object: an `OSError` (of which `IOError` is another name) if something does not fit, by `write` or
at the latest when the file is closed. -/
def Volume.pyWrite (v : Volume) (name : String) (b : List UInt8) : Volume × Except PyErr Unit :=
  (v.store name b, if b.length ≤ v.room name then .ok () else .error .ioError)

/-! ### PLY -/

/-- `PointCloud.write_ply` (`threedee/point_cloud.pyx:204-209`, `threedee/point_cloud_ply_c.cpp:53-108`) to a file that can be
opened.  What is left if the cloud is inconsistent (`Ply.writePly` fails) is not modelled. -/
def Ply.writePlyOn {K : Type} [Zero K] (C : Ply.SingleCodec K) (c : PointCloud K) (v : Volume) (name : String) :
    Volume × Except PyErr Unit :=
  match Ply.writePly C c true with
  | .error e => (v, .error e)
  | .ok b => v.cppWrite name b

/-! ### glTF and GLB -/

namespace Gltf

/-- Several files, one after the other. -/
def storeAll (v : Volume) (l : List Written) : Volume := l.foldl (fun v w => v.store w.1 w.2) v

/-- `GltfModel.save_as_gltf` (`threedee/gltf_model.pyx:221-242`) in an existing folder with the sub-folders `dirs`.  Every file
is written by C++ code that does not look whether it worked: `SerializeGltfBufferData` and `WriteGltfFile`
(`threedee/tiny_gltf/tiny_gltf.h:4006-4014,4457-4462`), `saveImages` (`threedee/GltfModel.cpp:516-522`).  `os.path.isfile` only says
that the document exists. -/
def saveAsGltfOn (W : Writer) (dirs : List String) (v : Volume) (M : Model) (root : String) :
    Model × Volume × Except PyErr Unit :=
  let r := saveGltf W dirs (fun n => (v.file n).isSome) M root
  (r.1, storeAll v r.2.1, r.2.2)

/-- `encoder.export` (`threedee/glb_converter.pyx:82-91`). -/
def exportOn (v : Volume) (name : String) (header : List UInt8) (body : BodyEncoder) : Volume × Except PyErr Unit :=
  match exportString header body with
  | .error e => (v.store name [], .error e)
  | .ok b => v.pyWrite name b

/-- `GltfModel.save_as_glb` (`threedee/gltf_model.pyx:244-271`) for a file in the folder `v`: the files go to a new folder on a
disk of its own with `temp` free bytes, are read from there and bundled.  (If both folders are on one disk, there is less room
for the bundle.)  The new folder is removed in the end. -/
def saveAsGlbOn (W : Writer) (M : Model) (temp : ℕ) (v : Volume) (name : String) : Volume × Except PyErr Unit :=
  if (GlbSave.splitext name).2 ≠ ".glb" then (v, .error .assertionError)
  else
    match saveAsGltfOn W [] ⟨temp, fun _ => none⟩ M (GlbSave.splitext name).1 with
    | (_, _, .error e) => (v, .error e)
    | (_, t, .ok ()) =>
      match convertGltf W (GlbSave.splitext name).1 t.file with
      | .error e => (v, .error e)
      | .ok (header, body) => exportOn v name header body

end Gltf

/-! ### TIFF -/

namespace Tiff

variable {K : Type} [Field K] [LinearOrder K] [FloorRing K]

/-- `writeRgbdTiff` (`images/RgbdTiff.cpp:236-269`) on a disk that may be full.  `stored` is what can be read from the file
after libtiff was told to write some directories (`none`: it is no TIFF file).  The results of `TIFFWriteScanline` and
`TIFFWriteDirectory` are not looked at (`images/RgbdTiff.cpp:226-229`), and `TIFFClose` has none. -/
def writeRgbdTiffOn (stored : List (Page K) → Option (List (Page K))) (writable : String → Bool) (files : TiffFiles K)
    (pm : PageMap) (path : String) (near : K) : TiffFiles K × Except PyErr Unit :=
  if (pm .rgb).isNone then (files, .error .runtimeError)
  else if (pm .inverseDepth).isNone then (files, .error .runtimeError)
  else if writable path = false then (files, .error .runtimeError)
  else (fun p => if p = path then stored (pagesOf pm near) else files p, .ok ())

/-- `save` (`images/rgbd_tiff.pyx:127-165`) on a disk that may be full. -/
def saveOn (stored : List (Page K) → Option (List (Page K))) (ρ : Rounding K) (writable : String → Bool) (files : TiffFiles K)
    (images : Dict String (NpImage K)) (path : String) (near : K) : TiffFiles K × Except PyErr Unit :=
  match validate images with
  | .error e => (files, .error e)
  | .ok () =>
    match saveLoop ρ near (fun _ => none) images with
    | .error e => (files, .error e)
    | .ok pm => writeRgbdTiffOn stored writable files pm path (ρ.f32 near)

end Tiff
end Sumo
