import Verif.Model.InverseDepth
import Verif.Model.Py

/-!
# Multi-page TIFF files

Model of `sumo-api/sumo/images/rgbd_tiff.pyx`, `RgbdTiff.cpp` and of the savers and loaders of `rgbd_360.pyx`,
`rgbdci_360.pyx` and `multi_image_tiff.pyx`.  A TIFF file is the list of its directories with the tags this code reads; libtiff
stores and returns tags and scan lines as they are.  Images are lists of rows.  The JSON text
of the metadata is not modelled: a double survives it (17 digits).  `near` is a finite number.
-/

namespace Sumo
namespace Tiff

variable {K : Type} [Field K] [LinearOrder K] [FloorRing K]

/-- A numpy array, as far as this code tells arrays apart: h×w×3 of uint8, h×w of float32, of uint16, or anything else.  The
arrays of uint8 and of uint16 are contiguous in memory (`rgb8`, `u16`) or not (`rgb8s`, `u16s`: a slice or a transposed
array). -/
inductive NpImage (K : Type)
  | rgb8 (rows : List (List (ℕ × ℕ × ℕ)))
  | rgb8s (rows : List (List (ℕ × ℕ × ℕ)))
  | f32 (rows : List (List (FVal K)))
  | u16 (rows : List (List ℕ))
  | u16s (rows : List (List ℕ))
  | other

/-- `TiffPageType` (`images/RgbdTiff.h:17-25`). -/
inductive PageType
  | rgb
  | inverseDepth
  | category
  | instance_
  deriving DecidableEq, Repr

/-- The enumeration in the order of its values. -/
def PageType.all : List PageType := [.rgb, .inverseDepth, .category, .instance_]

/-- A `cv::Mat` of the types that occur: 3×8 bit, 8 bit, 16 bit. -/
inductive CvMat
  | c3 (rows : List (List (ℕ × ℕ × ℕ)))
  | c8 (rows : List (List ℕ))
  | c16 (rows : List (List ℕ))

/-- `Mat::empty()`: no rows or no columns. -/
def CvMat.isEmpty : CvMat → Bool
  | .c3 rows => rows.all List.isEmpty
  | .c8 rows => rows.all List.isEmpty
  | .c16 rows => rows.all List.isEmpty

/-- The scan lines of a TIFF directory with its samples per pixel and bits per sample: 3×8, 3×16, 1×8, 1×16, other sample
counts, other bit counts. -/
inductive Raster
  | rgb8 (rows : List (List (ℕ × ℕ × ℕ)))
  | rgb16 (rows : List (List (ℕ × ℕ × ℕ)))
  | gray8 (rows : List (List ℕ))
  | gray16 (rows : List (List ℕ))
  | oddSamples
  | oddBits

/-- `TIFFTAG_IMAGEDESCRIPTION`: missing, not a JSON object of the expected types, or an object with or without `near`. -/
inductive Description (K : Type)
  | missing
  | corrupt
  | object (near : Option K)

/-- A directory of a TIFF file. -/
structure Page (K : Type) where
  pageName : Option String
  description : Description K
  raster : Raster

/-- The TIFF files, by path; `none`: there is none, or it is not a TIFF file. -/
abbrev TiffFiles (K : Type) := String → Option (List (Page K))

/-- `std::map<TiffPageType, cv::Mat*>`; the loader enters an empty image for each type, which is not told apart from no
entry here. -/
abbrev PageMap := PageType → Option CvMat

/-- `map[t] = m` -/
def PageMap.put (pm : PageMap) (t : PageType) (m : CvMat) : PageMap := fun t' => if t' = t then some m else pm t'

/-! ### Writing -/

/-- `pageTypeToStr` (`images/RgbdTiff.cpp:33-42`). -/
def pageTypeToStr : PageType → String
  | .rgb => "rgb"
  | .inverseDepth => "inv_depth"
  | .category => "category"
  | .instance_ => "instance"

/-- `strToPageType` (`images/RgbdTiff.cpp:20-31,44-47`): `std::out_of_range` becomes an `IndexError`. -/
def strToPageType (s : String) : Except PyErr PageType :=
  if s = "rgb" then .ok .rgb
  else if s = "depth" then .ok .inverseDepth
  else if s = "inv_depth" then .ok .inverseDepth
  else if s = "category" then .ok .category
  else if s = "semantic" then .ok .category
  else if s = "instance" then .ok .instance_
  else .error .indexError

/-- What `writeImage` stores (`images/RgbdTiff.cpp:201-230`): 8 bits per sample for three channels, else 16. (8 bit images of
one channel do not get here.) -/
def rasterOf : CvMat → Raster
  | .c3 rows => .rgb8 rows
  | .c8 _ => .oddBits
  | .c16 rows => .gray16 rows

/-- The directories `writeRgbdTiff` writes (`images/RgbdTiff.cpp:250-268`): the metadata goes to the first. -/
def pagesOf (pm : PageMap) (near : K) : List (Page K) :=
  let pages := PageType.all.filterMap fun t => (pm t).map fun m => (pageTypeToStr t, rasterOf m)
  pages.zipIdx.map fun x => ⟨some x.1.1, if x.2 = 0 then .object (some near) else .missing, x.1.2⟩

/-- `writeRgbdTiff` (`images/RgbdTiff.cpp:236-269`). -/
def writeRgbdTiff (writable : String → Bool) (files : TiffFiles K) (pm : PageMap) (path : String) (near : K) :
    TiffFiles K × Except PyErr Unit :=
  if (pm .rgb).isNone then (files, .error .runtimeError)
  else if (pm .inverseDepth).isNone then (files, .error .runtimeError)
  else if writable path = false then (files, .error .runtimeError)
  else (fun p => if p = path then some (pagesOf pm near) else files p, .ok ())

/-- `_validate` (`images/rgbd_tiff.pyx:113-125`). -/
def validate (images : Dict String (NpImage K)) : Except PyErr Unit := do
  let rgb ← images.get "rgb"
  match rgb with
  | .rgb8 _ => .ok ()
  | .rgb8s _ => .ok ()
  | _ => .error .valueError
  match images.get? "depth" with
  | some (.f32 _) => .ok ()
  | some _ => .error .valueError
  | none =>
    match images.get? "invdepth" with
    | some (.u16 _) => .ok ()
    | some (.u16s _) => .ok ()
    | some _ => .error .valueError
    | none => .ok ()

/-- The loop body of `save` (`images/rgbd_tiff.pyx:139-158`).  `inverse_depth_map_of_depth_image` raises a `ValueError` for arrays
of another type.  `mat1w_from_array` and `mat3b_from_array` (`opencv/wrap.pyx:51-54,64-70`) take contiguous arrays of their type;
for any other they raise a `ValueError`, but as they are declared `except +` (`opencv/wrap.pxd:75,77`) the caller does not look
for it: it goes on with a null pointer and a pending exception, and `writeRgbdTiff` reads through the pointer.  This is
undefined behaviour; the model gives up at once. -/
def saveStep (ρ : Rounding K) (near : K) (pm : PageMap) (kv : String × NpImage K) : Except PyErr PageMap :=
  if kv.1 = "depth" then
    match kv.2 with
    | .f32 rows =>
      .ok (pm.put .inverseDepth (.c16 (inverseDepthMapOfDepthImage ρ rows (ρ.f32 near))))
    | _ => .error .valueError
  else if kv.1 = "invdepth" then
    match kv.2 with
    | .u16 rows => .ok (pm.put .inverseDepth (.c16 rows))
    | _ => .error .undefined
  else if kv.1 = "rgb" then
    match kv.2 with
    | .rgb8 rows => .ok (pm.put .rgb (.c3 rows))
    | _ => .error .undefined
  else if kv.1 = "category" then
    match kv.2 with
    | .u16 rows => .ok (pm.put .category (.c16 rows))
    | _ => .error .undefined
  else if kv.1 = "instance" then
    match kv.2 with
    | .u16 rows => .ok (pm.put .instance_ (.c16 rows))
    | _ => .error .undefined
  else .error .valueError

/-- The loop of `save`. -/
def saveLoop (ρ : Rounding K) (near : K) : PageMap → List (String × NpImage K) → Except PyErr PageMap
  | pm, [] => .ok pm
  | pm, kv :: l => do
    let pm' ← saveStep ρ near pm kv
    saveLoop ρ near pm' l

/-- `save` (`images/rgbd_tiff.pyx:127-165`). -/
def save (ρ : Rounding K) (writable : String → Bool) (files : TiffFiles K) (images : Dict String (NpImage K)) (path : String)
    (near : K) : TiffFiles K × Except PyErr Unit :=
  match validate images with
  | .error e => (files, .error e)
  | .ok () =>
    match saveLoop ρ near (fun _ => none) images with
    | .error e => (files, .error e)
    | .ok pm => writeRgbdTiff writable files pm path (ρ.f32 near)

/-! ### Reading -/

/-- `readMetadata` (`images/RgbdTiff.cpp:71-111`): the near plane. -/
def readMetadata (ρ : Rounding K) : Description K → Except PyErr K
  | .missing => .ok 1
  | .corrupt => .error .runtimeError
  | .object none => .ok 1
  | .object (some near) => .ok (ρ.f32 near)

/-- `readTiffPageType` (`images/RgbdTiff.cpp:49-62`). -/
def readPageType (p : Page K) (channels : ℕ) : Except PyErr PageType :=
  match p.pageName with
  | none => .ok (if channels = 3 then .rgb else .inverseDepth)
  | some s => strToPageType s

/-- `readImage` (`images/RgbdTiff.cpp:132-179`). 16 bit colour images get a buffer of half the size of the data
(`img->create(height, width, CV_8UC3)`, but scan lines of `6 * width` bytes): undefined behaviour. -/
def readImage (pm : PageMap) (p : Page K) : Except PyErr PageMap :=
  match p.raster with
  | .oddSamples => .error .runtimeError
  | .oddBits => .error .runtimeError
  | .rgb8 rows => do
    let t ← readPageType p 3
    .ok (pm.put t (.c3 rows))
  | .rgb16 rows => do
    let t ← readPageType p 3
    if rows.all List.isEmpty then .ok (pm.put t (.c3 rows)) else .error .undefined
  | .gray8 rows => do
    let t ← readPageType p 1
    .ok (pm.put t (.c8 rows))
  | .gray16 rows => do
    let t ← readPageType p 1
    .ok (pm.put t (.c16 rows))

/-- The `while` of `readRgbdTiff` (`images/RgbdTiff.cpp:196`). -/
def readImages : PageMap → List (Page K) → Except PyErr PageMap
  | pm, [] => .ok pm
  | pm, p :: l => do
    let pm' ← readImage pm p
    readImages pm' l

/-- `readRgbdTiff` (`images/RgbdTiff.cpp:185-198`). -/
def readRgbdTiff (ρ : Rounding K) (files : TiffFiles K) (path : String) : Except PyErr (PageMap × K) :=
  match files path with
  | none => .error .runtimeError
  | some [] => .error .runtimeError
  | some (p :: l) => do
    let near ← readMetadata ρ p.description
    let pm ← readImages (fun _ => none) (p :: l)
    .ok (pm, near)

/-- The body of the loop of `load` for one page type (`images/rgbd_tiff.pyx:80-102`): images so far and near plane.  A
conversion of a 3 channel image to `Mat1w` throws a C++ exception that nothing catches. -/
def loadStep (ρ : Rounding K) (pm : PageMap) (st : Dict String (NpImage K) × K) (t : PageType) :
    Except PyErr (Dict String (NpImage K) × K) :=
  match pm t with
  | none => .ok st
  | some m =>
    if m.isEmpty then .ok st
    else
      match t with
      | .rgb =>
        match m with
        | .c3 rows => .ok (st.1.set "rgb" (.rgb8 rows), st.2)
        | _ => .error .valueError
      | .inverseDepth =>
        match m with
        | .c3 _ => .error .valueError
        | .c8 rows =>
          .ok (st.1.set "depth" (.u16 (uint16OfUint8InverseDepthMap ρ rows 1)), ρ.f32 defaultNear)
        | .c16 rows => .ok (st.1.set "depth" (.u16 rows), st.2)
      | .category =>
        match m with
        | .c3 _ => .error .undefined
        | .c8 rows => .ok (st.1.set "category" (.u16 rows), st.2)
        | .c16 rows => .ok (st.1.set "category" (.u16 rows), st.2)
      | .instance_ =>
        match m with
        | .c3 _ => .error .undefined
        | .c8 rows => .ok (st.1.set "instance" (.u16 rows), st.2)
        | .c16 rows => .ok (st.1.set "instance" (.u16 rows), st.2)

/-- The loop of `load`. -/
def loadLoop (ρ : Rounding K) (pm : PageMap) : Dict String (NpImage K) × K → List PageType →
    Except PyErr (Dict String (NpImage K) × K)
  | st, [] => .ok st
  | st, t :: l => do
    let st' ← loadStep ρ pm st t
    loadLoop ρ pm st' l

/-- `load` (`images/rgbd_tiff.pyx:66-111`). -/
def load (ρ : Rounding K) (files : TiffFiles K) (path : String) : Except PyErr (Dict String (NpImage K)) := do
  let (pm, near) ← readRgbdTiff ρ files path
  let (images, near) ← loadLoop ρ pm ([], near) PageType.all
  let depth ← images.get "depth"
  match depth with
  | .u16 codes => .ok (images.set "depth" (.f32 (depthImageOfInverseDepthMap ρ codes near)))
  | _ => .error .assertionError

/-! ### Rgbd360 and Rgbdci360 -/

/-- `Rgbd360` (`images/rgbd_360.pyx:17-35`). -/
structure Rgbd360 (K : Type) where
  rgb : NpImage K
  range : NpImage K

/-- Has three dimensions, three channels and the type uint8. -/
def NpImage.isRgb8 : NpImage K → Bool
  | .rgb8 _ => true
  | .rgb8s _ => true
  | _ => false

/-- Has two dimensions and the type float32. -/
def NpImage.isF32 : NpImage K → Bool
  | .f32 _ => true
  | _ => false

/-- Has two dimensions and the type uint16. -/
def NpImage.isU16 : NpImage K → Bool
  | .u16 _ => true
  | .u16s _ => true
  | _ => false

/-- `Rgbd360.__init__` (`images/rgbd_360.pyx:18-35`). -/
def Rgbd360.init (rgb range : NpImage K) : Except PyErr (Rgbd360 K) :=
  if rgb.isRgb8 = false then .error .typeError
  else if range.isF32 = false then .error .typeError
  else .ok ⟨rgb, range⟩

/-- `Rgbd360.save` (`images/rgbd_360.pyx:37-49`). -/
def Rgbd360.save (ρ : Rounding K) (writable : String → Bool) (files : TiffFiles K) (im : Rgbd360 K) (path : String)
    (near : K) : TiffFiles K × Except PyErr Unit :=
  Tiff.save ρ writable files [("rgb", im.rgb), ("depth", im.range)] path near

/-- `Rgbd360.load` (`images/rgbd_360.pyx:51-63`). -/
def Rgbd360.load (ρ : Rounding K) (files : TiffFiles K) (path : String) : Except PyErr (Rgbd360 K) := do
  let images ← Tiff.load ρ files path
  let rgb ← images.get "rgb"
  let range ← images.get "depth"
  Rgbd360.init rgb range

/-- `Rgbdci360` (`images/rgbdci_360.pyx:24-50`). -/
structure Rgbdci360 (K : Type) where
  rgb : NpImage K
  range : NpImage K
  category : NpImage K
  instance_ : NpImage K

/-- `Rgbdci360.__init__` (`images/rgbdci_360.pyx:25-50`). -/
def Rgbdci360.init (rgb range category instance_ : NpImage K) : Except PyErr (Rgbdci360 K) :=
  if rgb.isRgb8 = false then .error .typeError
  else if range.isF32 = false then .error .typeError
  else if category.isU16 = false then .error .typeError
  else if instance_.isU16 = false then .error .typeError
  else .ok ⟨rgb, range, category, instance_⟩

/-- `Rgbdci360.save` (`images/rgbdci_360.pyx:52-66`). -/
def Rgbdci360.save (ρ : Rounding K) (writable : String → Bool) (files : TiffFiles K) (im : Rgbdci360 K) (path : String)
    (near : K) : TiffFiles K × Except PyErr Unit :=
  Tiff.save ρ writable files
    [("rgb", im.rgb), ("depth", im.range), ("category", im.category), ("instance", im.instance_)] path near

/-- `Rgbdci360.load` (`images/rgbdci_360.pyx:68-82`). -/
def Rgbdci360.load (ρ : Rounding K) (files : TiffFiles K) (path : String) : Except PyErr (Rgbdci360 K) := do
  let images ← Tiff.load ρ files path
  let rgb ← images.get "rgb"
  let range ← images.get "depth"
  let category ← images.get "category"
  let inst ← images.get "instance"
  Rgbdci360.init rgb range category inst

end Tiff
end Sumo
