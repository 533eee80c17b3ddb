import Verif.Model.Gltf
import Verif.Model.GlbSave

/-!
# Writing and reading glTF and GLB files

Model of `GltfModel.save_as_gltf`, `save_as_glb`, `load_from_gltf` and `load_from_glb` (`sumo-api/sumo/threedee/gltf_model.pyx`,
`gltf.pyx`), of `GltfModel::saveImages` (`threedee/GltfModel.cpp`), of the writer and the loader of the bundled `tinygltf`
(`threedee/tiny_gltf/tiny_gltf.h`) and of `gltf2glb` (`threedee/glb_converter.pyx`) on whole documents.

JSON documents are trees.  The text of a document, the PNG codec and base64 are parameters.  Left out: names of buffers, views,
accessors, meshes, nodes and scenes, node transformations and hierarchies, cameras, skins, animations, lights, extensions, extras
and morph targets, which `GltfModel` never uses; the asset entry.  Conversions of a `double` to an integer type assume that
the value fits; a negative one becomes 0 where the target is unsigned.
-/

namespace Sumo
namespace Gltf

/-- A JSON value (`threedee/tiny_gltf/json.h`; in Python the values `json.loads` gives).  An object is the list of its entries
by ascending key: in C++ it is a `std::map`, and `json.dumps` is called with `sort_keys=True`.  `ν` is the type of the numbers
that are no integers. -/
inductive Json (ν : Type)
  | null
  | bool (b : Bool)
  | int (n : ℤ)
  | num (x : ν)
  | str (s : String)
  | arr (l : List (Json ν))
  | obj (d : List (String × Json ν))

/-- The entries of a JSON object. -/
abbrev Fields (ν : Type) := Dict String (Json ν)

/-! ### Writing the document -/

namespace Json

/-- A `json` made by `push_back`: `null` if there was none. -/
def ofList {ν : Type} (l : List (Json ν)) : Json ν := if l.isEmpty then .null else .arr l

/-- A `json` made by `o[key] = value`: `null` if there was none. -/
def ofFields {ν : Type} (o : Fields ν) : Json ν := if o.isEmpty then .null else .obj o

end Json

/-- `SerializeNumberArrayProperty<double>` (`threedee/tiny_gltf/tiny_gltf.h:3907-3921`) -/
def writeNumbers (key : String) (l : List Number) (o : Fields Number) : Fields Number :=
  if l.isEmpty then o else mapSet o key (.arr (l.map .num))

/-- The name of an accessor type (`threedee/tiny_gltf/tiny_gltf.h:4071-4094`); empty for the others. -/
def typeName (type : ℕ) : String :=
  if type = 65 then "SCALAR" else if type = 2 then "VEC2" else if type = 3 then "VEC3" else if type = 4 then "VEC4"
  else if type = 34 then "MAT2" else if type = 35 then "MAT3" else if type = 36 then "MAT4" else ""

/-- `SerializeGltfAccessor` (`threedee/tiny_gltf/tiny_gltf.h:4060-4101`) -/
def writeAccessor (a : Accessor) : Json Number :=
  let o : Fields Number := mapSet [] "bufferView" (.int a.bufferView)
  let o := if a.byteOffset ≠ 0 then mapSet o "byteOffset" (.int a.byteOffset) else o
  let o := mapSet o "componentType" (.int a.componentType)
  let o := mapSet o "count" (.int a.count)
  let o := writeNumbers "min" a.minValues o
  let o := writeNumbers "max" a.maxValues o
  .obj (mapSet o "type" (.str (typeName a.type)))

/-- `SerializeGltfBuffer` for buffers in a file of their own (`threedee/tiny_gltf/tiny_gltf.h:4179-4194`), the entry. -/
def writeBuffer (uri : String) (b : List UInt8) : Json Number :=
  .obj (mapSet (mapSet [] "byteLength" (.int b.length)) "uri" (.str uri))

/-- `SerializeGltfBufferView` (`threedee/tiny_gltf/tiny_gltf.h:4196-4220`) -/
def writeView (v : BufferView) : Json Number :=
  let o : Fields Number := mapSet [] "buffer" (.int v.buffer)
  let o := mapSet o "byteLength" (.int v.byteLength)
  let o := if 4 ≤ v.byteStride then mapSet o "byteStride" (.int v.byteStride) else o
  let o := if 0 < v.byteOffset then mapSet o "byteOffset" (.int v.byteOffset) else o
  .obj (if v.target = 34962 ∨ v.target = 34963 then mapSet o "target" (.int v.target) else o)

/-- `SerializeGltfImage` (`threedee/tiny_gltf/tiny_gltf.h:4222-4232`) -/
def writeImage (img : Image) : Json Number :=
  let o : Fields Number := mapSet [] "uri" (.str img.uri)
  .obj (if img.name ≠ "" then mapSet o "name" (.str img.name) else o)

/-- One parameter in `SerializeParameterMap` (`threedee/tiny_gltf/tiny_gltf.h:4016-4044`); `junk` is the content of a
`bool_value` that was never assigned.  `number_value` has been assigned if `has_number_value` is set. -/
def writeParameter (junk : Bool) (p : GltfParameter) : Json Number :=
  if !p.array.isEmpty then .arr (p.array.map fun q => .num (.real q))
  else if !p.num.isEmpty then
    .obj (p.num.map fun e => (e.1, if e.1 = "index" then .int (Model.toInt e.2) else .num (.real e.2)))
  else if p.str ≠ "" then .str p.str
  else if p.hasNumber then .num (.real (p.value.getD 0))
  else .bool (p.bool.getD junk)

/-- `SerializeParameterMap` (`threedee/tiny_gltf/tiny_gltf.h:4016-4044`) -/
def writeParameters (junk : Bool) (ps : Dict String GltfParameter) (o : Fields Number) : Fields Number :=
  ps.foldl (fun o e => mapSet o e.1 (writeParameter junk e.2)) o

/-- `SerializeGltfMaterial` (`threedee/tiny_gltf/tiny_gltf.h:4234-4254`): `null` for a material without anything. -/
def writeMaterial (junk : Bool) (m : GltfMaterial) : Json Number :=
  let o : Fields Number :=
    if m.values.isEmpty then [] else mapSet [] "pbrMetallicRoughness" (.ofFields (writeParameters junk m.values []))
  let o := writeParameters junk m.additionalValues o
  .ofFields (if m.name ≠ "" then mapSet o "name" (.str m.name) else o)

/-- One primitive in `SerializeGltfMesh` (`threedee/tiny_gltf/tiny_gltf.h:4259-4303`) -/
def writePrimitive (p : Primitive) : Json Number :=
  let o : Fields Number := mapSet [] "attributes" (.ofFields (p.attributes.map fun e => (e.1, .int e.2)))
  let o := if -1 < p.indices then mapSet o "indices" (.int p.indices) else o
  let o := if -1 < p.material then mapSet o "material" (.int p.material) else o
  .obj (mapSet o "mode" (.int p.mode))

/-- `SerializeGltfMesh` (`threedee/tiny_gltf/tiny_gltf.h:4256-4319`) -/
def writeMesh (m : List Primitive) : Json Number := .obj (mapSet [] "primitives" (.ofList (m.map writePrimitive)))

/-- `SerializeGltfNode` (`threedee/tiny_gltf/tiny_gltf.h:4327-4359`) -/
def writeNode (mesh : ℤ) : Json Number :=
  let o : Fields Number := if mesh ≠ -1 then mapSet [] "mesh" (.int mesh) else []
  .obj (mapSet o "name" (.str ""))

/-- `SerializeGltfSampler` (`threedee/tiny_gltf/tiny_gltf.h:4361-4370`) -/
def writeSampler (s : Sampler) : Json Number :=
  .obj (mapSet (mapSet (mapSet (mapSet [] "magFilter" (.int s.magFilter)) "minFilter" (.int s.minFilter))
    "wrapS" (.int s.wrapS)) "wrapT" (.int s.wrapT))

/-- `SerializeGltfScene` (`threedee/tiny_gltf/tiny_gltf.h:4422-4432`): `null` for a scene without nodes. -/
def writeScene (nodes : List ℕ) : Json Number :=
  .ofFields (if nodes.isEmpty then [] else mapSet [] "nodes" (.arr (nodes.map fun n : ℕ => .int n)))

/-- `SerializeGltfTexture` (`threedee/tiny_gltf/tiny_gltf.h:4445-4455`) -/
def writeTexture (t : Texture) : Json Number :=
  let o : Fields Number := if -1 < t.sampler then mapSet [] "sampler" (.int t.sampler) else []
  .obj (mapSet o "source" (.int t.source))

/-- One of the sections written only if there is something to write
(`threedee/tiny_gltf/tiny_gltf.h:4549-4633`). -/
def writeSection {α : Type} (key : String) (write : α → Json Number) (l : List α) (o : Fields Number) : Fields Number :=
  if l.isEmpty then o else mapSet o key (.ofList (l.map write))

/-- The document made by `WriteGltfSceneToFile` (`threedee/tiny_gltf/tiny_gltf.h:4464-4689`); `bin` is the name of the file with
the buffers.  The images already have their new URIs. -/
def writeDocument (junk : Bool) (bin : String) (M : Model) : Fields Number :=
  let o : Fields Number := mapSet [] "accessors" (.ofList (M.accessors.map writeAccessor))
  let o := mapSet o "asset" (.obj [("generator", .str "fbsource/fbcode/sumo/threedee/gltf.pyx"), ("version", .str "2.0")])
  let o := mapSet o "buffers" (.ofList (M.buffers.map (writeBuffer bin)))
  let o := mapSet o "bufferViews" (.ofList (M.bufferViews.map writeView))
  let o := writeSection "images" writeImage M.images o
  let o := writeSection "materials" (writeMaterial junk) M.materials o
  let o := writeSection "meshes" writeMesh M.meshes o
  let o := writeSection "nodes" writeNode M.nodes o
  let o := if -1 < M.defaultScene then mapSet o "scene" (.int M.defaultScene) else o
  let o := writeSection "scenes" writeScene M.scenes o
  let o := writeSection "textures" writeTexture M.textures o
  writeSection "samplers" writeSampler M.samplers o

/-! ### Writing the files -/

/-- `GetBaseFilename` (`threedee/tiny_gltf/tiny_gltf.h:1176-1178`): what follows the last slash or backslash. -/
def baseFilename (s : String) : String :=
  String.ofList (s.toList.reverse.takeWhile fun c => c ≠ '/' ∧ c ≠ '\\').reverse

/-- `GetBaseDir` (`threedee/tiny_gltf/tiny_gltf.h:1169-1173`): what precedes it; empty if there is none. -/
def baseDir (s : String) : String :=
  String.ofList (s.toList.reverse.dropWhile fun c => c ≠ '/' ∧ c ≠ '\\').tail.reverse

/-- `GetFilePathExtension` (`threedee/tiny_gltf/tiny_gltf.h:1163-1167`): what follows the last dot; empty if there is none. -/
def fileExtension (s : String) : String :=
  if '.' ∈ s.toList then String.ofList (s.toList.reverse.takeWhile (· ≠ '.')).reverse else ""

/-- `MimeToExt` (`threedee/tiny_gltf/tiny_gltf.h:1690-1702`) -/
def mimeToExt (mime : String) : String :=
  if mime = "image/jpeg" then "jpg" else if mime = "image/png" then "png" else if mime = "image/bmp" then "bmp"
  else if mime = "image/gif" then "gif" else ""

/-- The file name chosen by `UpdateImageObject` (`threedee/tiny_gltf/tiny_gltf.h:1711-1727`) -/
def imageFilename (i : ℕ) (img : Image) : String :=
  if img.uri ≠ "" then baseFilename img.uri
  else if img.name ≠ "" then img.name ++ "." ++ mimeToExt img.mimeType
  else toString i ++ "." ++ mimeToExt img.mimeType

/-- `UpdateImageObject` (`threedee/tiny_gltf/tiny_gltf.h:1704-1734`) with `WriteImageData` (1474-1545).  The picture is encoded
but never written: the condition before `WriteWholeFile` is inverted.  Encoding a picture without pixels reads through a null
pointer. -/
def updateImage (i : ℕ) (img : Image) : Except PyErr Image :=
  let name := imageFilename i img
  if fileExtension name = "png" ∨ fileExtension name = "jpg" ∨ fileExtension name = "bmp" then
    if img.image.isEmpty then .error .undefined else .ok { img with uri := name }
  else .ok img

/-- `UpdateImageObject` for the images from number `i` on (`threedee/tiny_gltf/tiny_gltf.h:4551-4560`). -/
def updateImages : ℕ → List Image → Except PyErr (List Image)
  | _, [] => .ok []
  | i, img :: l => do
    let a ← updateImage i img
    let r ← updateImages (i + 1) l
    pure (a :: r)

/-- What writing needs from outside: the text of a document by `json::dump` and by `json.dumps`; `json.loads`; the bytes
`cv::imwrite` writes for a name and a BGR picture (`none`: no writer for the extension, a `cv::Exception`);
`mimetypes.guess_type(uri)[0]`; the content of a `bool_value` that was never assigned. -/
structure Writer where
  dump : Json Number → List UInt8
  loads : List UInt8 → Option (Json ℚ)
  dumps : Json ℚ → List UInt8
  imwrite : String → Mat3b → Option (List UInt8)
  mime : String → Option String
  junk : Bool

/-- A name, and its contents. -/
abbrev Written := String × List UInt8

/-- A file can be created under this name, relative to a folder with the sub-folders `dirs`. -/
def canWrite (dirs : List String) (name : String) : Bool :=
  !name.toList.contains '/' ||
    dirs.contains (String.ofList (name.toList.reverse.dropWhile (· ≠ '/')).tail.reverse)

/-- What opening a file for writing and writing to it does in a folder with the sub-folders `dirs`: nothing, without an error,
if it cannot be opened (`std::ofstream`, `cv::imwrite`). -/
def writeFile (dirs : List String) (name : String) (b : List UInt8) : List Written :=
  if canWrite dirs name then [(name, b)] else []

/-- The name of the file with the buffers in the document, and where it is put, for a document `root ++ ".gltf"`
(`threedee/tiny_gltf/tiny_gltf.h:4501-4516`): the extension `.gltf` is replaced, the directory kept. -/
def binName (root : String) : String := baseFilename root ++ ".bin"

/-- See `binName`. -/
def binPath (root : String) : String := if baseDir root = "" then binName root else baseDir root ++ "/" ++ binName root

/-- `WriteGltfSceneToFile` (`threedee/tiny_gltf/tiny_gltf.h:4464-4693`): the model with the new image URIs, and the files
written: every buffer goes to the same file; then the document, with a newline (`WriteGltfFile`, 4457-4462). -/
def writeGltfScene (W : Writer) (dirs : List String) (M : Model) (root : String) : Except PyErr (Model × List Written) := do
  let images ← updateImages 0 M.images
  let M' := { M with images := images }
  pure (M', M.buffers.flatMap (writeFile dirs (binPath root)) ++
    writeFile dirs (root ++ ".gltf") (W.dump (.obj (writeDocument W.junk (binName root) M')) ++ [10]))

/-- `cv::cvtColor(…, cv::COLOR_RGB2BGR)` on the data: the first and third byte of every pixel change places. -/
def swapRB : List UInt8 → List UInt8
  | r :: g :: b :: l => b :: g :: r :: swapRB l
  | l => l

/-- One step of the loop of `saveImages` (`threedee/GltfModel.cpp:504-522`). -/
def saveImage (W : Writer) (dirs : List String) (img : Image) : Except PyErr (List Written) :=
  if img.image.isEmpty then .error .runtimeError
  else match Model.cvImageFromImage img with
    | .error e => .error e
    | .ok m =>
      if img.uri = "" then .error .valueError
      else match W.imwrite img.uri { m with data := swapRB m.data } with
        | none => .error .runtimeError
        | some b => .ok (writeFile dirs img.uri b)

/-- `saveImages` (`threedee/GltfModel.cpp:503-524`): the files written, also if an exception is thrown. -/
def saveImages (W : Writer) (dirs : List String) : List Image → List Written × Except PyErr Unit
  | [] => ([], .ok ())
  | img :: l =>
    match saveImage W dirs img with
    | .error e => ([], .error e)
    | .ok w =>
      let r := saveImages W dirs l
      (w ++ r.1, r.2)

/-- `save_as_gltf` in an existing folder with the sub-folders `dirs` and the files `old`
(`threedee/gltf_model.pyx:221-242`): the model afterwards, the files written and the outcome.  `WriteGltfSceneToFile` never returns
false. -/
def saveGltf (W : Writer) (dirs : List String) (old : String → Bool) (M : Model) (root : String) :
    Model × List Written × Except PyErr Unit :=
  match writeGltfScene W dirs M root with
  | .error e => (M, [], .error e)
  | .ok (M', written) =>
    if !old (root ++ ".gltf") && !(written.map (·.1)).contains (root ++ ".gltf") then (M', written, .error .ioError)
    else
      let r := saveImages W dirs M'.images
      (M', written ++ r.1, r.2)

/-- The contents of a file after some have been written. -/
def lastWritten : List Written → Files → Files
  | [], f => f
  | w :: l, f => lastWritten l fun n => if n = w.1 then some w.2 else f n

/-- A folder: its files and the paths of its sub-folders. -/
structure Folder where
  file : Files
  dirs : List String

/-- `GltfModel.save_as_gltf` (`threedee/gltf_model.pyx:221-242`); `none` is no folder. -/
def saveAsGltf (W : Writer) (folder : Option Folder) (M : Model) (root : String) :
    Model × Option Folder × Except PyErr Unit :=
  match folder with
  | none => (M, none, .error .valueError)
  | some f =>
    let r := saveGltf W f.dirs (fun n => (f.file n).isSome) M root
    (r.1, some ⟨lastWritten r.2.1 f.file, f.dirs⟩, r.2.2)

/-! ### `gltf2glb` -/

namespace Json

/-- `j[key]` -/
def item (j : Json ℚ) (key : String) : Except PyErr (Json ℚ) :=
  match j with
  | .obj d => Dict.get d key
  | _ => .error .typeError

/-- `for x in j`; strings and dicts, whose items are no dicts, are taken to fail at once. -/
def items (j : Json ℚ) : Except PyErr (List (Json ℚ)) :=
  match j with
  | .arr l => .ok l
  | _ => .error .typeError

/-- `j[key] = v` -/
def setItem (j : Json ℚ) (key : String) (v : Json ℚ) : Except PyErr (Json ℚ) :=
  match j with
  | .obj d => .ok (.obj (mapSet d key v))
  | _ => .error .typeError

/-- A string, as `os.path.join` needs it. -/
def string (j : Json ℚ) : Except PyErr String :=
  match j with
  | .str s => .ok s
  | _ => .error .typeError

/-- A number of JSON. -/
def number? (j : Json ℚ) : Option ℚ :=
  match j with
  | .int n => some n
  | .num q => some q
  | _ => none

/-- `j + n` -/
def plus (j : Json ℚ) (n : ℕ) : Except PyErr (Json ℚ) :=
  match j with
  | .int m => .ok (.int (m + n))
  | .num q => .ok (.num (q + n))
  | _ => .error .typeError

/-- `if not j` for the values a URI can have. -/
def falsy (j : Json ℚ) : Bool :=
  match j with
  | .null => true
  | .bool b => !b
  | .int n => n == 0
  | .num q => q == 0
  | .str s => s == ""
  | .arr l => l.isEmpty
  | .obj d => d.isEmpty

end Json

/-- `del d[key]` for an entry that is there. -/
def delItem (j : Json ℚ) (key : String) : Json ℚ :=
  match j with
  | .obj d => .obj (Dict.pop d key)
  | j => j

/-- The loop over the buffers (`threedee/glb_converter.pyx:168-182`), from index `i` on: the new entries, the encoder, the map
of offsets and the next offset. -/
def convertBufferEntries (files : Files) : List (Json ℚ) → ℕ → BodyEncoder → Dict ℚ ℕ → ℕ →
    Except PyErr (List (Json ℚ) × BodyEncoder × Dict ℚ ℕ)
  | [], _, enc, map, _ => .ok ([], enc, map)
  | b :: bs, i, enc, map, offset => do
    let uri ← b.item "uri"
    let uri ← uri.string
    let (enc, _, length) ← enc.addToBody files uri
    let b ← (delItem b "uri").setItem "byteLength" (.int length)
    let (bs, enc, map) ← convertBufferEntries files bs (i + 1) enc (map.set (i : ℚ) offset) (offset + length)
    pure (b :: bs, enc, map)

/-- The offset of a buffer view (`threedee/glb_converter.pyx:187-191`): a `KeyError` gives 0.  A key that is no number is not
found. -/
def viewOffset (map : Dict ℚ ℕ) (v : Json ℚ) : Except PyErr (Json ℚ) :=
  match v.item "byteOffset", v.item "buffer" with
  | .error .keyError, _ => .ok (.int 0)
  | .error e, _ => .error e
  | .ok _, .error .keyError => .ok (.int 0)
  | .ok _, .error e => .error e
  | .ok o, .ok b =>
    match b.number?.bind map.get? with
    | none => .ok (.int 0)
    | some base => o.plus base

/-- The loop over the buffer views (`threedee/glb_converter.pyx:186-193`). -/
def convertViewEntry (map : Dict ℚ ℕ) (v : Json ℚ) : Except PyErr (Json ℚ) := do
  let o ← viewOffset map v
  let v ← v.setItem "byteOffset" o
  v.setItem "buffer" (.int 0)

/-- The loop over the images (`threedee/glb_converter.pyx:197-220`): the new entries, views and encoder.  Variables that are
not read afterwards are left out. -/
def convertImageEntries (files : Files) (mime : String → Option String) : List (Json ℚ) → List (Json ℚ) → BodyEncoder →
    Except PyErr (List (Json ℚ) × List (Json ℚ) × BodyEncoder)
  | [], vs, enc => .ok ([], vs, enc)
  | im :: ims, vs, enc => do
    let uri ← im.item "uri"
    if uri.falsy then .error .valueError
    else do
      let uri ← uri.string
      let (enc, offset, length) ← enc.addToBody files uri
      let view : Json ℚ := .obj [("buffer", .int 0), ("byteLength", .int length), ("byteOffset", .int offset)]
      let im ← im.setItem "bufferView" (.int vs.length)
      let im ← im.setItem "mimeType" (match mime uri with | some s => .str s | none => .null)
      let (ims, vs, enc) ← convertImageEntries files mime ims (vs ++ [view]) enc
      pure (delItem im "uri" :: ims, vs, enc)

/-- `gltf2glb` (`threedee/glb_converter.pyx:160-228`) on whole documents: the new document and the body. -/
def convertDocument (files : Files) (mime : String → Option String) (doc : Json ℚ) :
    Except PyErr (Json ℚ × BodyEncoder) := do
  let buffers ← doc.item "buffers"
  let buffers ← buffers.items
  let (buffers, enc, map) ← convertBufferEntries files buffers 0 BodyEncoder.empty [] 0
  let views ← doc.item "bufferViews"
  let views ← views.items
  let views ← views.mapM (convertViewEntry map)
  let (doc, views, enc) ←
    match doc.item "images" with
    | .error _ => (pure (doc, views, enc) : Except PyErr (Json ℚ × List (Json ℚ) × BodyEncoder))
    | .ok images => do
      let images ← images.items
      let (images, views, enc) ← convertImageEntries files mime images views enc
      let doc ← doc.setItem "images" (.arr images)
      pure (doc, views, enc)
  match buffers with
  | [] => .error .indexError
  | b :: bs => do
    let b ← b.setItem "byteLength" (.int enc.length)
    let doc ← doc.setItem "buffers" (.arr (b :: bs))
    let doc ← doc.setItem "bufferViews" (.arr views)
    pure (doc, enc)

/-- `gltf2glb` (`threedee/glb_converter.pyx:130-230`) up to the export: the header and the body. -/
def convertGltf (W : Writer) (root : String) (files : Files) : Except PyErr (List UInt8 × BodyEncoder) :=
  match files (root ++ ".gltf") with
  | none => .error .ioError
  | some text =>
    match W.loads text with
    | none => .error .valueError
    | some doc => do
      let (doc, enc) ← convertDocument files W.mime doc
      pure (W.dumps doc, enc)

/-- The exporter of a model (see `GlbSave`): the temporary folder is new, it has no sub-folders and no files. -/
def exporter (W : Writer) (M : Model) : GlbSave.Exporter where
  write root := (saveGltf W [] (fun _ => false) M root).2
  convert root files := convertGltf W root files

/-- `GltfModel.save_as_glb` (`threedee/gltf_model.pyx:244-271`): the model afterwards, the files and the outcome. -/
def saveAsGlb (W : Writer) (M : Model) (os : GlbSave.Os) (temp : GlbSave.Dir) (p : GlbSave.GlbPath) :
    Model × GlbSave.Os × Except PyErr Unit :=
  (if (GlbSave.splitext p.name).2 = ".glb" then (saveGltf W [] (fun _ => false) M (GlbSave.splitext p.name).1).1 else M,
    GlbSave.saveAsGlb (exporter W M) os temp p)

/-! ### Loading -/

/-- What loading needs from outside: `json::parse` (`none`: it throws); `stbi_load_from_memory`; the files a relative path leads
to (in the directory of the document or in the working directory); `DecodeDataURI` (type and content, not empty); the content of
uninitialised width, height and component fields. -/
structure Loader where
  parse : List UInt8 → Option (Json ℚ)
  decode : List UInt8 → Option (ℕ × ℕ × ℕ × List UInt8)
  file : Files
  dataUri : String → Option (String × List UInt8)
  uninit : ℤ × ℤ × ℤ

/-- `IsDataURI` (`threedee/tiny_gltf/tiny_gltf.h:1736-1773`) -/
def isDataUri (uri : String) : Bool :=
  ["data:application/octet-stream;base64,", "data:image/jpeg;base64,", "data:image/png;base64,", "data:image/bmp;base64,",
    "data:image/gif;base64,", "data:text/plain;base64,", "data:application/gltf-buffer;base64,"].any
      fun header => header.toList.isPrefixOf uri.toList

/-- `ParseNumberProperty` (`threedee/tiny_gltf/tiny_gltf.h:1945-1980`) -/
def numberOf (o : Fields ℚ) (key : String) : Option ℚ := (o.get? key).bind Json.number?

/-- `ParseStringProperty` (`threedee/tiny_gltf/tiny_gltf.h:2037-2073`) -/
def stringOf (o : Fields ℚ) (key : String) : Option String :=
  match o.get? key with
  | some (.str s) => some s
  | _ => none

/-- The numbers at the start of an array, and whether there is nothing else (`threedee/tiny_gltf/tiny_gltf.h:2018-2034`). -/
def numbersIn : List (Json ℚ) → List ℚ × Bool
  | [] => ([], true)
  | j :: l =>
    match j.number? with
    | none => ([], false)
    | some q => (q :: (numbersIn l).1, (numbersIn l).2)

/-- `ParseNumberArrayProperty` (`threedee/tiny_gltf/tiny_gltf.h:1982-2035`): what the vector holds afterwards (it was empty
before), and the result. -/
def numbersOf (o : Fields ℚ) (key : String) : List ℚ × Bool :=
  match o.get? key with
  | some (.arr l) => numbersIn l
  | _ => ([], false)

/-- `ReadWholeFile` (`threedee/tiny_gltf/tiny_gltf.h:1623-1660`): files of 2 GiB and more, and empty ones, are refused. -/
def readWhole (file : Option (List UInt8)) : Option (List UInt8) :=
  match file with
  | none => none
  | some b => if 2 ^ 31 ≤ b.length % 2 ^ 32 then none else if b.length = 0 then none else some b

/-- `LoadExternalFile` (`threedee/tiny_gltf/tiny_gltf.h:1323-1388`); `size` is the required size. -/
def loadExternal (L : Loader) (name : String) (size : Option ℕ) : Option (List UInt8) :=
  if name = "" then none
  else match readWhole (L.file name) with
    | none => none
    | some b =>
      match size with
      | none => some b
      | some n => if n = b.length then some b else none

/-- `DecodeDataURI` with a required size (`threedee/tiny_gltf/tiny_gltf.h:1775-1845`). -/
def decodeSized (L : Loader) (uri : String) (size : ℕ) : Except PyErr (List UInt8) :=
  match L.dataUri uri with
  | none => .error .ioError
  | some (_, d) => if d.length = size then .ok d else .error .ioError

/-- `ParseBuffer` (`threedee/tiny_gltf/tiny_gltf.h:2380-2482`); `bin` is `bin_data_` up to the end of the file and `bin_size_`
when a GLB file is read.  `.error .ioError` stands for the result false, as in the following.  `data.at(0)` throws if the
buffer is empty; reading behind the end of the file is undefined. -/
def parseBuffer (L : Loader) (bin : Option (List UInt8 × ℕ)) (o : Fields ℚ) : Except PyErr (List UInt8) :=
  match numberOf o "byteLength" with
  | none => .error .ioError
  | some q =>
    let uri := (stringOf o "uri").getD ""
    let bytes := (Model.toInt q).toNat
    match bin with
    | some (data, size) =>
      if uri ≠ "" then
        if isDataUri uri then decodeSized L uri bytes
        else .ok ((loadExternal L uri (some bytes)).getD [])
      else if size = 0 then .error .ioError
      else if (size : ℚ) < q then .error .ioError
      else if bytes = 0 then .error .indexError
      else if bytes ≤ data.length then .ok (data.take bytes)
      else .error .undefined
    | none =>
      if isDataUri uri then decodeSized L uri bytes
      else match loadExternal L uri (some bytes) with
        | none => .error .ioError
        | some b => .ok b

/-- `ParseBufferView` (`threedee/tiny_gltf/tiny_gltf.h:2484-2544`) -/
def parseView (o : Fields ℚ) : Except PyErr BufferView :=
  match numberOf o "buffer" with
  | none => .error .ioError
  | some buffer =>
    match numberOf o "byteLength" with
    | none => .error .ioError
    | some length =>
      let stride := (Model.toInt ((numberOf o "byteStride").getD 0)).toNat
      if 252 < stride ∨ stride % 4 ≠ 0 then .error .ioError
      else
        let target := (Model.toInt ((numberOf o "target").getD 0)).toNat
        .ok ⟨Model.toInt buffer, (Model.toInt ((numberOf o "byteOffset").getD 0)).toNat, (Model.toInt length).toNat, stride,
          if target = 34962 ∨ target = 34963 then target else 0⟩

/-- The type of an accessor by its name (`threedee/tiny_gltf/tiny_gltf.h:2575-2596`). -/
def typeOfName (name : String) : Option ℕ :=
  if name = "SCALAR" then some 65 else if name = "VEC2" then some 2 else if name = "VEC3" then some 3
  else if name = "VEC4" then some 4 else if name = "MAT2" then some 34 else if name = "MAT3" then some 35
  else if name = "MAT4" then some 36 else none

/-- `ParseAccessor` (`threedee/tiny_gltf/tiny_gltf.h:2546-2631`) -/
def parseAccessor (o : Fields ℚ) : Except PyErr Accessor :=
  match numberOf o "bufferView", numberOf o "componentType", numberOf o "count", stringOf o "type" with
  | some view, some comp, some count, some name =>
    match typeOfName name with
    | none => .error .ioError
    | some type =>
      let c := (Model.toInt comp).toNat
      if 5120 ≤ c ∧ c ≤ 5130 then
        .ok ⟨Model.toInt view, (Model.toInt ((numberOf o "byteOffset").getD 0)).toNat, (Model.toInt count).toNat, c, type,
          (numbersOf o "min").1.map .real, (numbersOf o "max").1.map .real⟩
      else .error .ioError
  | _, _, _, _ => .error .ioError

/-- The attributes of a primitive (`ParseStringIntProperty`, `threedee/tiny_gltf/tiny_gltf.h:2075-2127`); the result is a
`std::map`, as the object is. -/
def attributesOf (o : Fields ℚ) : Option (Dict String ℤ) :=
  match o.get? "attributes" with
  | some (.obj d) => d.mapM fun e => e.2.number?.map fun q => (e.1, Model.toInt q)
  | _ => none

/-- `ParsePrimitive` (`threedee/tiny_gltf/tiny_gltf.h:2633-2675`); `none` is the result false. -/
def parsePrimitive (j : Json ℚ) : Option Primitive :=
  match j with
  | .obj o =>
    (attributesOf o).map fun attributes =>
      ⟨attributes, Model.toInt ((numberOf o "material").getD (-1)), Model.toInt ((numberOf o "indices").getD (-1)),
        (Model.toInt ((numberOf o "mode").getD 4)).toNat⟩
  | _ => none

/-- `ParseMesh` (`threedee/tiny_gltf/tiny_gltf.h:2677-2720`): primitives that cannot be parsed are left out. -/
def parseMesh (o : Fields ℚ) : Except PyErr (List Primitive) :=
  match o.get? "primitives" with
  | some (.arr l) => .ok (l.filterMap parsePrimitive)
  | _ => .ok []

/-- `ParseNode` (`threedee/tiny_gltf/tiny_gltf.h:2729-2772`) -/
def parseNode (o : Fields ℚ) : Except PyErr ℤ :=
  match o.get? "children" with
  | some (.arr l) => if l.all (·.number?.isSome) then .ok (Model.toInt ((numberOf o "mesh").getD (-1))) else .error .ioError
  | _ => .ok (Model.toInt ((numberOf o "mesh").getD (-1)))

/-- The loop over the scenes (`threedee/tiny_gltf/tiny_gltf.h:3363-3391`): a scene must have nodes. -/
def parseScene (o : Fields ℚ) : Except PyErr (List ℕ) :=
  if (numbersOf o "nodes").2 then .ok ((numbersOf o "nodes").1.map fun q => (Model.toInt q).toNat) else .error .ioError

/-- `ParseParameterProperty` (`threedee/tiny_gltf/tiny_gltf.h:2166-2199`); `none` is the result false.  Of an object, the
entries that are numbers are kept (`ParseJSONProperty`, 2129-2164). -/
def parseParameter (j : Json ℚ) : Option GltfParameter :=
  match j with
  | .str s => some { hasNumber := false, str := s, num := [] }
  | .arr l => if (numbersIn l).2 then some { hasNumber := false, str := "", num := [], array := (numbersIn l).1 } else none
  | .int n => some { hasNumber := true, str := "", num := [], value := some n }
  | .num q => some { hasNumber := true, str := "", num := [], value := some q }
  | .obj d => some { hasNumber := false, str := "", num := d.filterMap fun e => e.2.number?.map fun q => (e.1, q) }
  | .bool b => some { hasNumber := false, str := "", num := [], bool := some b }
  | .null => none

/-- The parameters among some entries of an object (`threedee/tiny_gltf/tiny_gltf.h:2790-2796,2802-2805`). -/
def parseParameters (d : Fields ℚ) : Dict String GltfParameter :=
  d.filterMap fun e => (parseParameter e.2).map fun p => (e.1, p)

/-- `ParseMaterial` (`threedee/tiny_gltf/tiny_gltf.h:2774-2813`), with the name (3415-3416): the name is also among the
additional values. -/
def parseMaterial (o : Fields ℚ) : Except PyErr GltfMaterial :=
  .ok ⟨(stringOf o "name").getD "",
    match o.get? "pbrMetallicRoughness" with
    | some (.obj d) => parseParameters d
    | _ => [],
    parseParameters (o.filter fun e => e.1 ≠ "pbrMetallicRoughness" ∧ e.1 ≠ "extensions" ∧ e.1 ≠ "extras")⟩

/-- `LoadImageData` (`threedee/tiny_gltf/tiny_gltf.h:1396-1456`); `w` and `h` are the required width and height, if positive. -/
def loadImageData (L : Loader) (img : Image) (w h : ℤ) (bytes : List UInt8) : Except PyErr Image :=
  match L.decode bytes with
  | none => .error .ioError
  | some (w', h', c, d) =>
    if w' < 1 ∨ h' < 1 then .error .ioError
    else if 0 < w ∧ w ≠ w' then .error .ioError
    else if 0 < h ∧ h ≠ h' then .error .ioError
    else .ok { img with width := w', height := h', component := c, image := d }

/-- `ParseImage` (`threedee/tiny_gltf/tiny_gltf.h:2238-2357`) and what follows it in the loop over the images (3452-3489).  A
picture that cannot be found is kept without pixels.  The number of the buffer and the range are not checked. -/
def parseImage (L : Loader) (M : Model) (o : Fields ℚ) : Except PyErr Image :=
  let name := (stringOf o "name").getD ""
  if o.has "bufferView" = o.has "uri" then .error .ioError
  else if o.has "bufferView" then
    match numberOf o "bufferView" with
    | none => .error .ioError
    | some q =>
      let mime := (stringOf o "mimeType").getD ""
      let w := Model.toInt ((numberOf o "width").getD 0)
      let h := Model.toInt ((numberOf o "height").getD 0)
      let i := Model.toInt q
      if i = -1 then .ok ⟨name, "", w, h, L.uninit.2.2, [], mime⟩
      else if i < 0 then .error .ioError
      else match M.bufferViews[i.toNat]? with
        | none => .error .ioError
        | some v =>
          if v.buffer < 0 then .error .undefined
          else match M.buffers[v.buffer.toNat]? with
            | none => .error .undefined
            | some b =>
              if v.byteOffset + v.byteLength ≤ b.length then
                loadImageData L ⟨name, "", w, h, L.uninit.2.2, [], mime⟩ w h ((b.drop v.byteOffset).take v.byteLength)
              else .error .undefined
  else match stringOf o "uri" with
    | none => .error .ioError
    | some uri =>
      if isDataUri uri then
        match L.dataUri uri with
        | none => .error .ioError
        | some (mime, d) => loadImageData L ⟨name, "", L.uninit.1, L.uninit.2.1, L.uninit.2.2, [], mime⟩ 0 0 d
      else match loadExternal L uri none with
        | none => .ok ⟨name, uri, L.uninit.1, L.uninit.2.1, L.uninit.2.2, [], ""⟩
        | some d => loadImageData L ⟨name, uri, L.uninit.1, L.uninit.2.1, L.uninit.2.2, [], ""⟩ 0 0 d

/-- `ParseTexture` (`threedee/tiny_gltf/tiny_gltf.h:2359-2378`) -/
def parseTexture (o : Fields ℚ) : Except PyErr Texture :=
  .ok ⟨Model.toInt ((numberOf o "sampler").getD (-1)), Model.toInt ((numberOf o "source").getD (-1))⟩

/-- `ParseSampler` (`threedee/tiny_gltf/tiny_gltf.h:2922-2943`) -/
def parseSampler (o : Fields ℚ) : Except PyErr Sampler :=
  .ok ⟨(Model.toInt ((numberOf o "minFilter").getD 9986)).toNat, (Model.toInt ((numberOf o "magFilter").getD 9729)).toNat,
    (Model.toInt ((numberOf o "wrapS").getD 10497)).toNat, (Model.toInt ((numberOf o "wrapT").getD 10497)).toNat⟩

/-- A step of loading: the model so far and the outcome. -/
abbrev Loading := Model × Except PyErr Unit

/-- The next step, if the last one succeeded. -/
def Loading.andThen (r : Loading) (k : Model → Loading) : Loading :=
  match r.2 with
  | .error e => (r.1, .error e)
  | .ok () => k r.1

/-- A loop over a section: every element must be an object; what has been parsed is added to the model. -/
def parseEach {α : Type} (parse : Model → Fields ℚ → Except PyErr α) (add : Model → α → Model) :
    Model → List (Json ℚ) → Loading
  | M, [] => (M, .ok ())
  | M, .obj o :: l =>
    match parse M o with
    | .error e => (M, .error e)
    | .ok a => parseEach parse add (add M a) l
  | M, _ :: _ => (M, .error .ioError)

/-- A section of the document; nothing is done if it is not there or no array. -/
def parseSection {α : Type} (v : Fields ℚ) (key : String) (parse : Model → Fields ℚ → Except PyErr α)
    (add : Model → α → Model) (M : Model) : Loading :=
  match v.get? key with
  | some (.arr l) => parseEach parse add M l
  | _ => (M, .ok ())

/-- The entry is an array. -/
def isArray (v : Fields ℚ) (key : String) : Bool :=
  match v.get? key with
  | some (.arr _) => true
  | _ => false

/-- The default scene (`threedee/tiny_gltf/tiny_gltf.h:3394-3402`). -/
def parseDefaultScene (v : Fields ℚ) (M : Model) : Loading :=
  match numberOf v "scene" with
  | some q => ({ M with defaultScene := Model.toInt q }, .ok ())
  | none => (M, .ok ())

/-- `LoadFromString` (`threedee/tiny_gltf/tiny_gltf.h:3111-3713`) into a new model, with all sections required. -/
def loadDocument (L : Loader) (bin : Option (List UInt8 × ℕ)) (text : List UInt8) : Loading :=
  if text.length < 4 then ({}, .error .ioError)
  else match L.parse text with
    | some (.obj v) =>
      if isArray v "scenes" && isArray v "nodes" && isArray v "accessors" && isArray v "buffers" && isArray v "bufferViews" then
        ((((((((((parseSection v "buffers" (fun _ => parseBuffer L bin) (fun M b => { M with buffers := M.buffers ++ [b] }) {}).andThen
          (parseSection v "bufferViews" (fun _ => parseView) fun M x => { M with bufferViews := M.bufferViews ++ [x] })).andThen
          (parseSection v "accessors" (fun _ => parseAccessor) fun M x => { M with accessors := M.accessors ++ [x] })).andThen
          (parseSection v "meshes" (fun _ => parseMesh) fun M x => { M with meshes := M.meshes ++ [x] })).andThen
          (parseSection v "nodes" (fun _ => parseNode) fun M x => { M with nodes := M.nodes ++ [x] })).andThen
          (parseSection v "scenes" (fun _ => parseScene) fun M x => { M with scenes := M.scenes ++ [x] })).andThen
          (parseDefaultScene v)).andThen
          (parseSection v "materials" (fun _ => parseMaterial) fun M x => { M with materials := M.materials ++ [x] })).andThen
          (parseSection v "images" (parseImage L) fun M x => { M with images := M.images ++ [x] })).andThen
          (parseSection v "textures" (fun _ => parseTexture) fun M x => { M with textures := M.textures ++ [x] })).andThen
          (parseSection v "samplers" (fun _ => parseSampler) fun M x => { M with samplers := M.samplers ++ [x] })
      else ({}, .error .ioError)
    | _ => ({}, .error .ioError)

/-- A C++ exception thrown by a function of `tinygltf`, which is declared without `except +` (`threedee/gltf.pxd:43-52`); the
result false becomes an `IOError` (`threedee/gltf.pyx:52-55,76-79`). -/
def loadError : PyErr → PyErr
  | .ioError => .ioError
  | .undefined => .undefined
  | _ => .terminated

/-- `GltfModel.load_from_gltf` (`threedee/gltf_model.pyx:58-71`) with `load_ascii_from_file` (`threedee/gltf.pyx:34-56`) and
`LoadASCIIFromFile` (`threedee/tiny_gltf/tiny_gltf.h:3729-3776`). -/
def loadGltf (L : Loader) (file : Option (List UInt8)) : Except PyErr Model :=
  match readWhole file with
  | none => .error .ioError
  | some text =>
    match loadDocument L none text with
    | (M, .ok ()) => .ok M
    | (_, .error e) => .error (loadError e)

/-- The little-endian number at an offset. -/
def uintAt (b : List UInt8) (offset : ℕ) : ℕ := uintCodec.dec (b.drop offset)

/-- `LoadBinaryFromMemory` (`threedee/tiny_gltf/tiny_gltf.h:3778-3849`): the size and the sums are computed modulo 2³², so that
`jsonString` can be read from behind the end of the file; the length in the header is not compared with the size of the file. -/
def loadBinary (L : Loader) (b : List UInt8) : Loading :=
  let size := b.length % 2 ^ 32
  if size < 20 then ({}, .error .ioError)
  else if b.take 4 ≠ [103, 108, 84, 70] then ({}, .error .ioError)
  else
    let length := uintAt b 8
    let modelLength := uintAt b 12
    if size < (20 + modelLength) % 2 ^ 32 ∨ modelLength < 1 ∨ uintAt b 16 ≠ 0x4E4F534A then ({}, .error .ioError)
    else if b.length < 20 + modelLength then ({}, .error .undefined)
    else loadDocument L (some (b.drop (28 + modelLength), (length + (2 ^ 32 - (20 + modelLength) % 2 ^ 32)) % 2 ^ 32))
      ((b.drop 20).take modelLength)

/-- `GltfModel.load_from_glb` (`threedee/gltf_model.pyx:73-86`) with `load_binary_from_file` (`threedee/gltf.pyx:58-80`) and
`LoadBinaryFromFile` (`threedee/tiny_gltf/tiny_gltf.h:3851-3890`): the images are named before the result is looked at. -/
def loadGlb (L : Loader) (file : Option (List UInt8)) : Except PyErr Model :=
  match readWhole file with
  | none => .error .ioError
  | some b =>
    match loadBinary L b with
    | (M, r) =>
      match r with
      | .ok () =>
        match Model.setURIsFrom ".png" 0 M.images with
        | (_, .error e) => .error e
        | (images, .ok ()) => .ok { M with images := images }
      | .error .ioError =>
        match Model.setURIsFrom ".png" 0 M.images with
        | (_, .error e) => .error e
        | (_, .ok ()) => .error .ioError
      | .error e => .error (loadError e)

end Gltf
end Sumo
