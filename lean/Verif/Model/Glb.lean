import Verif.Model.Py

/-!
# Binary glTF files

Model of `sumo-api/sumo/threedee/glb_converter.pyx`.  Bytes are `UInt8`; the files next to the document are a function from
names to contents.  The JSON document is reduced to the entries the converter reads or writes; all others are passed on
unchanged and are left out.  `json.loads` and `json.dumps` are not modelled: the header of the exported file is given as bytes.
-/

namespace Sumo

/-- `struct.pack('<I', n)`: four bytes, least significant first; `struct.error` from 2³² on. -/
def packU32 (n : ℕ) : Except PyErr (List UInt8) :=
  if n < 2 ^ 32 then .ok [UInt8.ofNat n, UInt8.ofNat (n / 256), UInt8.ofNat (n / 65536), UInt8.ofNat (n / 16777216)]
  else .error .structError

/-- `(n + 3) & ~3` -/
def align4 (n : ℕ) : ℕ := (n + 3) - (n + 3) % 4

/-- A buffer extended with spaces to a multiple of four (`threedee/glb_converter.pyx:54-56,97-100`). -/
def pad4 (buf : List UInt8) : List UInt8 := buf ++ List.replicate (align4 buf.length - buf.length) 32

/-- `BodyEncoder` (`threedee/glb_converter.pyx:22-36`): `body_length`, and `body_parts` as pairs of an offset and a buffer. -/
structure BodyEncoder where
  length : ℕ
  parts : List (ℕ × List UInt8)

/-- The files in the directory of the document. -/
abbrev Files := String → Option (List UInt8)

namespace BodyEncoder

/-- `BodyEncoder(containing_dir)` -/
def empty : BodyEncoder := ⟨0, []⟩

/-- `add_to_body` (`threedee/glb_converter.pyx:38-64`): the encoder afterwards, offset and length. -/
def addToBody (files : Files) (enc : BodyEncoder) (uri : String) : Except PyErr (BodyEncoder × ℕ × ℕ) :=
  match files uri with
  | none => .error .ioError
  | some buf =>
    let buf := pad4 buf
    .ok (⟨enc.length + buf.length, enc.parts ++ [(enc.length, buf)]⟩, enc.length, buf.length)

/-- What the loop at `threedee/glb_converter.pyx:123-125` writes. -/
def bytes (enc : BodyEncoder) : List UInt8 := (enc.parts.map (·.2)).flatten

end BodyEncoder

/-- `export_string` (`threedee/glb_converter.pyx:93-127`). -/
def exportString (header : List UInt8) (body : BodyEncoder) : Except PyErr (List UInt8) := do
  let header := pad4 header
  let fileLen := 12 + 8 + header.length + 8 + body.length
  let magic ← packU32 0x46546C67
  let version ← packU32 2
  let len ← packU32 fileLen
  let jsonLen ← packU32 header.length
  let jsonType ← packU32 0x4E4F534A
  let binLen ← packU32 body.length
  let binType ← packU32 0x004E4942
  .ok (magic ++ version ++ len ++ jsonLen ++ jsonType ++ header ++ binLen ++ binType ++ body.bytes)

/-- `export` (`threedee/glb_converter.pyx:82-91`): contents of the file afterwards. It is opened for writing, hence emptied,
before the bytes are computed. -/
def exportFile (header : List UInt8) (body : BodyEncoder) : List UInt8 × Except PyErr Unit :=
  match exportString header body with
  | .error e => ([], .error e)
  | .ok b => (b, .ok ())

/-! ### The document -/

/-- An entry of `"buffers"`. -/
structure GltfBuffer where
  byteLength : Option ℕ
  uri : Option String

/-- An entry of `"bufferViews"`. -/
structure GltfView where
  buffer : Option ℕ
  byteOffset : Option ℕ
  byteLength : Option ℕ

/-- An entry of `"images"`; `mimeType` may be `null`. -/
structure GltfImage where
  uri : Option String
  bufferView : Option ℕ
  mimeType : Option (Option String)

/-- The document; `none` is an absent entry. -/
structure GltfDoc where
  buffers : Option (List GltfBuffer)
  bufferViews : Option (List GltfView)
  images : Option (List GltfImage)

/-- `value["key"]` -/
def entry {α : Type} (x : Option α) : Except PyErr α :=
  match x with
  | none => .error .keyError
  | some a => .ok a

/-- The variables of the first loop of `gltf2glb`. -/
structure GlbState where
  enc : BodyEncoder
  map : Dict ℕ ℕ
  offset : ℕ

/-- The loop over the buffers (`threedee/glb_converter.pyx:168-182`), from index `i` on. -/
def convertBuffers (files : Files) : List GltfBuffer → ℕ → GlbState → Except PyErr (List GltfBuffer × GlbState)
  | [], _, st => .ok ([], st)
  | b :: bs, i, st => do
    let uri ← entry b.uri
    let (enc, _, length) ← st.enc.addToBody files uri
    let (bs', st') ← convertBuffers files bs (i + 1) ⟨enc, st.map.set i st.offset, st.offset + length⟩
    .ok (⟨some length, none⟩ :: bs', st')

/-- The loop over the buffer views (`threedee/glb_converter.pyx:186-193`): a `KeyError` from any of the three lookups gives
offset 0. -/
def convertView (map : Dict ℕ ℕ) (v : GltfView) : GltfView :=
  match v.byteOffset, v.buffer.bind map.get? with
  | some o, some base => ⟨some 0, some (o + base), v.byteLength⟩
  | _, _ => ⟨some 0, some 0, v.byteLength⟩

/-- The loop over the images (`threedee/glb_converter.pyx:196-220`); `mime` is `mimetypes.guess_type(uri)[0]`. The variables
`buffer_map`, `buffer_offset`, `buffer_index` and `buffer_length`, which are not read after this point, are left out. -/
def convertImages (files : Files) (mime : String → Option String) : List GltfImage → List GltfView → BodyEncoder →
    Except PyErr (List GltfImage × List GltfView × BodyEncoder)
  | [], vs, enc => .ok ([], vs, enc)
  | im :: ims, vs, enc => do
    let uri ← entry im.uri
    if uri = "" then .error .valueError
    else do
      let (enc, offset, length) ← enc.addToBody files uri
      let (ims', vs', enc') ← convertImages files mime ims (vs ++ [⟨some 0, some offset, some length⟩]) enc
      .ok (⟨none, some vs.length, some (mime uri)⟩ :: ims', vs', enc')

/-- `gltf2glb` (`threedee/glb_converter.pyx:130-231`), from parsed document to new document and body.  File names and the
check of the extension are left out. -/
def gltf2glb (files : Files) (mime : String → Option String) (doc : GltfDoc) : Except PyErr (GltfDoc × BodyEncoder) := do
  let buffers ← entry doc.buffers
  let (buffers', st) ← convertBuffers files buffers 0 ⟨BodyEncoder.empty, [], 0⟩
  let views ← entry doc.bufferViews
  let views := views.map (convertView st.map)
  let (images', views', enc) ←
    match doc.images with
    | none => (.ok (none, views, st.enc) : Except PyErr (Option (List GltfImage) × List GltfView × BodyEncoder))
    | some ims =>
      match convertImages files mime ims views st.enc with
      | .error e => .error e
      | .ok (ims', vs', enc') => .ok (some ims', vs', enc')
  match buffers' with
  | [] => .error .indexError
  | b :: bs => .ok (⟨some ({ b with byteLength := some enc.length } :: bs), some views', images'⟩, enc)

end Sumo
