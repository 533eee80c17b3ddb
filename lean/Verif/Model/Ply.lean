import Verif.Model.PointCloud
import Mathlib.Data.Nat.Digits.Defs

/-!
# PLY files of point clouds

Model of `sumo-api/sumo/threedee/point_cloud_ply_c.cpp`, `point_cloud_ply.pyx`, the vendored
`sumo-api/sumo/threedee/tinyply/tinyply.cpp` and `PointCloud.load_ply`/`write_ply` of `point_cloud.pyx`, at the level of the
bytes of the file.  Not modelled: the sizes of `int`, `int32_t` and of the memory (an allocation that fails); the text
numbers of ASCII files (the two functions that read them are a parameter, `Reader`); `double` coordinates are elements of a
type `K`, whose single precision bit patterns are a parameter (`SingleCodec`).
-/

namespace Sumo.Ply

/-- The contents of a file, as `std::ifstream` and `std::ofstream` see it (`threedee/point_cloud_ply_c.cpp:53-108`). -/
abbrev Bytes := List UInt8

/-- The bytes of an ASCII string literal. -/
def txt (s : String) : Bytes := s.toList.map fun c => UInt8.ofNat c.toNat

/-- `Type` (`threedee/tinyply/tinyply.h:20-30`). -/
inductive PlyType
  | invalid | int8 | uint8 | int16 | uint16 | int32 | uint32 | float32 | float64
  deriving DecidableEq, Repr

/-- The strides of `PropertyTable` (`threedee/tinyply/tinyply.cpp:268-276`). -/
def PlyType.stride : PlyType → ℕ
  | .invalid => 0
  | .int8 => 1
  | .uint8 => 1
  | .int16 => 2
  | .uint16 => 2
  | .int32 => 4
  | .uint32 => 4
  | .float32 => 4
  | .float64 => 8

/-- The names of `PropertyTable` (`threedee/tinyply/tinyply.cpp:268-276`). -/
def PlyType.str : PlyType → Bytes
  | .invalid => txt "INVALID"
  | .int8 => txt "char"
  | .uint8 => txt "uchar"
  | .int16 => txt "short"
  | .uint16 => txt "ushort"
  | .int32 => txt "int"
  | .uint32 => txt "uint"
  | .float32 => txt "float"
  | .float64 => txt "double"

/-- `property_type_from_string` (`threedee/tinyply/tinyply.cpp:95-114`). -/
def typeFromString (t : Bytes) : PlyType :=
  if t = txt "int8" ∨ t = txt "char" then .int8
  else if t = txt "uint8" ∨ t = txt "uchar" then .uint8
  else if t = txt "int16" ∨ t = txt "short" then .int16
  else if t = txt "uint16" ∨ t = txt "ushort" then .uint16
  else if t = txt "int32" ∨ t = txt "int" then .int32
  else if t = txt "uint32" ∨ t = txt "uint" then .uint32
  else if t = txt "float32" ∨ t = txt "float" then .float32
  else if t = txt "float64" ∨ t = txt "double" then .float64
  else .invalid

/-- `PlyProperty` (`threedee/tinyply/tinyply.h:73-91`): `list` is `listType` if `isList`.  (`listCount` is only set when
writing lists, which `/repo` never does.) -/
structure Property where
  name : Bytes
  type : PlyType
  list : Option PlyType
  deriving DecidableEq, Repr

/-- `PlyElement` (`threedee/tinyply/tinyply.h:93-100`). -/
structure Element where
  name : Bytes
  size : ℕ
  properties : List Property
  deriving DecidableEq, Repr

/-- `hash_fnv1a` (`threedee/tinyply/tinyply.cpp:82-93`); a `char` above 127 is negative, so it is sign extended. -/
def hashFnv1a (s : Bytes) : UInt32 :=
  s.foldl (fun r c => (r ^^^ (if c < 128 then c.toUInt32 else c.toUInt32 + 0xFFFFFF00)) * 0x01000193) 0x811C9DC5

/-! ### The header -/

/-- `isspace` in the C locale. -/
def isSpace (b : UInt8) : Bool := b = 32 || (9 ≤ b && b ≤ 13)

/-- What the extractions `ls >> token` of a line give, one after the other: the maximal runs of non-space bytes; `cur` is
the run read so far. -/
def tokensFrom (cur : Bytes) : Bytes → List Bytes
  | [] => if cur = [] then [] else [cur]
  | b :: r =>
    if isSpace b then (if cur = [] then tokensFrom [] r else cur :: tokensFrom [] r)
    else tokensFrom (cur ++ [b]) r

/-- The tokens of a line. -/
def tokens (line : Bytes) : List Bytes := tokensFrom [] line

/-- `isdigit` of the C library. -/
def isDigit (b : UInt8) : Bool := 48 ≤ b && b ≤ 57

/-- The number written by leading decimal digits. -/
def digitsValue (t : Bytes) : ℕ := (t.takeWhile isDigit).foldl (fun n b => 10 * n + (b.toNat - 48)) 0

/-- `is >> size` of a `size_t` (`std::num_get`, which reads like `strtoull`): a number too large gives the largest one, a
minus sign negates modulo `2^64`, no digits give 0. -/
def parseSize (t : Bytes) : ℕ :=
  match t with
  | 45 :: r => let v := digitsValue r; if 2 ^ 64 ≤ v then 2 ^ 64 - 1 else (2 ^ 64 - v) % 2 ^ 64
  | 43 :: r => min (digitsValue r) (2 ^ 64 - 1)
  | r => min (digitsValue r) (2 ^ 64 - 1)

/-- `PlyElement(istream&)` (`threedee/tinyply/tinyply.cpp:205-207`) on the tokens after `element`.  Without a third token
the extraction fails before it assigns, and `size` stays uninitialised. -/
def parseElement : List Bytes → Except PyErr Element
  | name :: size :: _ => .ok ⟨name, parseSize size, []⟩
  | _ => .error .undefined

/-- `PlyProperty(istream&)` (`threedee/tinyply/tinyply.cpp:188-199`) on the tokens after `property`; a missing token leaves
a string empty. -/
def parseProperty (ts : List Bytes) : Property :=
  if ts.getD 0 [] = txt "list" then ⟨ts.getD 3 [], typeFromString (ts.getD 2 []), some (typeFromString (ts.getD 1 []))⟩
  else ⟨ts.getD 1 [], typeFromString (ts.getD 0 []), none⟩

/-- The members of `PlyFileImpl` that the header sets (`threedee/tinyply/tinyply.cpp:129-131`); comments and `obj_info` are
stored but never used by `/repo`. -/
structure Header where
  isBinary : Bool
  isBigEndian : Bool
  elements : List Element
  deriving DecidableEq, Repr

/-- `elements.back().properties.emplace_back` (`threedee/tinyply/tinyply.cpp:330`), elements given in file order. -/
def addToLast (p : Property) : List Element → List Element
  | [] => []
  | [e] => [⟨e.name, e.size, e.properties ++ [p]⟩]
  | e :: es => e :: addToLast p es

/-- One line of the header: `none` if it ends the header (`threedee/tinyply/tinyply.cpp:281-300`, 313-331).  An unexpected
field ends it too: `parse_header` returns `false`, which `readPoints` ignores (`threedee/point_cloud_ply_c.cpp:37`). -/
def headerLine (h : Header) (line : Bytes) : Except PyErr (Option Header) :=
  match tokens line with
  | [] => .ok (some h)
  | t :: ts =>
    if t = txt "ply" ∨ t = txt "PLY" then .ok (some h)
    else if t = txt "comment" then .ok (some h)
    else if t = txt "format" then
      if ts.getD 0 [] = txt "binary_little_endian" then .ok (some { h with isBinary := true })
      else if ts.getD 0 [] = txt "binary_big_endian" then .ok (some { h with isBinary := true, isBigEndian := true })
      else .ok (some h)
    else if t = txt "element" then
      match parseElement ts with
      | .ok e => .ok (some { h with elements := h.elements ++ [e] })
      | .error e => .error e
    else if t = txt "property" then
      if h.elements = [] then .error .runtimeError
      else .ok (some { h with elements := addToLast (parseProperty ts) h.elements })
    else if t = txt "obj_info" then .ok (some h)
    else .ok none

/-- `parse_header` (`threedee/tinyply/tinyply.cpp:278-303`): the header, the bytes after it, and whether the stream has
failed.  `line` is what `getline` has read so far.  A line that the end of the file ends sets `eofbit`; the `tellg` of
`parse_data` then sets `failbit`. -/
def parseHeader (h : Header) (line : Bytes) : Bytes → Except PyErr (Header × Bytes × Bool)
  | [] =>
    if line = [] then .ok (h, [], true)
    else match headerLine h line with
      | .error e => .error e
      | .ok none => .ok (h, [], true)
      | .ok (some h') => .ok (h', [], true)
  | b :: r =>
    if b = 10 then
      match headerLine h line with
      | .error e => .error e
      | .ok none => .ok (h, r, false)
      | .ok (some h') => parseHeader h' [] r
    else parseHeader h (line ++ [b]) r

/-! ### The data -/

/-- An input stream: what is left to read, whether it has failed, and the 128 bytes of `scratch`
(`threedee/tinyply/tinyply.cpp:134`). -/
structure Stream where
  rest : Bytes
  fail : Bool
  scratch : Bytes

/-- `is.read((char*)scratch, n)`: at the end of the file the stream fails, keeping the bytes it got; a failed stream
reads nothing and leaves `scratch` alone. -/
def Stream.read (n : ℕ) (s : Stream) : Stream :=
  if s.fail then s
  else ⟨s.rest.drop n, decide (s.rest.length < n), s.rest.take n ++ s.scratch.drop (s.rest.take n).length⟩

/-- The functions `read` and `skip` that `parse_data` chooses (`threedee/tinyply/tinyply.cpp:752-772`): the bytes stored
(in the machine's little endian order), or the size returned. -/
structure Reader where
  read : PlyType → Stream → Except PyErr (Bytes × Stream)
  skip : Property → Stream → Except PyErr (ℕ × Stream)

/-- `read_property_binary` (`threedee/tinyply/tinyply.cpp:371-410`, 213-232, 25-76). -/
def readPropertyBinary (be : Bool) (t : PlyType) (s : Stream) : Except PyErr (Bytes × Stream) :=
  let s' := s.read t.stride
  if t = .invalid then .error .valueError
  else
    let b := s'.scratch.take t.stride
    .ok (if be then b.reverse else b, s')

/-- The number whose little endian bytes are `b` (a `size_t` whose low bytes have been stored). -/
def leNat (b : Bytes) : ℕ := b.foldr (fun x n => x.toNat + 256 * n) 0

/-- `n` reads into `scratch`. -/
def skipItems (stride : ℕ) : ℕ → Stream → Stream
  | 0, s => s
  | n + 1, s => skipItems stride n (s.read stride)

/-- `skip_property_binary` (`threedee/tinyply/tinyply.cpp:333-349`). -/
def skipPropertyBinary (be : Bool) (p : Property) (s : Stream) : Except PyErr (ℕ × Stream) :=
  match p.list with
  | some lt =>
    match readPropertyBinary be lt s with
    | .error e => .error e
    | .ok (b, s') => .ok (leNat b * p.type.stride, skipItems p.type.stride (leNat b) s')
  | none => .ok (p.type.stride, s.read p.type.stride)

/-- The binary functions (`threedee/tinyply/tinyply.cpp:758-764`). -/
def binaryReader (be : Bool) : Reader := ⟨readPropertyBinary be, skipPropertyBinary be⟩

/-- What `parse_data` changes: the stream, and `totalSizeBytes` and the bytes written of the one buffer that the three
requested properties share. -/
structure Pass where
  stream : Stream
  total : ℕ
  out : Bytes

/-- A loop that runs `n` times. -/
def times (n : ℕ) (f : Pass → Except PyErr Pass) (s : Pass) : Except PyErr Pass :=
  match n with
  | 0 => .ok s
  | n + 1 => match f s with
    | .error e => .error e
    | .ok s' => times n f s'

/-- A loop over a list. -/
def forEach {α : Type} (f : α → Pass → Except PyErr Pass) : List α → Pass → Except PyErr Pass
  | [], s => .ok s
  | a :: l, s => match f a s with
    | .error e => .error e
    | .ok s' => forEach f l s'

/-- Reading one value into the buffer. -/
def readInto (R : Reader) (t : PlyType) (s : Pass) : Except PyErr Pass :=
  match R.read t s.stream with
  | .error e => .error e
  | .ok (b, st) => .ok { s with stream := st, out := s.out ++ b }

/-- The body of the loop over the properties (`threedee/tinyply/tinyply.cpp:777-804`); `keys` are the keys of
`userData`. -/
def parseProp (R : Reader) (keys : List UInt32) (first : Bool) (element : Bytes) (p : Property) (s : Pass) :
    Except PyErr Pass :=
  if hashFnv1a (element ++ p.name) ∈ keys then
    if first then
      match R.skip p s.stream with
      | .error e => .error e
      | .ok (n, st) => .ok { s with stream := st, total := s.total + n }
    else
      match p.list with
      | some lt =>
        match R.read lt s.stream with
        | .error e => .error e
        | .ok (b, st) => times (leNat b) (readInto R p.type) { s with stream := st }
      | none => readInto R p.type s
  else
    match R.skip p s.stream with
    | .error e => .error e
    | .ok (_, st) => .ok { s with stream := st }

/-- The loops of `parse_data` (`threedee/tinyply/tinyply.cpp:774-807`). -/
def parseData (R : Reader) (keys : List UInt32) (first : Bool) (elements : List Element) (s : Pass) : Except PyErr Pass :=
  forEach (fun e => times e.size (forEach (parseProp R keys first e.name) e.properties)) elements s

/-- `read` with `fixed_list_size` 0 (`threedee/tinyply/tinyply.cpp:497-545`): two passes; `seekg` between them
(`810-812`) does nothing on a stream that has failed.  The buffer has the size the first pass counted; the second pass
writing more is undefined, and so is using bytes it did not write. -/
def read (R : Reader) (keys : List UInt32) (elements : List Element) (s : Stream) : Except PyErr Bytes :=
  match parseData R keys true elements ⟨s, 0, []⟩ with
  | .error e => .error e
  | .ok p1 =>
    match parseData R keys false elements
        ⟨if p1.stream.fail then p1.stream else { p1.stream with rest := s.rest }, p1.total, []⟩ with
    | .error e => .error e
    | .ok p2 => if p2.out.length = p2.total then .ok p2.out else .error .undefined

/-- `request_properties_from_element` (`threedee/tinyply/tinyply.cpp:648-708`, 246-262): the number of rows and the keys.
(The three keys differ, so that none is requested twice.) -/
def requestProperties (elements : List Element) (elementKey : Bytes) (propertyKeys : List Bytes) :
    Except PyErr (ℕ × List UInt32) :=
  if elements = [] then .error .runtimeError
  else
    match elements.find? (fun e => e.name == elementKey) with
    | none => .error .valueError
    | some e =>
      if propertyKeys.all (fun k => e.properties.any fun p => p.name == k) then
        .ok (e.size, propertyKeys.map fun k => hashFnv1a (e.name ++ k))
      else .error .valueError

/-- The `float`s (as their four bytes) of a buffer. -/
def chunks4 : Bytes → List Bytes
  | a :: b :: c :: d :: r => [a, b, c, d] :: chunks4 r
  | _ => []

/-- `readPoints` (`threedee/point_cloud_ply_c.cpp:24-51`) on the bytes of the file (`none`: it cannot be opened).  The
`memcpy` of a buffer larger than the vector is undefined; a smaller one leaves the zeros of the vector. -/
def readPoints (ascii : Reader) (scratch : Bytes) (file : Option Bytes) : Except PyErr (List Bytes) :=
  match file with
  | none => .error .runtimeError
  | some bytes =>
    match parseHeader ⟨false, false, []⟩ [] bytes with
    | .error e => .error e
    | .ok (h, rest, fail) =>
      match requestProperties h.elements (txt "vertex") [txt "x", txt "y", txt "z"] with
      | .error e => .error e
      | .ok (count, keys) =>
        match read (if h.isBinary then binaryReader h.isBigEndian else ascii) keys h.elements ⟨rest, fail, scratch⟩ with
        | .error e => .error e
        | .ok buffer =>
          if 12 * count < buffer.length then .error .undefined
          else .ok (chunks4 (buffer ++ List.replicate (12 * count - buffer.length) 0))

/-- Conversion between `double`s and the bytes (little endian) of `float`s: `enc` narrows, `dec` widens. -/
structure SingleCodec (K : Type) where
  enc : K → Bytes
  dec : Bytes → K

variable {K : Type}

/-- `numpy_from_unraveled_points` (`threedee/point_cloud_ply.pyx:13-26`): the columns of the `3*n` array. -/
def columns (C : SingleCodec K) : List Bytes → List (Vec3 K)
  | x :: y :: z :: r => ⟨C.dec x, C.dec y, C.dec z⟩ :: columns C r
  | _ => []

/-- `PointCloud.load_ply` (`threedee/point_cloud.pyx:71-76`) with `read_points` (`threedee/point_cloud_ply.pyx:29-34`).
`readPoints` is declared without `except +` (`threedee/point_cloud_ply.pxd:13`). -/
def loadPly (C : SingleCodec K) (ascii : Reader) (scratch : Bytes) (file : Option Bytes) : Except PyErr (PointCloud K) :=
  match unguarded (readPoints ascii scratch file) with
  | .error e => .error e
  | .ok floats => if floats.length / 3 = 0 then .error .assertionError else PointCloud.create (some (columns C floats)) none

/-! ### Writing -/

/-- The decimal digits of a number, as `os << size` prints it. -/
def decimal (n : ℕ) : Bytes :=
  if n = 0 then [48] else ((Nat.digits 10 n).reverse.map fun d => UInt8.ofNat (48 + d))

/-- The part of `PlyFileImpl` used for writing: the elements, and the table `userData` from keys to helpers; the helpers of
one call of `add_properties_to_element` share one buffer, of which `buffers` has what is left after the cursor. -/
structure Writer where
  elements : List Element
  userData : List (UInt32 × ℕ)
  buffers : List Bytes

/-- `create_property_on_element` for one key (`threedee/tinyply/tinyply.cpp:727-736`); `insert` keeps an entry that is
there already. -/
def createProperty (elementKey : Bytes) (type : PlyType) (buffer : ℕ) (key : Bytes) (e : Element)
    (ud : List (UInt32 × ℕ)) : Element × List (UInt32 × ℕ) :=
  (⟨e.name, e.size, e.properties ++ [⟨key, type, none⟩]⟩,
    if ud.any (fun q => q.1 == hashFnv1a (elementKey ++ key)) then ud else ud ++ [(hashFnv1a (elementKey ++ key), buffer)])

/-- The loop of `create_property_on_element`. -/
def createProperties (elementKey : Bytes) (type : PlyType) (buffer : ℕ) : List Bytes → Element → List (UInt32 × ℕ) →
    Element × List (UInt32 × ℕ)
  | [], e, ud => (e, ud)
  | k :: ks, e, ud =>
    let r := createProperty elementKey type buffer k e ud
    createProperties elementKey type buffer ks r.1 r.2

/-- `add_properties_to_element` (`threedee/tinyply/tinyply.cpp:710-749`), for properties that are not lists (the only ones
`/repo` adds). -/
def addProperties (w : Writer) (elementKey : Bytes) (propertyKeys : List Bytes) (type : PlyType) (count : ℕ)
    (data : Bytes) : Writer :=
  match w.elements.findIdx? (fun e => e.name == elementKey) with
  | some i =>
    let r := createProperties elementKey type w.buffers.length propertyKeys (w.elements.getD i ⟨[], 0, []⟩) w.userData
    ⟨w.elements.set i r.1, r.2, w.buffers ++ [data]⟩
  | none =>
    let r := createProperties elementKey type w.buffers.length propertyKeys ⟨elementKey, count, []⟩ w.userData
    ⟨w.elements ++ [r.1], r.2, w.buffers ++ [data]⟩

/-- A property line of `write_header` (`threedee/tinyply/tinyply.cpp:635-643`). -/
def propertyLine (p : Property) : Bytes :=
  match p.list with
  | some lt => txt "property list " ++ lt.str ++ txt " " ++ p.type.str ++ txt " " ++ p.name ++ [10]
  | none => txt "property " ++ p.type.str ++ txt " " ++ p.name ++ [10]

/-- `write_header` of a binary file without comments (`threedee/tinyply/tinyply.cpp:617-646`). -/
def writeHeader (elements : List Element) : Bytes :=
  txt "ply" ++ [10] ++ txt "format binary_little_endian 1.0" ++ [10] ++
  (elements.flatMap fun e => txt "element " ++ e.name ++ txt " " ++ decimal e.size ++ [10] ++
    e.properties.flatMap propertyLine) ++
  txt "end_header" ++ [10]

/-- `write_property_binary` at the cursor of a property's buffer (`threedee/tinyply/tinyply.cpp:488-495`, 577-581).
A key without an entry, or bytes beyond the buffer, are undefined. -/
def writeProp (userData : List (UInt32 × ℕ)) (element : Bytes) (p : Property) (s : List Bytes × Bytes) :
    Except PyErr (List Bytes × Bytes) :=
  match userData.lookup (hashFnv1a (element ++ p.name)) with
  | none => .error .undefined
  | some i =>
    match s.1[i]? with
    | none => .error .undefined
    | some buf =>
      if buf.length < p.type.stride then .error .undefined
      else .ok (s.1.set i (buf.drop p.type.stride), s.2 ++ buf.take p.type.stride)

/-- One row of an element (`threedee/tinyply/tinyply.cpp:564-583`). -/
def writeRow (userData : List (UInt32 × ℕ)) (element : Bytes) : List Property → List Bytes × Bytes →
    Except PyErr (List Bytes × Bytes)
  | [], s => .ok s
  | p :: ps, s => match writeProp userData element p s with
    | .error e => .error e
    | .ok s' => writeRow userData element ps s'

/-- The rows of an element (`threedee/tinyply/tinyply.cpp:563-584`). -/
def writeRows (userData : List (UInt32 × ℕ)) (e : Element) : ℕ → List Bytes × Bytes → Except PyErr (List Bytes × Bytes)
  | 0, s => .ok s
  | n + 1, s => match writeRow userData e.name e.properties s with
    | .error e => .error e
    | .ok s' => writeRows userData e n s'

/-- The loop over the elements (`threedee/tinyply/tinyply.cpp:562-585`). -/
def writeElements (userData : List (UInt32 × ℕ)) : List Element → List Bytes × Bytes → Except PyErr (List Bytes × Bytes)
  | [], s => .ok s
  | e :: es, s => match writeRows userData e e.size s with
    | .error e => .error e
    | .ok s' => writeElements userData es s'

/-- `write_binary_internal` (`threedee/tinyply/tinyply.cpp:555-586`): the bytes of the file. -/
def writeBinary (w : Writer) : Except PyErr Bytes :=
  match writeElements w.userData w.elements (w.buffers, writeHeader w.elements) with
  | .error e => .error e
  | .ok s => .ok s.2

/-- `np.reshape(points, 3*n, order='F')` converted to `vector<float>`, as bytes (`threedee/point_cloud_ply.pyx:38-45`). -/
def pointBytes (C : SingleCodec K) (points : List (Vec3 K)) : Bytes :=
  points.flatMap fun p => C.enc p.x ++ C.enc p.y ++ C.enc p.z

/-- The colours as `vector<unsigned char>` (`threedee/point_cloud_ply.pyx:54-61`). -/
def colorBytes (colors : List Color) : Bytes :=
  colors.flatMap fun c => [UInt8.ofNat c.r, UInt8.ofNat c.g, UInt8.ofNat c.b]

/-- `writePoints` (`threedee/point_cloud_ply_c.cpp:53-74`). -/
def writePoints (C : SingleCodec K) (points : List (Vec3 K)) : Except PyErr Bytes :=
  writeBinary (addProperties ⟨[], [], []⟩ (txt "vertex") [txt "x", txt "y", txt "z"] .float32 points.length
    (pointBytes C points))

/-- `writePointsAndColors` (`threedee/point_cloud_ply_c.cpp:76-108`). -/
def writePointsAndColors (C : SingleCodec K) (points : List (Vec3 K)) (colors : List Color) : Except PyErr Bytes :=
  writeBinary (addProperties
    (addProperties ⟨[], [], []⟩ (txt "vertex") [txt "x", txt "y", txt "z"] .float32 points.length (pointBytes C points))
    (txt "vertex") [txt "red", txt "green", txt "blue"] .uint8 colors.length (colorBytes colors))

/-- `write_ply` (`threedee/point_cloud.pyx:204-209`): what the file contains afterwards; `writable` says whether it can be
opened for writing (`threedee/point_cloud_ply_c.cpp:58-60`, 84-86).  The C++ functions are declared without `except +`
(`threedee/point_cloud_ply.pxd:16-24`). -/
def writePly (C : SingleCodec K) (c : PointCloud K) (writable : Bool) : Except PyErr Bytes :=
  if writable then
    unguarded (if c.colored then writePointsAndColors C c.points c.colors else writePoints C c.points)
  else unguarded (.error .runtimeError)

end Sumo.Ply
