import Verif.Model.FloatVoxel
import Verif.Model.Ply
import Verif.Model.Tiff

/-!
# The text of the metadata of a TIFF file

`writeMetadata` and `readMetadata` (`sumo-api/sumo/images/RgbdTiff.cpp:71-124`) with the parts of `images/picojson.h` they use.  The
library is compiled with `PICOJSON_USE_INT64` (`sumo-api/setup.py:103`), without `PICOJSON_USE_LOCALE`'s effect (the decimal point is a
point).  A text is its bytes, and numbers are exact; the sign of zero is not modelled.
-/

namespace Sumo.PicoJson

open Ply (Bytes txt isDigit decimal)

/-- `picojson::value` (`images/picojson.h:126-204`).  An `object` is a `std::map`: one entry for a key; the order of the entries is only
used by `serialize`, which has to be given sorted ones. -/
inductive Value
  | null
  | bool (b : Bool)
  | int (i : ℤ)
  | number (x : ℚ)
  | str (s : Bytes)
  | array (l : List Value)
  | object (l : List (Bytes × Value))

/-! ### Writing -/

/-- `SNPRINTF("%.17g")`: the seventeen digits of a number that is not zero and the decimal exponent of the first of them.  The C library
rounds correctly. -/
def digits17 (x : ℚ) : ℕ × ℤ :=
  let e := Int.log 10 |x|
  let m := (roundEven (|x| * 10 ^ (16 - e))).toNat
  if m = 10 ^ 17 then (10 ^ 16, e + 1) else (m, e)

/-- `%g` removes trailing zeros. -/
def stripZeros (l : Bytes) : Bytes := (l.reverse.dropWhile fun b => b = 48).reverse

/-- The fraction, and no point without one. -/
def fraction (l : Bytes) : Bytes := if l = [] then [] else 46 :: l

/-- The exponent of `%e`: a sign and at least two digits. -/
def exponent (e : ℤ) : Bytes :=
  101 :: (if e < 0 then 45 else 43) :: ((if e.natAbs < 10 then [48] else []) ++ decimal e.natAbs)

/-- `"%.17g"` of the digits and the exponent, without the sign. -/
def general17 (m : ℕ) (e : ℤ) : Bytes :=
  let d := decimal m
  if e < -4 ∨ 17 ≤ e then d.take 1 ++ fraction (stripZeros (d.drop 1)) ++ exponent e
  else if 0 ≤ e then d.take (e.toNat + 1) ++ fraction (stripZeros (d.drop (e.toNat + 1)))
  else [48] ++ fraction (List.replicate (-e - 1).toNat 48 ++ stripZeros d)

/-- The sign that `SNPRINTF` writes (`images/picojson.h:501-507`). -/
def minus (x : ℚ) : Bytes := if x < 0 then [45] else []

/-- `to_str` of a number (`images/picojson.h:501-508`): `"%.f"` for an integer below `2^53`, `"%.17g"` for everything else. -/
def numberText (x : ℚ) : Bytes :=
  if |x| < 2 ^ 53 ∧ (⌊x⌋ : ℚ) = x then minus x ++ decimal ⌊x⌋.natAbs
  else minus x ++ general17 (digits17 x).1 (digits17 x).2

/-- `to_str` of an integer (`images/picojson.h:494-498`). -/
def intText (i : ℤ) : Bytes := (if i < 0 then [45] else []) ++ decimal i.natAbs

/-- A digit of `%04x` (`images/picojson.h:562`). -/
def hexDigit (n : ℕ) : UInt8 := if n < 10 then UInt8.ofNat (48 + n) else UInt8.ofNat (87 + n)

/-- `serialize_str_char` (`images/picojson.h:540-570`). -/
def charText (b : UInt8) : Bytes :=
  if b = 34 then [92, 34]
  else if b = 92 then [92, 92]
  else if b = 47 then [92, 47]
  else if b = 8 then txt "\\b"
  else if b = 12 then txt "\\f"
  else if b = 10 then txt "\\n"
  else if b = 13 then txt "\\r"
  else if b = 9 then txt "\\t"
  else if b < 32 ∨ b = 127 then txt "\\u00" ++ [hexDigit (b.toNat / 16), hexDigit (b.toNat % 16)]
  else [b]

/-- `serialize_str` (`images/picojson.h:572-578`). -/
def strText (s : Bytes) : Bytes := [34] ++ s.flatMap charText ++ [34]

mutual
/-- `serialize` (`images/picojson.h:598-671`) without indentation. -/
def serialize : Value → Bytes
  | .null => txt "null"
  | .bool b => if b then txt "true" else txt "false"
  | .int i => intText i
  | .number x => numberText x
  | .str s => strText s
  | .array l => [91] ++ serializeItems l ++ [93]
  | .object l => [123] ++ serializeMembers l ++ [125]

/-- The items of an array (`images/picojson.h:609-620`). -/
def serializeItems : List Value → Bytes
  | [] => []
  | [v] => serialize v
  | v :: w :: l => serialize v ++ [44] ++ serializeItems (w :: l)

/-- The members of an object (`images/picojson.h:630-647`). -/
def serializeMembers : List (Bytes × Value) → Bytes
  | [] => []
  | [(k, v)] => strText k ++ [58] ++ serialize v
  | (k, v) :: m :: l => strText k ++ [58] ++ serialize v ++ [44] ++ serializeMembers (m :: l)
end

/-- `META_TAG_NEARPLANE` and `META_TAG_VERSION` (`images/RgbdTiff.cpp:14-15`). -/
def nearTag : Bytes := txt "near"

/-- `META_TAG_VERSION` (`images/RgbdTiff.cpp:15`). -/
def versionTag : Bytes := txt "version"

/-- The text `writeMetadata` stores (`images/RgbdTiff.cpp:113-124`) for a finite near plane; `SUMO_TIFF_VERSION` is 1 as an integer (line 13).  The map has `near`
before `version`. -/
def metadataText (near : ℚ) : Bytes := serialize (.object [(nearTag, .number near), (versionTag, .int 1)])

/-! ### Reading -/

/-- The blanks of `skip_ws` (`images/picojson.h:713`). -/
def isBlank (b : UInt8) : Bool := b = 32 || b = 9 || b = 10 || b = 13

/-- `input::skip_ws` (`images/picojson.h:710-718`). -/
def skipWs (s : Bytes) : Bytes := s.dropWhile isBlank

/-- `input::expect` (`images/picojson.h:719-726`): the text after the character. -/
def expect (c : UInt8) (s : Bytes) : Option Bytes :=
  match skipWs s with
  | [] => none
  | b :: r => if b = c then some r else none

/-- `input::match` (`images/picojson.h:727-736`). -/
def matchText : Bytes → Bytes → Option Bytes
  | [], s => some s
  | _ :: _, [] => none
  | c :: p, b :: s => if b = c then matchText p s else none

/-- The value of a hexadecimal digit (`images/picojson.h:746-755`). -/
def hexValue (b : UInt8) : Option ℕ :=
  if 48 ≤ b ∧ b ≤ 57 then some (b.toNat - 48)
  else if 65 ≤ b ∧ b ≤ 70 then some (b.toNat - 55)
  else if 97 ≤ b ∧ b ≤ 102 then some (b.toNat - 87)
  else none

/-- `_parse_quadhex` (`images/picojson.h:739-759`). -/
def quadHex : Bytes → Option (ℕ × Bytes)
  | a :: b :: c :: d :: r => do
    let a ← hexValue a
    let b ← hexValue b
    let c ← hexValue c
    let d ← hexValue d
    some (((a * 16 + b) * 16 + c) * 16 + d, r)
  | _ => none

/-- The bytes of a code point (`images/picojson.h:784-800`). -/
def utf8 (u : ℕ) : Bytes :=
  if u < 0x80 then [UInt8.ofNat u]
  else if u < 0x800 then [UInt8.ofNat (0xc0 + u / 64), UInt8.ofNat (0x80 + u % 64)]
  else if u < 0x10000 then [UInt8.ofNat (0xe0 + u / 4096), UInt8.ofNat (0x80 + u / 64 % 64), UInt8.ofNat (0x80 + u % 64)]
  else [UInt8.ofNat (0xf0 + u / 262144), UInt8.ofNat (0x80 + u / 4096 % 64), UInt8.ofNat (0x80 + u / 64 % 64),
    UInt8.ofNat (0x80 + u % 64)]

/-- `_parse_codepoint` (`images/picojson.h:761-801`). -/
def codepoint (s : Bytes) : Option (Bytes × Bytes) :=
  match quadHex s with
  | none => none
  | some (u, r) =>
    if 0xd800 ≤ u ∧ u ≤ 0xdfff then
      if 0xdc00 ≤ u then none
      else match matchText [92, 117] r with
        | none => none
        | some r => match quadHex r with
          | none => none
          | some (v, r) =>
            if 0xdc00 ≤ v ∧ v ≤ 0xdfff then some (utf8 ((u - 0xd800) * 1024 + (v - 0xdc00) + 0x10000), r) else none
    else some (utf8 u, r)

/-- The characters that stand for themselves or another one after a backslash (`images/picojson.h:817-828`). -/
def escaped (b : UInt8) : Option UInt8 :=
  if b = 34 then some 34
  else if b = 92 then some 92
  else if b = 47 then some 47
  else if b = 98 then some 8
  else if b = 102 then some 12
  else if b = 110 then some 10
  else if b = 114 then some 13
  else if b = 116 then some 9
  else none

/-- `_parse_string` (`images/picojson.h:803-843`) after the opening quote: the characters read, and the text after the closing quote if
one was reached.  The first argument bounds the number of steps; `parseString` gives enough. -/
def stringSteps : ℕ → Bytes → Bytes → Bytes × Option Bytes
  | 0, out, _ => (out, none)
  | _ + 1, out, [] => (out, none)
  | n + 1, out, c :: r =>
    if c < 32 then (out, none)
    else if c = 34 then (out, some r)
    else if c = 92 then
      match r with
      | [] => (out, none)
      | e :: r =>
        if e = 117 then
          match codepoint r with
          | none => (out, none)
          | some (bytes, r) => stringSteps n (out ++ bytes) r
        else
          match escaped e with
          | none => (out, none)
          | some b => stringSteps n (out ++ [b]) r
    else stringSteps n (out ++ [c]) r

/-- `_parse_string` (`images/picojson.h:803-843`) with enough steps. -/
def parseString (s : Bytes) : Bytes × Option Bytes := stringSteps (s.length + 1) [] s

/-- The characters `_parse_number` takes (`images/picojson.h:883-903`). -/
def isNumberChar (b : UInt8) : Bool := isDigit b || b = 43 || b = 45 || b = 101 || b = 69 || b = 46

/-- The number that digits spell, as `strtoimax` and `strtod` of the C library read them (called in `images/picojson.h:939-948`). -/
def digitsNat (l : Bytes) : ℕ := l.foldl (fun n b => 10 * n + (b.toNat - 48)) 0

/-- A sign, and the text after it. -/
def signOf : Bytes → Bool × Bytes
  | [] => (false, [])
  | b :: r => if b = 45 then (true, r) else if b = 43 then (false, r) else (false, b :: r)

/-- A number with the sign read before it (the C library, called in `images/picojson.h:939-948`). -/
def applySign (neg : Bool) (i : ℤ) : ℤ := if neg then -i else i

/-- The integer a whole text spells: a sign and one or more digits. -/
def wholeInt (t : Bytes) : Option ℤ :=
  let r := (signOf t).2
  if r ≠ [] ∧ r.all isDigit = true then some (applySign (signOf t).1 (digitsNat r)) else none

/-- `strtoimax` of the whole text without an error (`images/picojson.h:939-946`): the integer fits into 64 bits. -/
def strtoimax (t : Bytes) : Option ℤ :=
  match wholeInt t with
  | none => none
  | some i => if -2 ^ 63 ≤ i ∧ i ≤ 2 ^ 63 - 1 then some i else none

/-- The exponent of a number: nothing, or `e` and an integer. -/
def exponentValue : Bytes → Option ℤ
  | [] => some 0
  | b :: r => if b = 101 ∨ b = 69 then wholeInt r else none

/-- The text after the digits, split at the end of a fraction. -/
def fractionOf : Bytes → Bytes × Bytes
  | [] => ([], [])
  | b :: r => if b = 46 then (r.takeWhile isDigit, r.dropWhile isDigit) else ([], b :: r)

/-- The number the whole text spells for `strtod`, before it is rounded.  (Hexadecimal numbers and names have characters that
`isNumberChar` does not have.) -/
def wholeDecimal (t : Bytes) : Option ℚ :=
  let r := (signOf t).2
  let ip := r.takeWhile isDigit
  let f := fractionOf (r.dropWhile isDigit)
  if ip ++ f.1 = [] then none
  else match exponentValue f.2 with
    | none => none
    | some e => some ((applySign (signOf t).1 1 : ℤ) * (digitsNat (ip ++ f.1) : ℚ) * 10 ^ (e - (f.1.length : ℤ)))

/-- What a parser does: it reads a value, stops at a syntax error with what it has filled in so far, or the constructor of a number throws
`std::overflow_error`. -/
inductive Outcome
  | ok (v : Value) (rest : Bytes)
  | fail (v : Value)
  | overflow

/-- A number (`images/picojson.h:929-957`); `strtod` gives an infinity from `2^1024` on, for which `value(double)` throws
(`images/picojson.h:241-254`).  Underflow is not modelled. -/
def parseNumber (out : Value) (s : Bytes) : Outcome :=
  let t := s.takeWhile isNumberChar
  let r := s.dropWhile isNumberChar
  match strtoimax t with
  | some i => .ok (.int i) r
  | none => match wholeDecimal t with
    | none => .fail out
    | some x => if 2 ^ 1024 ≤ |double x| then .overflow else .ok (.number (double x)) r

/-- `IS` (`images/picojson.h:910-919`). -/
def literal (pattern : Bytes) (v out : Value) (r : Bytes) : Outcome :=
  match matchText pattern r with
  | none => .fail out
  | some r => .ok v r

/-- `o[key] = v` for a `std::map`, up to the order. -/
def setMember (key : Bytes) (v : Value) : List (Bytes × Value) → List (Bytes × Value)
  | [] => [(key, v)]
  | (k, w) :: l => if k = key then (k, v) :: l else (k, w) :: setMember key v l

/-- A string (`images/picojson.h:1024-1028`). -/
def stringValue (r : Bytes) : Outcome :=
  match parseString r with
  | (s, some r) => .ok (.str s) r
  | (s, none) => .fail (.str s)

mutual
/-- `_parse` (`images/picojson.h:905-959`) with `default_parse_context` (`images/picojson.h:1000-1057`), which writes into `out` as it goes.
The first argument bounds the number of calls. -/
def parse : ℕ → Value → Bytes → Outcome
  | 0, out, _ => .fail out
  | n + 1, out, s =>
    match skipWs s with
    | [] => .fail out
    | c :: r =>
      if c = 110 then literal (txt "ull") .null out r
      else if c = 102 then literal (txt "alse") (.bool false) out r
      else if c = 116 then literal (txt "rue") (.bool true) out r
      else if c = 34 then stringValue r
      else if c = 91 then
        match expect 93 r with
        | some r => .ok (.array []) r
        | none => parseItems n [] r
      else if c = 123 then
        match expect 125 r with
        | some r => .ok (.object []) r
        | none => parseMembers n [] r
      else if isDigit c || c = 45 then parseNumber out (c :: r)
      else .fail out

/-- The loop of `_parse_array` (`images/picojson.h:845-861`). -/
def parseItems : ℕ → List Value → Bytes → Outcome
  | 0, l, _ => .fail (.array l)
  | n + 1, l, s =>
    match parse n .null s with
    | .overflow => .overflow
    | .fail v => .fail (.array (l ++ [v]))
    | .ok v r =>
      match expect 44 r with
      | some r => parseItems n (l ++ [v]) r
      | none =>
        match expect 93 r with
        | some r => .ok (.array (l ++ [v])) r
        | none => .fail (.array (l ++ [v]))

/-- The loop of `_parse_object` (`images/picojson.h:863-881`): the entry of a key is there before its value is parsed, and an entry that
was there already is parsed into. -/
def parseMembers : ℕ → List (Bytes × Value) → Bytes → Outcome
  | 0, l, _ => .fail (.object l)
  | n + 1, l, s =>
    match expect 34 s with
    | none => .fail (.object l)
    | some r =>
      match parseString r with
      | (_, none) => .fail (.object l)
      | (key, some r) =>
        match expect 58 r with
        | none => .fail (.object l)
        | some r =>
          match parse n ((l.lookup key).getD .null) r with
          | .overflow => .overflow
          | .fail v => .fail (.object (setMember key v l))
          | .ok v r =>
            match expect 44 r with
            | some r => parseMembers n (setMember key v l) r
            | none =>
              match expect 125 r with
              | some r => .ok (.object (setMember key v l)) r
              | none => .fail (.object (setMember key v l))
end

/-- `picojson::parse(out, first, last)` (`images/picojson.h:1115-1142`) into a new value; every second call reads a character. -/
def parseText (s : Bytes) : Outcome := parse (2 * s.length + 2) .null s

/-- `std::runtime_error` (a failed `PICOJSON_ASSERT` as well) and `std::overflow_error`, which Cython translates to `RuntimeError` and
`OverflowError`. -/
inductive Failure
  | runtimeError
  | overflowError
  deriving DecidableEq

/-- `get<int64_t>()` (`images/picojson.h:369-396`): a number that was read as a double has another type. -/
def Value.getInt : Value → Except Failure ℤ
  | .int i => .ok i
  | _ => .error .runtimeError

/-- `get<double>()` (`images/picojson.h:369-396`). -/
def Value.getDouble : Value → Except Failure ℚ
  | .int i => .ok (double i)
  | .number x => .ok x
  | _ => .error .runtimeError

/-- The version of an object (`images/RgbdTiff.cpp:93-98`). -/
def versionOf (l : List (Bytes × Value)) : Except Failure ℤ :=
  match l.lookup versionTag with
  | none => .ok 0
  | some v => v.getInt

/-- The near plane of an object (`images/RgbdTiff.cpp:100-110`). -/
def nearOf (l : List (Bytes × Value)) : Except Failure ℚ :=
  match l.lookup nearTag with
  | none => .ok 1
  | some v => v.getDouble.map single

/-- The part of `readMetadata` after the text was parsed (`images/RgbdTiff.cpp:88-110`): the version and the near plane. -/
def ofValue : Value → Except Failure (ℤ × ℚ)
  | .object l => do
    let version ← versionOf l
    let near ← nearOf l
    .ok (version, near)
  | _ => .error .runtimeError

/-- `readMetadata` (`images/RgbdTiff.cpp:71-111`) for the text of the tag, if there is one.  What `picojson::parse` returns is not looked
at: after a syntax error the value is what was filled in before it. -/
def readMetadata : Option Bytes → Except Failure (ℤ × ℚ)
  | none => .ok (0, 1)
  | some s =>
    match parseText s with
    | .overflow => .error .overflowError
    | .ok v _ => ofValue v
    | .fail v => ofValue v

/-- What `Verif.Model.Tiff` keeps of a value (`images/RgbdTiff.cpp:88-110`). -/
def describeValue : Value → Tiff.Description ℚ
  | .object l =>
    match versionOf l with
    | .error _ => .corrupt
    | .ok _ =>
      match l.lookup nearTag with
      | none => .object none
      | some v =>
        match v.getDouble with
        | .error _ => .corrupt
        | .ok x => .object (some x)
  | _ => .corrupt

/-- What `Verif.Model.Tiff` keeps of the text of the tag; there, `OverflowError` is not told apart from `RuntimeError`. -/
def describe : Option Bytes → Tiff.Description ℚ
  | none => .missing
  | some s =>
    match parseText s with
    | .overflow => .corrupt
    | .ok v _ => describeValue v
    | .fail v => describeValue v

end Sumo.PicoJson
