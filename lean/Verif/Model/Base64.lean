import Verif.Model.Ply

/-!
# Binary data in JSON documents

`base64_encode`, `base64_decode` and `DecodeDataURI` of `sumo-api/sumo/threedee/tiny_gltf/tiny_gltf.h`.  Masks and shifts are written as
remainders and quotients.
-/

namespace Sumo.Base64

open Ply (Bytes txt)

/-- `base64_chars` (`threedee/tiny_gltf/tiny_gltf.h:1217-1220`). -/
def alphabet : Bytes := txt "ABCDEFGHIJKLMNOPQRSTUVWXYZabcdefghijklmnopqrstuvwxyz0123456789+/"

/-- `is_base64` (`threedee/tiny_gltf/tiny_gltf.h:1222-1224`), in the `C` locale. -/
def isBase64 (b : UInt8) : Bool :=
  (48 ≤ b && b ≤ 57) || (65 ≤ b && b ≤ 90) || (97 ≤ b && b ≤ 122) || b = 43 || b = 47

/-- `base64_chars[i]`. -/
def symbol (i : ℕ) : UInt8 := alphabet.getD i 0

/-- The four numbers for three bytes (`threedee/tiny_gltf/tiny_gltf.h:1238-1243`). -/
def first (a : ℕ) : ℕ := a / 4

/-- The second number (`threedee/tiny_gltf/tiny_gltf.h:1239-1240`). -/
def second (a b : ℕ) : ℕ := a % 4 * 16 + b / 16

/-- The third number (`threedee/tiny_gltf/tiny_gltf.h:1241-1242`). -/
def third (b c : ℕ) : ℕ := b % 16 * 4 + c / 64

/-- The fourth number (`threedee/tiny_gltf/tiny_gltf.h:1243`). -/
def fourth (c : ℕ) : ℕ := c % 64

/-- `base64_encode` (`threedee/tiny_gltf/tiny_gltf.h:1226-1269`). -/
def encode : Bytes → Bytes
  | a :: b :: c :: r =>
    symbol (first a.toNat) :: symbol (second a.toNat b.toNat) :: symbol (third b.toNat c.toNat) :: symbol (fourth c.toNat) :: encode r
  | [a, b] => [symbol (first a.toNat), symbol (second a.toNat b.toNat), symbol (third b.toNat 0), 61]
  | [a] => [symbol (first a.toNat), symbol (second a.toNat 0), 61, 61]
  | [] => []

/-- `static_cast<unsigned char>(base64_chars.find(c))`: `npos` is 255. -/
def position (b : UInt8) : ℕ :=
  match alphabet.idxOf? b with
  | some i => i
  | none => 255

/-- The three bytes for four characters (`threedee/tiny_gltf/tiny_gltf.h:1288-1292`). -/
def byte1 (a b : ℕ) : UInt8 := UInt8.ofNat (a * 4 + b % 64 / 16)

/-- The second byte (`threedee/tiny_gltf/tiny_gltf.h:1290-1291`). -/
def byte2 (b c : ℕ) : UInt8 := UInt8.ofNat (b % 16 * 16 + c % 64 / 4)

/-- The third byte (`threedee/tiny_gltf/tiny_gltf.h:1292`). -/
def byte3 (c d : ℕ) : UInt8 := UInt8.ofNat (c % 4 * 64 + d)

/-- Groups of four characters; of the last, incomplete one all complete bytes (`threedee/tiny_gltf/tiny_gltf.h:1281-1318`). -/
def decodeGroups : Bytes → Bytes
  | a :: b :: c :: d :: r =>
    byte1 (position a) (position b) :: byte2 (position b) (position c) :: byte3 (position c) (position d) :: decodeGroups r
  | [a, b, c] => [byte1 (position a) (position b), byte2 (position b) (position c)]
  | [a, b] => [byte1 (position a) (position b)]
  | _ => []

/-- `base64_decode` (`threedee/tiny_gltf/tiny_gltf.h:1271-1321`): up to the first character that is not in the alphabet. -/
def decode (s : Bytes) : Bytes := decodeGroups (s.takeWhile fun b => b ≠ 61 && isBase64 b)

/-- The headers in the order they are tried, with the type each sets (`threedee/tiny_gltf/tiny_gltf.h:1781-1832`). -/
def headers : List (Bytes × Option String) :=
  [(txt "data:application/octet-stream;base64,", none), (txt "data:image/jpeg;base64,", some "image/jpeg"),
    (txt "data:image/png;base64,", some "image/png"), (txt "data:image/bmp;base64,", some "image/bmp"),
    (txt "data:image/gif;base64,", some "image/gif"), (txt "data:text/plain;base64,", some "text/plain"),
    (txt "data:application/gltf-buffer;base64,", none)]

/-- The type and the data after all headers were tried; a header is only tried as long as there are no data. -/
def tryHeaders (s : Bytes) : List (Bytes × Option String) → String → Bytes → String × Bytes
  | [], mime, data => (mime, data)
  | (h, m) :: l, mime, data =>
    if data = [] ∧ h.isPrefixOf s = true then tryHeaders s l (m.getD mime) (decode (s.drop h.length))
    else tryHeaders s l mime data

/-- `DecodeDataURI` (`threedee/tiny_gltf/tiny_gltf.h:1775-1848`): the type, which was `mime` before, and the data; `none` if it returns
false.  The size is checked if there is one. -/
def decodeDataURI (mime : String) (s : Bytes) (size : Option ℕ) : Option (String × Bytes) :=
  let r := tryHeaders s headers mime []
  if r.2 = [] then none
  else match size with
    | none => some r
    | some n => if r.2.length = n then some r else none

end Sumo.Base64
