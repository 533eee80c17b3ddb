import Verif.Lemmas.TinyParse
import Verif.Props.Base64

/-!
# Buffers of glTF documents in base64 (C182)
-/

namespace Sumo.Base64

open Ply (Bytes txt)

/-- The string with these characters. -/
def charsOf (b : Bytes) : List Char := b.map fun c => Char.ofNat c.toNat

def stringOfBytes (b : Bytes) : String := String.ofList (charsOf b)

theorem txt_stringOfBytes (b : Bytes) : txt (stringOfBytes b) = b := by
  have key : ∀ n : Fin 256, UInt8.ofNat (Char.ofNat n.val).toNat = UInt8.ofNat n.val := by decide +kernel
  unfold txt stringOfBytes charsOf
  rw [String.toList_ofList, List.map_map]
  conv_rhs => rw [← List.map_id b]
  refine List.map_congr_left fun c _ => ?_
  have := key ⟨c.toNat, c.toNat_lt⟩
  simp only at this
  rw [UInt8.ofNat_toNat] at this
  exact this

/-- The headers as strings. -/
def headerStrings : List String :=
  ["data:application/octet-stream;base64,", "data:image/jpeg;base64,", "data:image/png;base64,", "data:image/bmp;base64,",
    "data:image/gif;base64,", "data:text/plain;base64,", "data:application/gltf-buffer;base64,"]

theorem header_string : ∀ p ∈ headers, ∃ s ∈ headerStrings, charsOf p.1 = s.toList := by decide +kernel

theorem isDataUri_header {header : Bytes} {type : Option String} (h : (header, type) ∈ headers) (t : Bytes) :
    Gltf.isDataUri (stringOfBytes (header ++ t)) = true := by
  obtain ⟨s, hs, he⟩ := header_string _ h
  have : Gltf.isDataUri (stringOfBytes (header ++ t)) =
      headerStrings.any fun k => k.toList.isPrefixOf (stringOfBytes (header ++ t)).toList := rfl
  rw [this, List.any_eq_true]
  refine ⟨s, hs, ?_⟩
  rw [List.isPrefixOf_iff_prefix, stringOfBytes, String.toList_ofList, charsOf, List.map_append]
  exact he ▸ List.prefix_append _ _

theorem stringOfBytes_ne {b : Bytes} (h : b ≠ []) : stringOfBytes b ≠ "" := by
  intro e
  have := congrArg txt e
  rw [txt_stringOfBytes] at this
  exact h (this.trans rfl)

/-- **C182**: a buffer whose `uri` has data in base64 is loaded with exactly these bytes, in a text document and in a GLB file, if there are
any and `byteLength` is their number; otherwise the document is refused. -/
theorem C182_buffer (L : Gltf.Loader) (hL : ∀ u, L.dataUri u = decodeDataURI "" (txt u) none) (bin : Option (List UInt8 × ℕ))
    (o : Gltf.Fields ℚ) {header : Bytes} {type : Option String} (h : (header, type) ∈ headers) (data : Bytes) (n : ℕ)
    (hq : Gltf.numberOf o "byteLength" = some (n : ℚ)) (hu : Gltf.stringOf o "uri" = some (stringOfBytes (header ++ encode data))) :
    Gltf.parseBuffer L bin o =
      if data ≠ [] ∧ n = data.length then .ok data else .error .ioError := by
  have hne : stringOfBytes (header ++ encode data) ≠ "" := by
    apply stringOfBytes_ne
    intro e
    have : ∀ p ∈ headers, p.1 ≠ [] := by decide +kernel
    exact this _ h (List.append_eq_nil_iff.1 e).1
  have hd : Gltf.decodeSized L (stringOfBytes (header ++ encode data)) n =
      if data ≠ [] ∧ n = data.length then .ok data else .error .ioError := by
    unfold Gltf.decodeSized
    rw [hL, txt_stringOfBytes, C182_uri h]
    by_cases hd : data = []
    · simp [hd]
    · rw [if_pos ⟨hd, Or.inl rfl⟩]
      simp only
      by_cases hb : data.length = n
      · rw [if_pos hb, if_pos ⟨hd, hb.symm⟩]
      · rw [if_neg hb, if_neg (fun c => hb c.2.symm)]
  unfold Gltf.parseBuffer
  simp only [hq, hu, Option.getD_some, Gltf.toNat_toInt_natCast]
  cases bin with
  | none =>
    simp only
    rw [if_pos (isDataUri_header h _), hd]
  | some p =>
    simp only
    rw [if_pos hne, if_pos (isDataUri_header h _), hd]

/-- Two bytes in a text document: loaded with the right `byteLength`, refused with another one. -/
example : let L : Gltf.Loader := ⟨fun _ => none, fun _ => none, fun _ => none, fun u => decodeDataURI "" (txt u) none, (0, 0, 0)⟩
    let o (n : ℕ) : Gltf.Fields ℚ := [("byteLength", .int n), ("uri", .str "data:text/plain;base64,AP8=")]
    "data:text/plain;base64,AP8=" = stringOfBytes (txt "data:text/plain;base64," ++ encode [0, 255]) ∧
      (txt "data:text/plain;base64,", some "text/plain") ∈ headers ∧
      Gltf.parseBuffer L none (o 2) = .ok [0, 255] ∧ Gltf.parseBuffer L none (o 3) = .error .ioError := by
  decide +kernel

end Sumo.Base64
