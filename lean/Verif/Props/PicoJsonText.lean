import Verif.Lemmas.PicoJsonText

/-!
# The text of any JSON value (C181)
-/

namespace Sumo.PicoJson

open Ply (Bytes txt)

theorem isNumberChar_false {b : UInt8} (h : b ∉ txt "0123456789+-eE.") : isNumberChar b = false := by
  have key : ∀ n : Fin 256, UInt8.ofNat n.val ∉ txt "0123456789+-eE." → isNumberChar (UInt8.ofNat n.val) = false := by decide +kernel
  have := key ⟨b.toNat, b.toNat_lt⟩
  rw [UInt8.ofNat_toNat] at this
  exact this h

/-- **C181**: every value (nested as deep as one likes, with all bytes in strings and keys) is read back from its text, up to numbers
that are read as the integers they are equal to; nothing after the text is consumed. -/
theorem C181_round_trip {v : Value} (hv : v.Valid) {after : Bytes} (ha : ∀ b ∈ after.head?, b ∉ txt "0123456789+-eE.") :
    ∃ w, parseText (serialize v ++ after) = .ok w after ∧ v.Same w :=
  (parse_serialized _).1 v hv .null after (by rw [List.length_append]; omega) fun b hb => isNumberChar_false (ha b hb)

/-- A text is the text of one value only, up to such numbers: a value read from it is the same as both. -/
theorem C181_unique {v w : Value} (hv : v.Valid) (hw : w.Valid) (h : serialize v = serialize w) : ∃ u, v.Same u ∧ w.Same u := by
  obtain ⟨a, ha, hs⟩ := C181_round_trip hv (after := []) (by simp)
  obtain ⟨b, hb, ht⟩ := C181_round_trip hw (after := []) (by simp)
  rw [h, hb] at ha
  injection ha with ha
  subst ha
  exact ⟨b, hs, ht⟩

/-- An object with a nested array, an escaped key, a fraction and a negative integer. -/
example :
    let v : Value := .object [(txt "a\"\n", .array [.null, .bool true, .number (1 / 8), .array [], .object []]), (txt "b", .int (-7))]
    v.Valid ∧ serialize v = txt "{\"a\\\"\\n\":[null,true,0.125,[],{}],\"b\":-7}" := by
  refine ⟨?_, by decide +kernel⟩
  simp only [Value.Valid, ValidItems, ValidMembers]
  refine ⟨by decide, ⟨trivial, trivial, ⟨⟨1, -3, by norm_num, by norm_num⟩, ?_⟩, trivial, by decide, trivial⟩, by norm_num, trivial⟩
  exact (by norm_num [abs_of_pos] : |(1 / 8 : ℚ)| < 1).trans (one_lt_pow₀ (by norm_num) (by norm_num))

end Sumo.PicoJson
