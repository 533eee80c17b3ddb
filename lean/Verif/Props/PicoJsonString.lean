import Verif.Lemmas.PicoJsonString

/-! # C185: exactly which strings are read from a JSON text, and as what -/

namespace Sumo.PicoJson

open Ply (Bytes txt)

/-- **C185**: after an opening quote, a string is read exactly if the text goes on with characters the JSON grammar allows and a
closing quote; it is read as what they stand for, in UTF-8, and reading goes on right after the quote. -/
theorem C185_string (s out r : Bytes) :
    parseString s = (out, some r) ↔ ∃ body, s = body ++ 34 :: r ∧ Reads body out := by
  constructor
  · intro h
    obtain ⟨body, m, rfl, hr, rfl⟩ := stringSteps_reads h
    exact ⟨body, rfl, by simpa using hr⟩
  · rintro ⟨body, rfl, hr⟩
    have := reads_stringSteps hr ((body ++ 34 :: r).length + 1) [] r (by simp)
    simpa [parseString] using this

/-- A string with an escape and a code point above 0xffff is read; one that ends in a backslash is not. -/
example : parseString (txt "a\\n\\uD83D\\ude00\",") = ([97, 10, 0xf0, 0x9f, 0x98, 0x80], some (txt ",")) := by decide +kernel

example : ¬ ∃ out r, parseString (txt "a\\") = (out, some r) := by
  rintro ⟨out, r, h⟩
  have e : (parseString (txt "a\\")).2 = none := by decide +kernel
  rw [h] at e
  cases e

end Sumo.PicoJson
