import Verif.Lemmas.PicoJson
import Verif.Lemmas.Single

/-!
# The text of the metadata of a TIFF file (C179, C180)
-/

namespace Sumo.PicoJson

open Ply (Bytes txt)

theorem isDouble_of_isSingle32 {x : ℚ} (h : IsSingle32 x) : IsDouble x := by
  obtain ⟨m, e, hm, he⟩ := h
  exact ⟨m, e, hm.trans (by norm_num), he⟩

theorem ofValue_near {x : ℚ} (hx : IsSingle32 x) {v : Value} (hv : v.getDouble = .ok x) :
    ofValue (.object [(nearTag, v)]) = .ok (0, x) ∧ ofValue (.object [(nearTag, v), (versionTag, .int 1)]) = .ok (1, x) := by
  have h1 : nearOf [(nearTag, v)] = .ok x := by
    show v.getDouble.map single = _
    rw [hv]; show Except.ok (single x) = _; rw [single_of_isSingle32 hx]
  have h2 : nearOf [(nearTag, v), (versionTag, .int 1)] = .ok x := by
    show v.getDouble.map single = _
    rw [hv]; show Except.ok (single x) = _; rw [single_of_isSingle32 hx]
  constructor
  · rw [ofValue, h1]; rfl
  · rw [ofValue, h2]; rfl

/-- **C179**: for every finite near plane in single precision, the text that is written is read as version 1 and exactly this near
plane; text after the closing brace changes nothing. -/
theorem C179_round_trip {near : ℚ} (hs : IsSingle32 near) (hf : |near| < 2 ^ 128) (after : Bytes) :
    readMetadata (some (metadataText near ++ after)) = .ok (1, near) := by
  obtain ⟨v, hv, hg⟩ := parseText_metadataText (isDouble_of_isSingle32 hs) (hf.trans (pow_lt_pow_right₀ (by norm_num) (by norm_num))) after
  rw [readMetadata, hv]
  exact (ofValue_near hs hg).2

/-- Several numbers as they are written: the near plane 0.3 in single precision, a large and a small number, and an integer. -/
example :
    metadataText (10066330 / 2 ^ 25) = txt "{\"near\":0.30000001192092896,\"version\":1}" ∧
    metadataText (2 ^ 70) = txt "{\"near\":1.1805916207174113e+21,\"version\":1}" ∧
    metadataText (-1 / 2 ^ 20) = txt "{\"near\":-9.5367431640625e-07,\"version\":1}" ∧
    metadataText (1 / 2 ^ 10) = txt "{\"near\":0.0009765625,\"version\":1}" ∧
    metadataText 10 = txt "{\"near\":10,\"version\":1}" := by decide +kernel

example : IsSingle32 (10066330 / 2 ^ 25) ∧ |(10066330 / 2 ^ 25 : ℚ)| < 2 ^ 128 :=
  ⟨⟨10066330, -25, by norm_num, by norm_num⟩, by norm_num⟩

/-- **C179**: two near planes with the same text are equal. -/
theorem C179_injective {a b : ℚ} (ha : IsSingle32 a) (hb : IsSingle32 b) (ha' : |a| < 2 ^ 128) (hb' : |b| < 2 ^ 128)
    (h : metadataText a = metadataText b) : a = b := by
  have h1 := C179_round_trip ha ha' []
  have h2 := C179_round_trip hb hb' []
  rw [h, h2] at h1
  injection h1 with h1
  injection h1 with _ h1
  exact h1.symm

/-- **C179**: the text that is written is the description of the pages in `Verif.Model.Tiff`, where the text is left out. -/
theorem C179_description {near : ℚ} (hs : IsSingle32 near) (hf : |near| < 2 ^ 128) :
    describe (some (metadataText near)) = .object (some near) := by
  obtain ⟨v, hv, hg⟩ := parseText_metadataText (isDouble_of_isSingle32 hs) (hf.trans (pow_lt_pow_right₀ (by norm_num) (by norm_num))) []
  rw [List.append_nil] at hv
  rw [describe, hv]
  show (match v.getDouble with | .error _ => Tiff.Description.corrupt | .ok x => .object (some x)) = _
  rw [hg]

theorem describeValue_near (d : ℚ → ℚ) (v : Value) :
    (Tiff.readMetadata ⟨single, d⟩ (describeValue v)).toOption = (ofValue v).toOption.map Prod.snd := by
  cases v with
  | object l =>
    rw [describeValue, ofValue]
    cases versionOf l with
    | error e => rfl
    | ok n =>
      simp only [nearOf]
      cases l.lookup nearTag with
      | none => rfl
      | some v =>
        simp only
        cases v.getDouble <;> rfl
  | _ => rfl

/-- **C179**: for every text, the near plane (or a refusal) is that of `Verif.Model.Tiff` for its description. -/
theorem C179_near (d : ℚ → ℚ) (text : Option Bytes) :
    (Tiff.readMetadata ⟨single, d⟩ (describe text)).toOption = (readMetadata text).toOption.map Prod.snd := by
  cases text with
  | none => rfl
  | some s =>
    rw [describe, readMetadata]
    cases parseText s with
    | overflow => rfl
    | ok v r => exact describeValue_near d v
    | fail v => exact describeValue_near d v

/-- **C180** is false: a text that was cut off is accepted, with another near plane than the one that was written (0.25 is read as the
single nearest to 0.2, and the version as 0). -/
theorem C180_false : ¬ ∀ (near : ℚ) (text lost : Bytes) (r : ℤ × ℚ), IsSingle32 near → |near| < 2 ^ 128 →
    metadataText near = text ++ lost → readMetadata (some text) = .ok r → r.2 = near := by
  intro h
  have := h (1 / 4) (txt "{\"near\":0.2") (txt "5,\"version\":1}") (0, 13421773 / 67108864) ⟨1, -2, by norm_num, by norm_num⟩
    (by norm_num) (by decide +kernel) ?_
  · norm_num at this
  · have e : (match readMetadata (some (txt "{\"near\":0.2")) with
      | .ok r => decide (r = (0, 13421773 / 67108864))
      | .error _ => false) = true := by decide +kernel
    revert e
    cases readMetadata (some (txt "{\"near\":0.2")) with
    | error _ => intro e; exact absurd e (by simp)
    | ok r => intro e; rw [of_decide_eq_true e]

/-- **C180** is false for every near plane: the text without its end, which is no JSON, is accepted. -/
theorem C180_truncated_false {near : ℚ} (hs : IsSingle32 near) (hf : |near| < 2 ^ 128) :
    ∃ text lost : Bytes, metadataText near = text ++ lost ∧ (125 : UInt8) ∉ text ∧ readMetadata (some text) = .ok (0, near) := by
  obtain ⟨v, hv, hg⟩ := parseText_truncated (isDouble_of_isSingle32 hs) (hf.trans (pow_lt_pow_right₀ (by norm_num) (by norm_num)))
  refine ⟨123 :: 34 :: (nearTag ++ 34 :: 58 :: numberText near), 44 :: 34 :: (versionTag ++ 34 :: 58 :: 49 :: [125]), ?_, ?_, ?_⟩
  · rw [metadataText_eq]
    simp only [List.cons_append, List.append_assoc]
  · intro h
    simp only [List.mem_cons, List.mem_append] at h
    rcases h with h | h | h | h | h | h
    · exact absurd h (by decide)
    · exact absurd h (by decide)
    · exact absurd h (by decide)
    · exact absurd h (by decide)
    · exact absurd h (by decide)
    · exact absurd (numberText_chars near _ h) (by decide)
  · rw [readMetadata, hv]
    exact (ofValue_near hs hg).1

/-- **C180**, the part that holds: a text is only accepted if its first character after blanks is an opening brace. -/
theorem C180_brace_partial {text : Bytes} {r : ℤ × ℚ} (h : readMetadata (some text) = .ok r) :
    (text.dropWhile fun b => b ∈ [32, 9, 10, 13]).head? = some 123 := by
  have key : ∀ v, ofValue v = .ok r → ∃ l, v = .object l := by
    intro v hv
    cases v with
    | object l => exact ⟨l, rfl⟩
    | _ => exact absurd hv (by simp [ofValue])
  have hskip : (text.dropWhile fun b => b ∈ [32, 9, 10, 13]) = skipWs text := by
    unfold skipWs
    congr 1
    funext b
    simp [isBlank, Bool.or_assoc]
  rw [hskip]
  rw [readMetadata] at h
  unfold parseText at h
  cases hp : parse (2 * text.length + 2) .null text with
  | overflow => rw [hp] at h; exact absurd h (by simp)
  | ok v rest =>
    rw [hp] at h
    obtain ⟨l, rfl⟩ := key v h
    exact parse_object_head (l := l) (by rw [hp]; rfl)
  | fail v =>
    rw [hp] at h
    obtain ⟨l, rfl⟩ := key v h
    exact parse_object_head (l := l) (by rw [hp]; rfl)

/-- Nested values and escapes are read over; a type that is wrong, a number that is too large and no object are refused. -/
example :
    (match readMetadata (some (txt " {\"a\":[1, {\"\\u00e9\":true}, null],\"near\" : 3 ,\"version\":2} x")) with
      | .ok r => decide (r = (2, 3))
      | .error _ => false) = true ∧
    (match readMetadata (some (txt "{\"near\":\"1\"}")) with | .error e => decide (e = .runtimeError) | _ => false) = true ∧
    (match readMetadata (some (txt "{\"version\":1.0}")) with | .error e => decide (e = .runtimeError) | _ => false) = true ∧
    (match readMetadata (some (txt "{\"near\":1e999}")) with | .error e => decide (e = .overflowError) | _ => false) = true ∧
    (match readMetadata (some (txt "[1]")) with | .error e => decide (e = .runtimeError) | _ => false) = true := by decide +kernel

end Sumo.PicoJson
