import Verif.Lemmas.PicoJson
import Verif.Spec.PicoJson

/-! # Helper lemmas for the text of any JSON value -/

namespace Sumo.PicoJson

open Ply (Bytes txt isDigit decimal)

/-! ### Strings -/

theorem hexValue_hexDigit {k : ℕ} (h : k < 16) : hexValue (hexDigit k) = some k := by
  interval_cases k <;> decide

theorem codepoint_control {b : UInt8} (h : b.toNat < 128) (t : Bytes) :
    codepoint (48 :: 48 :: hexDigit (b.toNat / 16) :: hexDigit (b.toNat % 16) :: t) = some ([b], t) := by
  have hq : quadHex (48 :: 48 :: hexDigit (b.toNat / 16) :: hexDigit (b.toNat % 16) :: t) = some (b.toNat, t) := by
    rw [quadHex, show hexValue 48 = some 0 by decide, hexValue_hexDigit (by omega), hexValue_hexDigit (by omega)]
    simp only [Option.bind_eq_bind, Option.bind_some]
    congr 2
    omega
  rw [codepoint, hq]
  simp only
  rw [if_neg (by omega), utf8, if_pos h, UInt8.ofNat_toNat]

theorem stringSteps_escape (n : ℕ) (out : Bytes) {e b : UInt8} (he : e ≠ 117) (h : escaped e = some b) (t : Bytes) :
    stringSteps (n + 1) out (92 :: e :: t) = stringSteps n (out ++ [b]) t := by
  rw [stringSteps.eq_def]
  simp only
  rw [if_neg (by decide), if_neg (by decide), if_pos (by decide), if_neg he, h]

theorem stringSteps_char (n : ℕ) (out : Bytes) (b : UInt8) (t : Bytes) :
    stringSteps (n + 1) out (charText b ++ t) = stringSteps n (out ++ [b]) t := by
  unfold charText
  split_ifs with h1 h2 h3 h4 h5 h6 h7 h8 h9
  · subst h1; exact stringSteps_escape n out (by decide) rfl t
  · subst h2; exact stringSteps_escape n out (by decide) rfl t
  · subst h3; exact stringSteps_escape n out (by decide) rfl t
  · subst h4; exact stringSteps_escape n out (e := 98) (by decide) rfl t
  · subst h5; exact stringSteps_escape n out (e := 102) (by decide) rfl t
  · subst h6; exact stringSteps_escape n out (e := 110) (by decide) rfl t
  · subst h7; exact stringSteps_escape n out (e := 114) (by decide) rfl t
  · subst h8; exact stringSteps_escape n out (e := 116) (by decide) rfl t
  · have hb : b.toNat < 128 := by
      rcases h9 with h | h
      · have := UInt8.lt_iff_toNat_lt.1 h
        have e : (32 : UInt8).toNat = 32 := rfl
        omega
      · rw [h]; decide
    show stringSteps (n + 1) out (92 :: 117 :: 48 :: 48 :: hexDigit (b.toNat / 16) :: hexDigit (b.toNat % 16) :: t) = _
    rw [stringSteps.eq_def]
    simp only
    rw [if_neg (by decide), if_neg (by decide), if_pos (by decide), if_pos (by decide), codepoint_control hb]
  · rw [not_or] at h9
    rw [List.cons_append, List.nil_append, stringSteps.eq_def]
    simp only
    rw [if_neg h9.1, if_neg h1, if_neg h2]

theorem charText_length (b : UInt8) : 1 ≤ (charText b).length := by
  unfold charText
  split_ifs <;> simp [txt]

theorem stringSteps_text (s : Bytes) : ∀ (n : ℕ) (out r : Bytes), (s.flatMap charText).length < n →
    stringSteps n out (s.flatMap charText ++ 34 :: r) = (out ++ s, some r) := by
  induction s with
  | nil => intro n out r h; exact stringSteps_plain (p := []) (by simp) n out r h
  | cons b s ih =>
    intro n out r h
    have hb := charText_length b
    rw [List.flatMap_cons, List.length_append] at h
    obtain ⟨k, rfl⟩ := Nat.exists_eq_add_one_of_ne_zero (by omega : n ≠ 0)
    rw [List.flatMap_cons, List.append_assoc, stringSteps_char, ih k _ _ (by omega), List.append_assoc]
    rfl

theorem parseString_text (s r : Bytes) : parseString (s.flatMap charText ++ 34 :: r) = (s, some r) := by
  rw [parseString, stringSteps_text s _ _ _ (by rw [List.length_append]; omega), List.nil_append]

/-! ### Numbers -/

theorem strtoimax_intText {i : ℤ} (h : -2 ^ 63 ≤ i ∧ i < 2 ^ 63) : strtoimax (intText i) = some i := by
  have h1 : intText i = signText (decide (i < 0)) ++ decimal i.natAbs := by
    unfold intText signText
    by_cases h : i < 0 <;> simp [h]
  rw [strtoimax, h1, wholeInt_digits _ (decimal_isDigit _) (decimal_ne_nil _), digitsNat_decimal]
  have h2 : applySign (decide (i < 0)) (i.natAbs : ℤ) = i := by
    unfold applySign
    by_cases h : i < 0
    · rw [if_pos (by simpa using h)]; omega
    · rw [if_neg (by simpa using h)]; omega
  simp only [h2]
  rw [if_pos ⟨h.1, by omega⟩]

theorem intText_chars (i : ℤ) : ∀ b ∈ intText i, isNumberChar b = true := by
  intro b hb
  unfold intText at hb
  rcases List.mem_append.1 hb with hb | hb
  · split at hb
    · rw [List.mem_singleton.1 hb]; decide
    · exact absurd hb (by simp)
  · exact isNumberChar_of_digit (decimal_isDigit _ b hb)

theorem intText_head (i : ℤ) : ∃ b r, intText i = b :: r ∧ (isDigit b || b = 45) = true := by
  have h1 : intText i = signText (decide (i < 0)) ++ decimal i.natAbs := by
    unfold intText signText
    by_cases h : i < 0 <;> simp [h]
  rw [h1]
  apply sign_head
  have := digits_cons_head (r := []) (decimal_ne_nil i.natAbs) (decimal_isDigit _)
  rwa [List.append_nil] at this

/-- What follows a value: nothing, or something that is no part of a number. -/
def Ends (r : Bytes) : Prop := ∀ b ∈ r.head?, isNumberChar b = false

theorem ends_split {r : Bytes} (h : Ends r) : r.takeWhile isNumberChar = [] ∧ r.dropWhile isNumberChar = r := by
  cases r with
  | nil => exact ⟨rfl, rfl⟩
  | cons c r =>
    have := h c rfl
    exact ⟨List.takeWhile_cons_of_neg (by simp [this]), List.dropWhile_cons_of_neg (by simp [this])⟩

/-- A text that begins like a number is parsed as a number. -/
theorem parse_number {n : ℕ} {out : Value} {t : Bytes} (ht : ∃ b r, t = b :: r ∧ (isDigit b || b = 45) = true) (r : Bytes) :
    parse (n + 1) out (t ++ r) = parseNumber out (t ++ r) := by
  obtain ⟨b, t, rfl, hbt⟩ := ht
  have hne : ∀ d : UInt8, (isDigit d || d = 45) = false → b ≠ d := by
    rintro d hd rfl
    rw [hbt] at hd
    exact absurd hd (by decide)
  have hbl : isBlank b = false := by
    unfold isBlank
    simp [hne 32 (by decide), hne 9 (by decide), hne 10 (by decide), hne 13 (by decide)]
  rw [parse, skipWs, List.cons_append, List.dropWhile_cons_of_neg (by simp [hbl])]
  simp only
  rw [if_neg (hne 110 (by decide)), if_neg (hne 102 (by decide)), if_neg (hne 116 (by decide)), if_neg (hne 34 (by decide)),
    if_neg (hne 91 (by decide)), if_neg (hne 123 (by decide)), if_pos hbt]

theorem parse_intText {n : ℕ} {out : Value} {i : ℤ} (h : -2 ^ 63 ≤ i ∧ i < 2 ^ 63) {r : Bytes} (hr : Ends r) :
    parse (n + 1) out (intText i ++ r) = .ok (.int i) r := by
  rw [parse_number (intText_head i), parseNumber]
  simp only [List.takeWhile_append_of_pos (intText_chars i), List.dropWhile_append_of_pos (intText_chars i), (ends_split hr).1,
    (ends_split hr).2, List.append_nil, strtoimax_intText h]

theorem same_number {x : ℚ} {v : Value} (h : v.getDouble = .ok x) : (Value.number x).Same v := by
  cases v with
  | int i =>
    rw [Value.getDouble] at h
    injection h with h
    rw [Value.Same]; exact h.symm
  | number y =>
    rw [Value.getDouble] at h
    injection h with h
    rw [Value.Same]; exact h.symm
  | _ => exact absurd h (by simp [Value.getDouble])

/-! ### All values -/

/-- The first character of a value. -/
theorem serialize_head (v : Value) : ∃ b r, serialize v = b :: r ∧ isBlank b = false ∧ b ≠ 93 := by
  have num : ∀ t : Bytes, (∃ b r, t = b :: r ∧ (isDigit b || b = 45) = true) → ∃ b r, t = b :: r ∧ isBlank b = false ∧ b ≠ 93 := by
    rintro t ⟨b, r, ht, hb⟩
    have hne : ∀ d : UInt8, (isDigit d || d = 45) = false → b ≠ d := by
      rintro d hd rfl
      rw [hb] at hd
      exact absurd hd (by decide)
    refine ⟨b, r, ht, ?_, hne 93 (by decide)⟩
    unfold isBlank
    simp [hne 32 (by decide), hne 9 (by decide), hne 10 (by decide), hne 13 (by decide)]
  cases v with
  | null => rw [serialize]; exact ⟨110, _, rfl, by decide, by decide⟩
  | bool b =>
    rw [serialize]
    cases b
    · exact ⟨102, _, rfl, by decide, by decide⟩
    · exact ⟨116, _, rfl, by decide, by decide⟩
  | int i => rw [serialize]; exact num _ (intText_head i)
  | number x => rw [serialize]; exact num _ (numberText_head x)
  | str s => rw [serialize]; exact ⟨34, _, rfl, by decide, by decide⟩
  | array l => rw [serialize]; exact ⟨91, _, rfl, by decide, by decide⟩
  | object l => rw [serialize]; exact ⟨123, _, rfl, by decide, by decide⟩

theorem serialize_pos (v : Value) : 1 ≤ (serialize v).length := by
  obtain ⟨b, r, h, _⟩ := serialize_head v
  rw [h, List.length_cons]; omega

theorem setMember_new {key : Bytes} {v : Value} : ∀ {l : List (Bytes × Value)}, key ∉ l.map Prod.fst → setMember key v l = l ++ [(key, v)]
  | [], _ => rfl
  | (k, w) :: l, h => by
    rw [List.map_cons, List.mem_cons, not_or] at h
    rw [setMember, if_neg (fun e => h.1 e.symm), setMember_new h.2]
    rfl

theorem lookup_new {key : Bytes} : ∀ {l : List (Bytes × Value)}, key ∉ l.map Prod.fst → l.lookup key = none
  | [], _ => rfl
  | (k, w) :: l, h => by
    rw [List.map_cons, List.mem_cons, not_or] at h
    rw [List.lookup_cons, show (key == k) = false from beq_eq_false_iff_ne.2 h.1]
    exact lookup_new h.2

theorem sameItems_keys : ∀ {a b : List (Bytes × Value)}, SameMembers a b → b.map Prod.fst = a.map Prod.fst
  | [], [], _ => rfl
  | (j, a) :: l, (k, b) :: r, h => by
    rw [SameMembers] at h
    rw [List.map_cons, List.map_cons, sameItems_keys h.2.2, h.1]
  | [], _ :: _, h => by rw [SameMembers] at h; exact h.elim; all_goals simp
  | _ :: _, [], h => by rw [SameMembers] at h; exact h.elim; all_goals simp

theorem ends_comma (r : Bytes) : Ends (44 :: r) := fun b hb => by obtain rfl := Option.some.inj hb; decide
theorem ends_bracket (r : Bytes) : Ends (93 :: r) := fun b hb => by obtain rfl := Option.some.inj hb; decide
theorem ends_brace (r : Bytes) : Ends (125 :: r) := fun b hb => by obtain rfl := Option.some.inj hb; decide

/-- By induction on the number of steps. -/
theorem parse_serialized : ∀ n : ℕ,
    (∀ v : Value, v.Valid → ∀ (out : Value) (r : Bytes), 2 * (serialize v).length + 1 ≤ n → Ends r →
      ∃ w, parse n out (serialize v ++ r) = .ok w r ∧ v.Same w) ∧
    (∀ (v : Value) (l : List Value), ValidItems (v :: l) → ∀ (acc : List Value) (r : Bytes),
      2 * (serializeItems (v :: l)).length + 2 ≤ n →
      ∃ w, parseItems n acc (serializeItems (v :: l) ++ 93 :: r) = .ok (.array (acc ++ w)) r ∧ SameItems (v :: l) w) ∧
    (∀ (key : Bytes) (v : Value) (l : List (Bytes × Value)), ValidMembers ((key, v) :: l) →
      ∀ (acc : List (Bytes × Value)) (r : Bytes),
      2 * (serializeMembers ((key, v) :: l)).length + 2 ≤ n → (acc.map Prod.fst ++ key :: l.map Prod.fst).Nodup →
      ∃ w, parseMembers n acc (serializeMembers ((key, v) :: l) ++ 125 :: r) = .ok (.object (acc ++ w)) r ∧
        SameMembers ((key, v) :: l) w)
  | 0 => ⟨fun _ _ _ _ h => absurd h (by omega), fun _ _ _ _ _ h => absurd h (by omega), fun _ _ _ _ _ _ h => absurd h (by omega)⟩
  | k + 1 => by
    obtain ⟨i1, i2, i3⟩ := parse_serialized k
    refine ⟨fun v hv out r hn hr => ?_, fun v l hv acc r hn => ?_, fun key v l hv acc r hn hd => ?_⟩
    · cases v with
      | null =>
        refine ⟨.null, ?_, by rw [Value.Same]; trivial⟩
        rw [serialize, parse]
        rfl
      | bool b =>
        refine ⟨.bool b, ?_, by rw [Value.Same]⟩
        rw [serialize, parse]
        cases b <;> rfl
      | int i =>
        rw [Value.Valid] at hv
        refine ⟨.int i, ?_, by rw [Value.Same]⟩
        rw [serialize, parse_intText hv hr]
      | number x =>
        rw [Value.Valid] at hv
        obtain ⟨w, hw, hg⟩ := parse_numberText hv.1 hv.2 k out hr
        refine ⟨w, ?_, same_number hg⟩
        rw [serialize, hw]
      | str s =>
        refine ⟨.str s, ?_, by rw [Value.Same]⟩
        have h1 : parse (k + 1) out (strText s ++ r) = stringValue (s.flatMap charText ++ 34 :: r) := by
          unfold strText
          simp only [List.append_assoc, List.cons_append, List.nil_append]
          rw [parse, skipWs, List.dropWhile_cons_of_neg (by decide)]
          rfl
        rw [serialize, h1, stringValue, parseString_text]
      | array l =>
        rw [Value.Valid] at hv
        rw [serialize] at hn ⊢
        simp only [List.length_append, List.length_cons, List.length_nil] at hn
        have h1 : ∀ t, parse (k + 1) out (91 :: t) = match expect 93 t with
            | some r => .ok (.array []) r
            | none => parseItems k [] t := by
          intro t
          rw [parse, skipWs, List.dropWhile_cons_of_neg (by decide)]
          rfl
        simp only [List.append_assoc, List.cons_append, List.nil_append]
        rw [h1]
        cases l with
        | nil =>
          rw [serializeItems, List.nil_append, expect_cons (by decide)]
          exact ⟨.array [], rfl, by rw [Value.Same, SameItems]; trivial⟩
        | cons v l =>
          obtain ⟨w, hw, hs⟩ := i2 v l hv [] r (by omega)
          have h2 : expect 93 (serializeItems (v :: l) ++ 93 :: r) = none := by
            obtain ⟨b, t, hb, hbl, hne⟩ := serialize_head v
            cases l with
            | nil => rw [serializeItems, hb, List.cons_append]; exact expect_ne hbl hne _
            | cons u l => rw [serializeItems, hb]; simp only [List.cons_append]; exact expect_ne hbl hne _
          rw [h2]
          exact ⟨.array w, hw, by rw [Value.Same]; exact hs⟩
      | object l =>
        rw [Value.Valid] at hv
        rw [serialize] at hn ⊢
        simp only [List.length_append, List.length_cons, List.length_nil] at hn
        have h1 : ∀ t, parse (k + 1) out (123 :: t) = match expect 125 t with
            | some r => .ok (.object []) r
            | none => parseMembers k [] t := by
          intro t
          rw [parse, skipWs, List.dropWhile_cons_of_neg (by decide)]
          rfl
        simp only [List.append_assoc, List.cons_append, List.nil_append]
        rw [h1]
        cases l with
        | nil =>
          rw [serializeMembers, List.nil_append, expect_cons (by decide)]
          exact ⟨.object [], rfl, by rw [Value.Same, SameMembers]; trivial⟩
        | cons m l =>
          obtain ⟨key, v⟩ := m
          obtain ⟨w, hw, hs⟩ := i3 key v l hv.2 [] r (by omega) (by simpa using hv.1)
          have h2 : expect 125 (serializeMembers ((key, v) :: l) ++ 125 :: r) = none := by
            cases l with
            | nil => rw [serializeMembers]; exact expect_ne (b := 34) (by decide) (by decide) _
            | cons u l => rw [serializeMembers]; exact expect_ne (b := 34) (by decide) (by decide) _
          rw [h2]
          exact ⟨.object w, hw, by rw [Value.Same]; exact hs⟩
    · cases l with
      | nil =>
        rw [ValidItems] at hv
        rw [serializeItems] at hn ⊢
        obtain ⟨w, hw, hs⟩ := i1 v hv.1 .null (93 :: r) (by omega) (ends_bracket r)
        refine ⟨[w], ?_, by rw [SameItems, SameItems]; exact ⟨hs, trivial⟩⟩
        rw [parseItems, hw]
        simp only
        rw [expect_ne (by decide) (by decide), expect_cons (by decide)]
      | cons u l =>
        rw [ValidItems] at hv
        rw [serializeItems] at hn ⊢
        simp only [List.length_append, List.length_cons, List.length_nil] at hn
        simp only [List.append_assoc, List.cons_append, List.nil_append]
        obtain ⟨w, hw, hs⟩ := i1 v hv.1 .null (44 :: (serializeItems (u :: l) ++ 93 :: r)) (by omega) (ends_comma _)
        obtain ⟨w', hw', hs'⟩ := i2 u l hv.2 (acc ++ [w]) r (by omega)
        refine ⟨w :: w', ?_, by rw [SameItems]; exact ⟨hs, hs'⟩⟩
        rw [parseItems, hw]
        simp only
        rw [expect_cons (by decide)]
        simp only
        rw [hw', List.append_assoc]
        rfl
    · cases l with
      | nil =>
        rw [ValidMembers] at hv
        rw [serializeMembers, strText] at hn ⊢
        simp only [List.length_append, List.length_cons, List.length_nil] at hn
        simp only [List.append_assoc, List.cons_append, List.nil_append]
        have hnew : key ∉ acc.map Prod.fst := fun h => (List.nodup_append.1 hd).2.2 key h key List.mem_cons_self rfl
        obtain ⟨w, hw, hs⟩ := i1 v hv.1 .null (125 :: r) (by omega) (ends_brace r)
        refine ⟨[(key, w)], ?_, by rw [SameMembers, SameMembers]; exact ⟨rfl, hs, trivial⟩⟩
        rw [parseMembers, expect_cons (by decide)]
        simp only
        rw [parseString_text]
        simp only
        rw [expect_cons (by decide)]
        simp only [lookup_new hnew, Option.getD_none]
        rw [hw]
        simp only
        rw [expect_ne (by decide) (by decide), expect_cons (by decide), setMember_new hnew]
      | cons m l =>
        obtain ⟨j, u⟩ := m
        rw [ValidMembers] at hv
        rw [serializeMembers, strText] at hn ⊢
        simp only [List.length_append, List.length_cons, List.length_nil] at hn
        simp only [List.append_assoc, List.cons_append, List.nil_append]
        have hnew : key ∉ acc.map Prod.fst := fun h => (List.nodup_append.1 hd).2.2 key h key List.mem_cons_self rfl
        obtain ⟨w, hw, hs⟩ := i1 v hv.1 .null (44 :: (serializeMembers ((j, u) :: l) ++ 125 :: r)) (by omega) (ends_comma _)
        obtain ⟨w', hw', hs'⟩ := i3 j u l hv.2 (acc ++ [(key, w)]) r (by omega) (by simpa using hd)
        refine ⟨(key, w) :: w', ?_, by rw [SameMembers]; exact ⟨rfl, hs, hs'⟩⟩
        rw [parseMembers, expect_cons (by decide)]
        simp only
        rw [parseString_text]
        simp only
        rw [expect_cons (by decide)]
        simp only [lookup_new hnew, Option.getD_none]
        rw [hw]
        simp only
        rw [expect_cons (by decide)]
        simp only [setMember_new hnew]
        rw [hw', List.append_assoc]
        rfl

end Sumo.PicoJson
