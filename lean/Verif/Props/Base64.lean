import Verif.Model.Base64
import Mathlib.Tactic.IntervalCases
import Mathlib.Tactic.Ring

/-!
# Binary data in JSON documents (C182)
-/

namespace Sumo.Base64

open Ply (Bytes txt)

theorem symbol_spec {i : ℕ} (h : i < 64) : position (symbol i) = i ∧ symbol i ≠ 61 ∧ isBase64 (symbol i) = true := by
  have key : ∀ n : Fin 64, position (symbol n.val) = n.val ∧ symbol n.val ≠ 61 ∧ isBase64 (symbol n.val) = true := by decide +kernel
  exact key ⟨i, h⟩

theorem first_lt {a : ℕ} (h : a < 256) : first a < 64 := by unfold first; omega
theorem second_lt {a b : ℕ} (h : b < 256) : second a b < 64 := by unfold second; omega
theorem third_lt {b c : ℕ} (h : c < 256) : third b c < 64 := by unfold third; omega
theorem fourth_lt (c : ℕ) : fourth c < 64 := by unfold fourth; omega

theorem byte1_spec (a : UInt8) {b : ℕ} (h : b < 256) : byte1 (first a.toNat) (second a.toNat b) = a := by
  have := a.toNat_lt
  have e : first a.toNat * 4 + second a.toNat b % 64 / 16 = a.toNat := by unfold first second; omega
  rw [byte1, e, UInt8.ofNat_toNat]

theorem byte2_spec {a : ℕ} (b : UInt8) {c : ℕ} (h : c < 256) : byte2 (second a b.toNat) (third b.toNat c) = b := by
  have := b.toNat_lt
  have e : second a b.toNat % 16 * 16 + third b.toNat c % 64 / 4 = b.toNat := by unfold second third; omega
  rw [byte2, e, UInt8.ofNat_toNat]

theorem byte3_spec {b : ℕ} (c : UInt8) : byte3 (third b c.toNat) (fourth c.toNat) = c := by
  have := c.toNat_lt
  have e : third b c.toNat % 4 * 64 + fourth c.toNat = c.toNat := by unfold third fourth; omega
  rw [byte3, e, UInt8.ofNat_toNat]

theorem take_symbol {i : ℕ} (h : i < 64) (r : Bytes) :
    (symbol i :: r).takeWhile (fun b => b ≠ 61 && isBase64 b) = symbol i :: r.takeWhile fun b => b ≠ 61 && isBase64 b := by
  obtain ⟨_, h1, h2⟩ := symbol_spec h
  rw [List.takeWhile_cons_of_pos (by simp [h1, h2])]

theorem take_pad (r : Bytes) : (61 :: r).takeWhile (fun b => b ≠ 61 && isBase64 b) = [] := by
  rw [List.takeWhile_cons_of_neg (by decide)]

/-- **C182**: all binary data are what their base64 text decodes to. -/
theorem C182_round_trip : ∀ data : Bytes, decode (encode data) = data
  | a :: b :: c :: r => by
    have ha := a.toNat_lt
    have hb := b.toNat_lt
    have hc := c.toNat_lt
    have ih := C182_round_trip r
    rw [decode] at ih
    rw [encode, decode, take_symbol (first_lt ha), take_symbol (second_lt hb), take_symbol (third_lt hc), take_symbol (fourth_lt _),
      decodeGroups, (symbol_spec (first_lt ha)).1, (symbol_spec (second_lt hb)).1, (symbol_spec (third_lt hc)).1,
      (symbol_spec (fourth_lt _)).1, byte1_spec a hb, byte2_spec b hc, byte3_spec c, ih]
  | [a, b] => by
    have ha := a.toNat_lt
    have hb := b.toNat_lt
    rw [encode, decode, take_symbol (first_lt ha), take_symbol (second_lt hb), take_symbol (third_lt (by norm_num)), take_pad,
      decodeGroups, (symbol_spec (first_lt ha)).1, (symbol_spec (second_lt hb)).1, (symbol_spec (third_lt (by norm_num))).1,
      byte1_spec a hb, byte2_spec b (by norm_num)]
  | [a] => by
    have ha := a.toNat_lt
    rw [encode, decode, take_symbol (first_lt ha), take_symbol (second_lt (by norm_num)), take_pad, decodeGroups,
      (symbol_spec (first_lt ha)).1, (symbol_spec (second_lt (by norm_num))).1, byte1_spec a (by norm_num)]
  | [] => rfl

/-- **C182**: the text has four characters for every three bytes begun. -/
theorem C182_length : ∀ data : Bytes, (encode data).length = 4 * ((data.length + 2) / 3)
  | a :: b :: c :: r => by
    have ih := C182_length r
    rw [encode]
    simp only [List.length_cons]
    rw [ih]
    omega
  | [a, b] => by simp [encode]
  | [a] => by simp [encode]
  | [] => rfl

/-- The examples of RFC 4648, section 10. -/
example : ([("", ""), ("f", "Zg=="), ("fo", "Zm8="), ("foo", "Zm9v"), ("foob", "Zm9vYg=="), ("fooba", "Zm9vYmE="),
    ("foobar", "Zm9vYmFy")].all fun p => decide (encode (txt p.1) = txt p.2)) = true := by decide +kernel

/-- Every byte of the text is one that JSON needs no escape for. -/
theorem C182_plain : ∀ (data : Bytes), ∀ b ∈ encode data, b ∈ txt "ABCDEFGHIJKLMNOPQRSTUVWXYZabcdefghijklmnopqrstuvwxyz0123456789+/="
  | data, b, hb => by
    have key : ∀ n : Fin 64, symbol n.val ∈ txt "ABCDEFGHIJKLMNOPQRSTUVWXYZabcdefghijklmnopqrstuvwxyz0123456789+/=" := by
      decide +kernel
    have sym : ∀ {i : ℕ}, i < 64 → symbol i ∈ txt "ABCDEFGHIJKLMNOPQRSTUVWXYZabcdefghijklmnopqrstuvwxyz0123456789+/=" :=
      fun h => key ⟨_, h⟩
    have pad : (61 : UInt8) ∈ txt "ABCDEFGHIJKLMNOPQRSTUVWXYZabcdefghijklmnopqrstuvwxyz0123456789+/=" := by decide +kernel
    match data, hb with
    | x :: y :: z :: r, hb =>
      rw [encode] at hb
      simp only [List.mem_cons] at hb
      rcases hb with rfl | rfl | rfl | rfl | hb
      · exact sym (first_lt x.toNat_lt)
      · exact sym (second_lt y.toNat_lt)
      · exact sym (third_lt z.toNat_lt)
      · exact sym (fourth_lt _)
      · exact C182_plain r b hb
    | [x, y], hb =>
      rw [encode] at hb
      simp only [List.mem_cons, List.not_mem_nil, or_false] at hb
      rcases hb with rfl | rfl | rfl | rfl
      · exact sym (first_lt x.toNat_lt)
      · exact sym (second_lt y.toNat_lt)
      · exact sym (third_lt (by norm_num))
      · exact pad
    | [x], hb =>
      rw [encode] at hb
      simp only [List.mem_cons, List.not_mem_nil, or_false] at hb
      rcases hb with rfl | rfl | rfl | rfl
      · exact sym (first_lt x.toNat_lt)
      · exact sym (second_lt (by norm_num))
      · exact pad
      · exact pad
    | [], hb => exact absurd hb (by simp [encode])

theorem tryHeaders_done (s : Bytes) (mime : String) {data : Bytes} (h : data ≠ []) :
    ∀ l : List (Bytes × Option String), tryHeaders s l mime data = (mime, data)
  | [] => rfl
  | (_, _) :: l => by rw [tryHeaders, if_neg (fun c => h c.1), tryHeaders_done s mime h l]

theorem tryHeaders_skip {s h : Bytes} {m : Option String} {l : List (Bytes × Option String)} {mime : String} {data : Bytes}
    (hp : h.isPrefixOf s = false) : tryHeaders s ((h, m) :: l) mime data = tryHeaders s l mime data := by
  rw [tryHeaders, if_neg (fun c => by rw [hp] at c; exact absurd c.2 (by decide))]

theorem isPrefixOf_append (h t : Bytes) : h.isPrefixOf (h ++ t) = true := by
  rw [List.isPrefixOf_iff_prefix]; exact List.prefix_append h t

theorem tryHeaders_hit {h t : Bytes} {m : Option String} {l : List (Bytes × Option String)} {mime : String} (hd : decode t ≠ []) :
    tryHeaders (h ++ t) ((h, m) :: l) mime [] = (m.getD mime, decode t) := by
  rw [tryHeaders, if_pos ⟨rfl, isPrefixOf_append h t⟩, List.drop_left, tryHeaders_done _ _ hd]

theorem headers_differ {h k t : Bytes} (hl : h.length ≤ k.length) (hp : h.isPrefixOf k = false) : h.isPrefixOf (k ++ t) = false := by
  by_contra c
  rw [Bool.not_eq_false, List.isPrefixOf_iff_prefix] at c
  have : h <+: k := List.prefix_of_prefix_length_le c (List.prefix_append k t) hl
  rw [← List.isPrefixOf_iff_prefix] at this
  rw [this] at hp
  exact absurd hp (by decide)

theorem headers_differ' {h k t : Bytes} (hl : k.length ≤ h.length) (hp : k.isPrefixOf h = false) : h.isPrefixOf (k ++ t) = false := by
  by_contra c
  rw [Bool.not_eq_false, List.isPrefixOf_iff_prefix] at c
  have : k <+: h := List.prefix_of_prefix_length_le (List.prefix_append k t) c hl
  rw [← List.isPrefixOf_iff_prefix] at this
  rw [this] at hp
  exact absurd hp (by decide)

/-- Two headers in the table: neither is the beginning of the other, or they are equal. -/
theorem headers_apart : ∀ p ∈ headers, ∀ q ∈ headers, p.1 ≠ q.1 → p.1.isPrefixOf q.1 = false ∧ q.1.isPrefixOf p.1 = false := by
  decide +kernel

theorem tryHeaders_all {h t : Bytes} {m : Option String} (hd : decode t ≠ []) (mime : String) (hh : (h, m) ∈ headers) :
    ∀ l : List (Bytes × Option String), (∀ p ∈ l, p ∈ headers) → (h, m) ∈ l → (l.map Prod.fst).Nodup →
      tryHeaders (h ++ t) l mime [] = (m.getD mime, decode t)
  | [], _, hm, _ => absurd hm (by simp)
  | (k, n) :: l, hl, hm, hn => by
    rw [List.map_cons, List.nodup_cons] at hn
    rcases List.mem_cons.1 hm with e | hm
    · injection e with e1 e2
      subst e1; subst e2
      exact tryHeaders_hit hd
    · have hne : k ≠ h := by
        rintro rfl
        exact hn.1 (List.mem_map.2 ⟨_, hm, rfl⟩)
      obtain ⟨a, b⟩ := headers_apart (k, n) (hl _ List.mem_cons_self) (h, m) hh hne
      have hp : k.isPrefixOf (h ++ t) = false := by
        rcases le_total k.length h.length with hle | hle
        · exact headers_differ hle a
        · exact headers_differ' hle b
      rw [tryHeaders_skip hp]
      exact tryHeaders_all hd mime hh l (fun p hp => hl p (List.mem_cons_of_mem _ hp)) hm hn.2

/-- **C182**: data behind any of the seven headers are decoded, with the type of the header (two headers leave the type as it was), exactly
if there are any and their number is the one that is required. -/
theorem C182_uri {header : Bytes} {type : Option String} (h : (header, type) ∈ headers) (data : Bytes) (mime : String)
    (size : Option ℕ) : decodeDataURI mime (header ++ encode data) size =
      if data ≠ [] ∧ (size = none ∨ size = some data.length) then some (type.getD mime, data) else none := by
  by_cases hd : data = []
  · subst hd
    rw [if_neg (fun c => c.1 rfl)]
    have : ∀ p ∈ headers, ∀ m : String, (tryHeaders (p.1 ++ []) headers m []).2 = [] := by
      have key : ∀ p ∈ headers, ((tryHeaders (p.1 ++ []) headers "" []).2 = []) := by decide +kernel
      have indep : ∀ (s : Bytes) (l : List (Bytes × Option String)) (m m' : String) (d : Bytes),
          (tryHeaders s l m d).2 = (tryHeaders s l m' d).2 := by
        intro s l
        induction l with
        | nil => intro m m' d; rfl
        | cons p l ih =>
          obtain ⟨k, n⟩ := p
          intro m m' d
          rw [tryHeaders, tryHeaders]
          split
          · exact ih _ _ _
          · exact ih _ _ _
      intro p hp m
      rw [indep _ _ m ""]
      exact key p hp
    have e : (tryHeaders (header ++ encode []) headers mime []).2 = [] := this _ h mime
    unfold decodeDataURI
    simp only
    rw [if_pos e]
  · have h1 : decode (encode data) ≠ [] := by rw [C182_round_trip]; exact hd
    have h2 := tryHeaders_all h1 mime h headers (fun _ hp => hp) h (by decide +kernel)
    rw [C182_round_trip] at h2
    unfold decodeDataURI
    simp only [h2]
    rw [if_neg hd]
    cases size with
    | none => simp [hd]
    | some n =>
      simp only
      by_cases hn : data.length = n
      · subst hn; simp [hd]
      · rw [if_neg hn, if_neg]
        rintro ⟨_, c | c⟩
        · exact absurd c (by simp)
        · exact hn (Option.some.inj c).symm

example : (txt "data:image/png;base64,", some "image/png") ∈ headers := by decide +kernel

end Sumo.Base64
