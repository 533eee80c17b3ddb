import Verif.Spec.PicoJsonString
import Mathlib.Tactic.IntervalCases

/-! # Lemmas about the strings of JSON texts -/

namespace Sumo.PicoJson

open Ply (Bytes txt)

theorem hexValue_lt {a : UInt8} {x : ℕ} (h : hexValue a = some x) : x < 16 := by
  unfold hexValue at h
  split_ifs at h with h1 h2 h3
  all_goals
    injection h with h
    subst h
    simp only [UInt8.le_iff_toNat_le, UInt8.reduceToNat] at *
    omega

theorem Hex.lt {a : UInt8} {x : ℕ} (h : Hex a x) : x < 16 := by
  rcases h with h | h
  · exact (List.getElem?_eq_some_iff.mp h).1
  · exact (List.getElem?_eq_some_iff.mp h).1

theorem hex_table : ∀ a : Fin 256, ∀ x : Fin 16, (hexValue (UInt8.ofNat a) = some x.val ↔ Hex (UInt8.ofNat a) x.val) := by
  decide +kernel

theorem hexValue_iff {a : UInt8} {x : ℕ} : hexValue a = some x ↔ Hex a x := by
  have key : x < 16 → (hexValue a = some x ↔ Hex a x) := fun hx => by
    have h := hex_table ⟨a.toNat, a.toNat_lt⟩ ⟨x, hx⟩
    simpa using h
  exact ⟨fun h => (key (hexValue_lt h)).mp h, fun h => (key h.lt).mpr h⟩

theorem quadHex_iff {s r : Bytes} {u : ℕ} : quadHex s = some (u, r) ↔ ∃ h, s = h ++ r ∧ Hex4 h u := by
  constructor
  · intro h
    unfold quadHex at h
    split at h
    · rename_i a b c d t
      simp only [Option.bind_eq_bind, Option.bind_eq_some_iff] at h
      obtain ⟨x, hx, y, hy, z, hz, w, hw, h⟩ := h
      injection h with h
      injection h with h1 h2
      subst h2
      exact ⟨[a, b, c, d], rfl, a, b, c, d, x, y, z, w, rfl, hexValue_iff.mp hx, hexValue_iff.mp hy, hexValue_iff.mp hz,
        hexValue_iff.mp hw, h1.symm⟩
    · exact absurd h (by simp)
  · rintro ⟨h, rfl, a, b, c, d, x, y, z, w, rfl, hx, hy, hz, hw, rfl⟩
    simp only [List.cons_append, List.nil_append, quadHex, hexValue_iff.mpr hx, hexValue_iff.mpr hy, hexValue_iff.mpr hz,
      hexValue_iff.mpr hw, Option.bind_eq_bind, Option.bind_some]

theorem Hex4.lt {h : Bytes} {u : ℕ} (k : Hex4 h u) : u < 0x10000 := by
  obtain ⟨a, b, c, d, x, y, z, w, -, hx, hy, hz, hw, rfl⟩ := k
  have := hx.lt; have := hy.lt; have := hz.lt; have := hw.lt
  omega

theorem utf8_char (c : Char) : utf8 c.toNat = String.utf8EncodeChar c := by
  have hv : c.toNat < 0x110000 := by
    rcases c.valid with h | h
    · exact lt_trans h (by decide)
    · exact h.2
  unfold utf8 String.utf8EncodeChar
  change _ = (if c.toNat ≤ 127 then [UInt8.ofNat c.toNat]
    else if c.toNat ≤ 2047 then [UInt8.ofNat (c.toNat / 64 % 32 + 192), UInt8.ofNat (c.toNat % 64 + 128)]
    else if c.toNat ≤ 65535 then [UInt8.ofNat (c.toNat / 4096 % 16 + 224), UInt8.ofNat (c.toNat / 64 % 64 + 128),
      UInt8.ofNat (c.toNat % 64 + 128)]
    else [UInt8.ofNat (c.toNat / 262144 % 8 + 240), UInt8.ofNat (c.toNat / 4096 % 64 + 128),
      UInt8.ofNat (c.toNat / 64 % 64 + 128), UInt8.ofNat (c.toNat % 64 + 128)])
  generalize c.toNat = u at *
  by_cases h1 : u < 0x80
  · rw [if_pos h1, if_pos (by omega)]
  rw [if_neg h1, if_neg (by omega : ¬ u ≤ 127)]
  by_cases h2 : u < 0x800
  · rw [if_pos h2, if_pos (by omega), show 0xc0 + u / 64 = u / 64 % 32 + 192 by omega, Nat.add_comm 0x80]
  rw [if_neg h2, if_neg (by omega : ¬ u ≤ 2047)]
  by_cases h3 : u < 0x10000
  · rw [if_pos h3, if_pos (by omega), show 0xe0 + u / 4096 = u / 4096 % 16 + 224 by omega, Nat.add_comm 0x80, Nat.add_comm 0x80]
  rw [if_neg h3, if_neg (by omega : ¬ u ≤ 65535), show 0xf0 + u / 262144 = u / 262144 % 8 + 240 by omega, Nat.add_comm 0x80,
    Nat.add_comm 0x80, Nat.add_comm 0x80]

theorem exists_char {u : ℕ} (h : u < 0xd800 ∨ (0xdfff < u ∧ u < 0x110000)) : ∃ c : Char, c.toNat = u := by
  refine ⟨Char.ofNatAux u h, ?_⟩
  simp [Char.toNat, Char.ofNatAux]

theorem char_range (c : Char) : c.toNat < 0xd800 ∨ (0xdfff < c.toNat ∧ c.toNat < 0x110000) := c.valid

theorem codepoint_iff {s r b : Bytes} : codepoint s = some (b, r) ↔
    (∃ (h : Bytes) (c : Char), s = h ++ r ∧ Hex4 h c.toNat ∧ b = String.utf8EncodeChar c) ∨
    (∃ (h l : Bytes) (c : Char) (hi lo : ℕ), s = h ++ 92 :: 117 :: (l ++ r) ∧ Hex4 h hi ∧ Hex4 l lo ∧
      (0xd800 ≤ hi ∧ hi < 0xdc00) ∧ (0xdc00 ≤ lo ∧ lo ≤ 0xdfff) ∧
      c.toNat = 0x10000 + (hi - 0xd800) * 0x400 + (lo - 0xdc00) ∧ b = String.utf8EncodeChar c) := by
  constructor
  · intro h
    unfold codepoint at h
    split at h
    · exact absurd h (by simp)
    · rename_i u t hu
      obtain ⟨hs, rfl, hx⟩ := quadHex_iff.mp hu
      have hlt := Hex4.lt hx
      split at h
      · split at h
        · exact absurd h (by simp)
        · split at h
          · exact absurd h (by simp)
          · rename_i t' ht'
            have e : t = 92 :: 117 :: t' := by
              rcases t with _ | ⟨p, _ | ⟨q, t⟩⟩
              · simp [matchText] at ht'
              · simp [matchText] at ht'
              · simp only [matchText] at ht'
                split_ifs at ht' with e1 e2
                injection ht' with e3
                rw [e1, e2, e3]
            subst e
            split at h
            · exact absurd h (by simp)
            · rename_i v t'' hv
              obtain ⟨ls, rfl, hy⟩ := quadHex_iff.mp hv
              split at h
              · injection h with h
                injection h with h1 h2
                subst h2
                obtain ⟨c, hc⟩ := exists_char (u := (u - 0xd800) * 1024 + (v - 0xdc00) + 0x10000) (by omega)
                refine Or.inr ⟨hs, ls, c, u, v, rfl, hx, hy, by omega, by omega, by omega, ?_⟩
                rw [← h1, ← hc, utf8_char]
              · exact absurd h (by simp)
      · injection h with h
        injection h with h1 h2
        subst h2
        obtain ⟨c, hc⟩ := exists_char (u := u) (by omega)
        exact Or.inl ⟨hs, c, rfl, hc ▸ hx, by rw [← h1, ← hc, utf8_char]⟩
  · rintro (⟨h, c, rfl, hh, rfl⟩ | ⟨h, l, c, hi, lo, rfl, hh, hl, h1, h2, hc, rfl⟩)
    · have := char_range c
      unfold codepoint
      rw [quadHex_iff.mpr ⟨h, rfl, hh⟩]
      simp only
      rw [if_neg (by omega), utf8_char]
    · unfold codepoint
      rw [quadHex_iff.mpr ⟨h, rfl, hh⟩]
      simp only
      rw [if_pos (by omega), if_neg (by omega)]
      simp only [matchText, if_true]
      rw [quadHex_iff.mpr ⟨l, rfl, hl⟩]
      simp only
      rw [if_pos (by omega), ← utf8_char, hc,
        show (hi - 0xd800) * 1024 + (lo - 0xdc00) + 0x10000 = 0x10000 + (hi - 0xd800) * 0x400 + (lo - 0xdc00) by
          generalize (hi - 0xd800) * 1024 = p
          omega]

theorem escaped_iff {e b : UInt8} : escaped e = some b ↔
    (e, b) ∈ [((34 : UInt8), (34 : UInt8)), (92, 92), (47, 47), (98, 8), (102, 12), (110, 10), (114, 13), (116, 9)] := by
  simp only [List.mem_cons, Prod.mk.injEq, List.not_mem_nil, or_false]
  constructor
  · intro h
    unfold escaped at h
    split_ifs at h <;> simp_all
  · rintro (⟨rfl, rfl⟩ | ⟨rfl, rfl⟩ | ⟨rfl, rfl⟩ | ⟨rfl, rfl⟩ | ⟨rfl, rfl⟩ | ⟨rfl, rfl⟩ | ⟨rfl, rfl⟩ | ⟨rfl, rfl⟩) <;> rfl

theorem stringSteps_reads : ∀ {n : ℕ} {out s o r : Bytes}, stringSteps n out s = (o, some r) →
    ∃ body m, s = body ++ 34 :: r ∧ Reads body m ∧ o = out ++ m
  | 0, out, s, o, r, h => by rw [stringSteps.eq_def] at h; exact absurd h (by simp)
  | n + 1, out, [], o, r, h => by rw [stringSteps.eq_def] at h; exact absurd h (by simp)
  | n + 1, out, c :: t, o, r, h => by
    rw [stringSteps.eq_def] at h
    simp only at h
    split_ifs at h with h1 h2 h3
    · exact absurd h (by simp)
    · injection h with h4 h
      injection h with h
      subst h; subst h2; subst h4
      exact ⟨[], [], rfl, .done, by simp⟩
    · subst h3
      cases t with
      | nil => exact absurd h (by simp)
      | cons e t =>
        simp only at h
        split_ifs at h with h4
        · subst h4
          cases hc : codepoint t with
          | none => rw [hc] at h; exact absurd h (by simp)
          | some q =>
            obtain ⟨b, q⟩ := q
            rw [hc] at h
            obtain ⟨body, m, rfl, hr, rfl⟩ := stringSteps_reads h
            rcases codepoint_iff.mp hc with ⟨hs, c, rfl, hh, rfl⟩ | ⟨hs, ls, c, hi, lo, rfl, hh, hl, k1, k2, k3, rfl⟩
            · exact ⟨_, _, by simp, .unicode hh hr, by simp⟩
            · exact ⟨_, _, by simp, .pair hh hl k1 k2 k3 hr, by simp⟩
        · cases hc : escaped e with
          | none => rw [hc] at h; exact absurd h (by simp)
          | some q =>
            rw [hc] at h
            obtain ⟨body, m, rfl, hr, rfl⟩ := stringSteps_reads h
            exact ⟨_, _, by simp, .escape (escaped_iff.mp hc) hr, by simp⟩
    · obtain ⟨body, m, rfl, hr, rfl⟩ := stringSteps_reads h
      exact ⟨_, _, by simp, .plain (UInt8.not_lt.mp h1) h2 h3 hr, by simp⟩

theorem reads_stringSteps {body m : Bytes} (hr : Reads body m) : ∀ (n : ℕ) (out r : Bytes), body.length < n →
    stringSteps n out (body ++ 34 :: r) = (out ++ m, some r) := by
  induction hr with
  | done =>
    intro n out r hn
    obtain ⟨n, rfl⟩ : ∃ k, n = k + 1 := ⟨n - 1, by omega⟩
    rw [stringSteps.eq_def]
    simp
  | @plain b t o h h1 h2 _ ih =>
    intro n out r hn
    obtain ⟨n, rfl⟩ : ∃ k, n = k + 1 := ⟨n - 1, by omega⟩
    simp only [List.length_cons] at hn
    rw [stringSteps.eq_def]
    simp only [List.cons_append]
    rw [if_neg (UInt8.not_lt.mpr h), if_neg h1, if_neg h2, ih n _ r (by omega)]
    simp
  | @escape e b t o h _ ih =>
    intro n out r hn
    obtain ⟨n, rfl⟩ : ∃ k, n = k + 1 := ⟨n - 1, by omega⟩
    simp only [List.length_cons] at hn
    have he : e ≠ 117 := by
      rintro rfl
      exact absurd (escaped_iff.mpr h) (by simp [escaped])
    rw [stringSteps.eq_def]
    simp only [List.cons_append]
    rw [if_neg (by decide), if_neg (by decide), if_pos trivial, if_neg he, escaped_iff.mpr h]
    simp only
    rw [ih n _ r (by omega)]
    simp
  | @unicode h t o c hh _ ih =>
    intro n out r hn
    obtain ⟨n, rfl⟩ : ∃ k, n = k + 1 := ⟨n - 1, by omega⟩
    simp only [List.length_cons, List.length_append] at hn
    rw [stringSteps.eq_def]
    simp only [List.cons_append, List.append_assoc]
    rw [if_neg (by decide), if_neg (by decide), if_pos trivial, if_pos trivial,
      codepoint_iff.mpr (Or.inl ⟨h, c, rfl, hh, rfl⟩)]
    simp only
    rw [ih n _ r (by omega)]
    simp
  | @pair h l t o c hi lo hh hl h1 h2 hc _ ih =>
    intro n out r hn
    obtain ⟨n, rfl⟩ : ∃ k, n = k + 1 := ⟨n - 1, by omega⟩
    simp only [List.length_cons, List.length_append] at hn
    rw [stringSteps.eq_def]
    simp only [List.cons_append, List.append_assoc]
    rw [if_neg (by decide), if_neg (by decide), if_pos trivial, if_pos trivial,
      codepoint_iff.mpr (Or.inr ⟨h, l, c, hi, lo, rfl, hh, hl, h1, h2, hc, rfl⟩)]
    simp only
    rw [ih n _ r (by omega)]
    simp

end Sumo.PicoJson
