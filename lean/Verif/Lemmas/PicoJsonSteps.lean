import Verif.Lemmas.PicoJson

/-! # The bounds on the number of steps of the parser of `Verif.Model.PicoJson` do not matter -/

namespace Sumo.PicoJson

open Ply (Bytes txt isDigit)

theorem skipWs_length (s : Bytes) : (skipWs s).length ≤ s.length := (List.dropWhile_sublist _).length_le

theorem expect_length {c : UInt8} {s r : Bytes} (h : expect c s = some r) : r.length < s.length := by
  unfold expect at h
  split at h
  · exact absurd h (by simp)
  · rename_i b t ht
    have := skipWs_length s
    rw [ht, List.length_cons] at this
    split at h
    · obtain rfl := Option.some.inj h; omega
    · exact absurd h (by simp)

theorem matchText_length : ∀ {p s r : Bytes}, matchText p s = some r → r.length ≤ s.length
  | [], s, r, h => by rw [matchText] at h; obtain rfl := Option.some.inj h; exact le_refl _
  | c :: p, [], r, h => by rw [matchText] at h; exact absurd h (by simp)
  | c :: p, b :: s, r, h => by
    rw [matchText] at h
    split at h
    · have := matchText_length h
      rw [List.length_cons]; omega
    · exact absurd h (by simp)

theorem quadHex_length {s r : Bytes} {u : ℕ} (h : quadHex s = some (u, r)) : r.length ≤ s.length := by
  unfold quadHex at h
  split at h
  · simp only [Option.bind_eq_bind, Option.bind_eq_some_iff] at h
    obtain ⟨_, _, _, _, _, _, _, _, h⟩ := h
    injection h with h
    injection h with _ h
    subst h
    simp only [List.length_cons]; omega
  · exact absurd h (by simp)

theorem codepoint_length {s r b : Bytes} (h : codepoint s = some (b, r)) : r.length ≤ s.length := by
  unfold codepoint at h
  split at h
  · exact absurd h (by simp)
  · rename_i u t hu
    have h1 := quadHex_length hu
    split at h
    · split at h
      · exact absurd h (by simp)
      · split at h
        · exact absurd h (by simp)
        · rename_i t' ht'
          have h2 := matchText_length ht'
          split at h
          · exact absurd h (by simp)
          · rename_i v t'' hv
            have h3 := quadHex_length hv
            split at h
            · injection h with h
              injection h with _ h
              subst h; omega
            · exact absurd h (by simp)
    · injection h with h
      injection h with _ h
      subst h; omega

theorem stringSteps_length : ∀ {n : ℕ} {out s o r : Bytes}, stringSteps n out s = (o, some r) → r.length ≤ s.length
  | 0, out, s, o, r, h => by rw [stringSteps.eq_def] at h; exact absurd h (by simp)
  | n + 1, out, [], o, r, h => by rw [stringSteps.eq_def] at h; exact absurd h (by simp)
  | n + 1, out, c :: t, o, r, h => by
    rw [stringSteps.eq_def] at h
    simp only at h
    split_ifs at h
    · exact absurd h (by simp)
    · injection h with _ h
      injection h with h
      subst h; rw [List.length_cons]; omega
    · cases t with
      | nil => exact absurd h (by simp)
      | cons e t =>
        simp only at h
        split_ifs at h
        · cases hc : codepoint t with
          | none => rw [hc] at h; exact absurd h (by simp)
          | some q =>
            obtain ⟨b, q⟩ := q
            rw [hc] at h
            have h1 := codepoint_length hc
            have h2 := stringSteps_length h
            simp only [List.length_cons]; omega
        · cases hc : escaped e with
          | none => rw [hc] at h; exact absurd h (by simp)
          | some q =>
            rw [hc] at h
            have h2 := stringSteps_length h
            simp only [List.length_cons]; omega
    · have h2 := stringSteps_length h
      rw [List.length_cons]; omega

theorem parseString_length {s o r : Bytes} (h : parseString s = (o, some r)) : r.length ≤ s.length := stringSteps_length h

/-- More steps than characters change nothing. -/
theorem stringSteps_enough : ∀ (n : ℕ) (out s : Bytes), s.length < n → stringSteps (n + 1) out s = stringSteps n out s
  | 0, _, _, h => absurd h (by omega)
  | n + 1, out, [], h => by rw [stringSteps.eq_def, stringSteps.eq_def (n + 1)]
  | n + 1, out, c :: t, h => by
    rw [List.length_cons] at h
    rw [stringSteps.eq_def, stringSteps.eq_def (n + 1)]
    simp only
    split_ifs
    · rfl
    · rfl
    · cases t with
      | nil => rfl
      | cons e t =>
        rw [List.length_cons] at h
        simp only
        split_ifs
        · cases hc : codepoint t with
          | none => rfl
          | some q =>
            obtain ⟨b, q⟩ := q
            have h1 := codepoint_length hc
            exact stringSteps_enough n _ _ (by omega)
        · cases escaped e with
          | none => rfl
          | some q => exact stringSteps_enough n _ _ (by omega)
    · exact stringSteps_enough n _ _ (by omega)

theorem parseNumber_length {out v : Value} {s r : Bytes} (h : parseNumber out s = .ok v r) : r.length ≤ s.length := by
  have hd : (s.dropWhile isNumberChar).length ≤ s.length := (List.dropWhile_sublist _).length_le
  unfold parseNumber at h
  simp only at h
  split at h
  · injection h with _ h; subst h; exact hd
  · split at h
    · exact absurd h (by simp)
    · split at h
      · exact absurd h (by simp)
      · injection h with _ h; subst h; exact hd

theorem literal_length {p : Bytes} {w out v : Value} {s r : Bytes} (h : literal p w out s = .ok v r) : r.length ≤ s.length := by
  unfold literal at h
  split at h
  · exact absurd h (by simp)
  · rename_i hm
    injection h with _ h; subst h; exact matchText_length hm

theorem stringValue_length {v : Value} {s r : Bytes} (h : stringValue s = .ok v r) : r.length ≤ s.length := by
  unfold stringValue at h
  split at h
  · rename_i hm
    injection h with _ h; subst h; exact parseString_length hm
  · exact absurd h (by simp)

theorem parsers_length : ∀ n : ℕ,
    (∀ out s v r, parse n out s = .ok v r → r.length ≤ s.length) ∧
    (∀ l s v r, parseItems n l s = .ok v r → r.length ≤ s.length) ∧
    (∀ l s v r, parseMembers n l s = .ok v r → r.length ≤ s.length)
  | 0 => by
    refine ⟨fun out s v r h => ?_, fun l s v r h => ?_, fun l s v r h => ?_⟩
    · rw [parse] at h; exact absurd h (by simp)
    · rw [parseItems] at h; exact absurd h (by simp)
    · rw [parseMembers] at h; exact absurd h (by simp)
  | n + 1 => by
    obtain ⟨i1, i2, i3⟩ := parsers_length n
    refine ⟨fun out s v r h => ?_, fun l s v r h => ?_, fun l s v r h => ?_⟩
    · rw [parse] at h
      split at h
      · exact absurd h (by simp)
      · rename_i c t ht
        have hs := skipWs_length s
        rw [ht, List.length_cons] at hs
        split_ifs at h
        · have := literal_length h; omega
        · have := literal_length h; omega
        · have := literal_length h; omega
        · have := stringValue_length h; omega
        · split at h
          · rename_i he
            injection h with _ h; subst h
            have := expect_length he; omega
          · have := i2 _ _ _ _ h; omega
        · split at h
          · rename_i he
            injection h with _ h; subst h
            have := expect_length he; omega
          · have := i3 _ _ _ _ h; omega
        · have := parseNumber_length h
          rw [List.length_cons] at this; omega
    · rw [parseItems] at h
      split at h
      · exact absurd h (by simp)
      · exact absurd h (by simp)
      · rename_i w t ht
        have h1 := i1 _ _ _ _ ht
        split at h
        · rename_i he
          have h2 := expect_length he
          have h3 := i2 _ _ _ _ h; omega
        · split at h
          · rename_i he
            have h2 := expect_length he
            injection h with _ h; subst h; omega
          · exact absurd h (by simp)
    · rw [parseMembers] at h
      split at h
      · exact absurd h (by simp)
      · rename_i t1 he1
        have h1 := expect_length he1
        split at h
        · exact absurd h (by simp)
        · rename_i key t2 hk
          have h2 := parseString_length hk
          split at h
          · exact absurd h (by simp)
          · rename_i t3 he3
            have h3 := expect_length he3
            split at h
            · exact absurd h (by simp)
            · exact absurd h (by simp)
            · rename_i w t4 ht
              have h4 := i1 _ _ _ _ ht
              split at h
              · rename_i he
                have h5 := expect_length he
                have h6 := i3 _ _ _ _ h; omega
              · split at h
                · rename_i he
                  have h5 := expect_length he
                  injection h with _ h; subst h; omega
                · exact absurd h (by simp)

theorem parsers_enough : ∀ n : ℕ,
    (∀ out s, 2 * s.length + 1 ≤ n → parse (n + 1) out s = parse n out s) ∧
    (∀ l s, 2 * s.length + 2 ≤ n → parseItems (n + 1) l s = parseItems n l s) ∧
    (∀ l s, 2 * s.length + 2 ≤ n → parseMembers (n + 1) l s = parseMembers n l s)
  | 0 => ⟨fun _ _ h => absurd h (by omega), fun _ _ h => absurd h (by omega), fun _ _ h => absurd h (by omega)⟩
  | n + 1 => by
    obtain ⟨i1, i2, i3⟩ := parsers_enough n
    obtain ⟨l1, l2, l3⟩ := parsers_length n
    refine ⟨fun out s h => ?_, fun l s h => ?_, fun l s h => ?_⟩
    · rw [parse, parse]
      cases ht : skipWs s with
      | nil => rfl
      | cons c t =>
        have hs := skipWs_length s
        rw [ht, List.length_cons] at hs
        simp only
        rw [i2 [] t (by omega), i3 [] t (by omega)]
    · rw [parseItems, parseItems, i1 .null s (by omega)]
      cases hp : parse n .null s with
      | overflow => rfl
      | fail v => rfl
      | ok v r =>
        have h1 := l1 _ _ _ _ hp
        simp only
        cases he : expect 44 r with
        | none => rfl
        | some t =>
          have h2 := expect_length he
          exact i2 _ _ (by omega)
    · rw [parseMembers, parseMembers]
      cases he1 : expect 34 s with
      | none => rfl
      | some t1 =>
        have h1 := expect_length he1
        simp only
        rcases hk : parseString t1 with ⟨key, _ | t2⟩
        · rfl
        · have h2 := parseString_length hk
          simp only
          cases he3 : expect 58 t2 with
          | none => rfl
          | some t3 =>
            have h3 := expect_length he3
            simp only
            rw [i1 _ t3 (by omega)]
            cases hp : parse n ((l.lookup key).getD .null) t3 with
            | overflow => rfl
            | fail v => rfl
            | ok v r =>
              have h4 := l1 _ _ _ _ hp
              simp only
              cases he : expect 44 r with
              | none => rfl
              | some t =>
                have h5 := expect_length he
                exact i3 _ _ (by omega)

/-- More steps than `parseText` has give the same outcome. -/
theorem parseText_enough (s : Bytes) (n : ℕ) (h : 2 * s.length + 2 ≤ n) : parse n .null s = parseText s := by
  induction n, h using Nat.le_induction with
  | base => rfl
  | succ n h ih => rw [(parsers_enough n).1 .null s (by omega), ih]

/-- More steps than `parseString` has give the same outcome. -/
theorem parseString_enough (s : Bytes) (n : ℕ) (h : s.length + 1 ≤ n) : stringSteps n [] s = parseString s := by
  induction n, h using Nat.le_induction with
  | base => rfl
  | succ n h ih => rw [stringSteps_enough n [] s (by omega), ih]

end Sumo.PicoJson
