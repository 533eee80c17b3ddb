import Verif.Spec.PicoJsonGrammar
import Verif.Props.PicoJsonString
import Verif.Props.PicoJsonText

/-! # C186: texts that are accepted as JSON -/

namespace Sumo.PicoJson

open Ply (Bytes txt isDigit)

theorem skipWs_split (s : Bytes) : ∃ w, Blanks w ∧ s = w ++ skipWs s := by
  refine ⟨s.takeWhile isBlank, fun b hb => ?_, (List.takeWhile_append_dropWhile (p := isBlank) (l := s)).symm⟩
  have := List.all_eq_true.mp (List.all_takeWhile (p := isBlank) (l := s)) b hb
  simp only [isBlank, Bool.or_eq_true, decide_eq_true_eq] at this
  simp only [List.mem_cons, List.not_mem_nil, or_false]
  tauto

theorem expect_split {c : UInt8} {s r : Bytes} (h : expect c s = some r) : ∃ w, Blanks w ∧ s = w ++ c :: r := by
  obtain ⟨w, hw, e⟩ := skipWs_split s
  unfold expect at h
  split at h
  · exact absurd h (by simp)
  · rename_i b t ht
    split_ifs at h with hb
    injection h with h
    subst h; subst hb
    exact ⟨w, hw, by rw [← ht]; exact e⟩

theorem matchText_split : ∀ {p s r : Bytes}, matchText p s = some r → s = p ++ r
  | [], s, r, h => by simpa [matchText] using h
  | _ :: _, [], _, h => by simp [matchText] at h
  | c :: p, b :: s, r, h => by
    simp only [matchText] at h
    split_ifs at h with hb
    rw [hb, matchText_split h, List.cons_append]

theorem literal_split {p : Bytes} {w out v : Value} {s r : Bytes} (h : literal p w out s = .ok v r) : s = p ++ r ∧ v = w := by
  unfold literal at h
  split at h
  · exact absurd h (by simp)
  · rename_i hm
    injection h with h1 h2
    subst h2
    exact ⟨matchText_split hm, h1.symm⟩

theorem numberChar_table : ∀ b : Fin 256, isNumberChar (UInt8.ofNat b) = true → UInt8.ofNat b ∈ txt "0123456789+-eE." := by
  decide +kernel

theorem firstChar_table : ∀ b : Fin 256, (isDigit (UInt8.ofNat b) || UInt8.ofNat b = 45) = true →
    isNumberChar (UInt8.ofNat b) = true ∧ UInt8.ofNat b ∈ txt "-0123456789" := by
  decide +kernel

theorem lookup_setMember (k key : Bytes) (v : Value) : ∀ l, (setMember key v l).lookup k = if k = key then some v else l.lookup k
  | [] => by
    by_cases h : k = key
    · simp [setMember, h]
    · have h3 : (k == key) = false := by simpa using h
      simp [setMember, List.lookup, h, h3]
  | (j, w) :: l => by
    by_cases h : j = key
    · subst h
      by_cases h2 : k = j
      · simp [setMember, h2]
      · have h3 : (k == j) = false := by simpa using h2
        simp [setMember, List.lookup, h2, h3]
    · by_cases h2 : k = j
      · subst h2
        simp [setMember, List.lookup, h]
      · have h3 : (k == j) = false := by simpa using h2
        simp only [setMember, h, if_false, List.lookup, h3]
        exact lookup_setMember k key v l

theorem mem_setMember {k key : Bytes} {v : Value} : ∀ {l}, k ∈ (setMember key v l).map Prod.fst → k = key ∨ k ∈ l.map Prod.fst
  | [], h => by simpa [setMember] using h
  | (j, w) :: l, h => by
    by_cases hj : j = key
    · simp only [setMember, hj, if_true, List.map_cons, List.mem_cons] at h ⊢
      tauto
    · simp only [setMember, hj, if_false, List.map_cons, List.mem_cons] at h ⊢
      rcases h with h | h
      · exact Or.inr (Or.inl h)
      · rcases mem_setMember h with h | h
        · exact Or.inl h
        · exact Or.inr (Or.inr h)

theorem nodup_setMember {key : Bytes} {v : Value} : ∀ {l}, (l.map Prod.fst).Nodup → ((setMember key v l).map Prod.fst).Nodup
  | [], _ => by simp [setMember]
  | (j, w) :: l, h => by
    simp only [List.map_cons, List.nodup_cons] at h
    by_cases hj : j = key
    · simp only [setMember, hj, if_true, List.map_cons, List.nodup_cons]
      exact hj ▸ h
    · simp only [setMember, hj, if_false, List.map_cons, List.nodup_cons]
      refine ⟨fun hm => ?_, nodup_setMember h.2⟩
      rcases mem_setMember hm with e | e
      · exact hj e
      · exact h.1 e

theorem fold_setMember : ∀ (ps l : List (Bytes × Value)), (l.map Prod.fst).Nodup →
    ((ps.foldl (fun l p => setMember p.1 p.2 l) l).map Prod.fst).Nodup ∧
    ∀ k, (ps.foldl (fun l p => setMember p.1 p.2 l) l).lookup k = (ps.reverse ++ l).lookup k
  | [], l, h => ⟨h, fun _ => rfl⟩
  | (key, v) :: ps, l, h => by
    obtain ⟨h1, h2⟩ := fold_setMember ps _ (nodup_setMember (key := key) (v := v) h)
    refine ⟨h1, fun k => ?_⟩
    rw [List.foldl_cons, h2 k, List.lookup_append, List.reverse_cons, List.append_assoc, List.lookup_append, lookup_setMember]
    congr 1
    by_cases hk : k = key
    · simp [hk]
    · have : (k == key) = false := by simpa using hk
      simp [List.lookup, hk, this]

theorem parseNumber_split {out v : Value} {c : UInt8} {s r w : Bytes} (hw : Blanks w) (hc : (isDigit c || c = 45) = true)
    (h : parseNumber out (c :: s) = .ok v r) : ∃ t, c :: s = t ++ r ∧ Text (w ++ t) v := by
  have hcc : isNumberChar c = true ∧ c ∈ txt "-0123456789" := by
    have := firstChar_table ⟨c.toNat, c.toNat_lt⟩
    rw [UInt8.ofNat_toNat] at this
    exact this hc
  have e : c :: s = (c :: s).takeWhile isNumberChar ++ (c :: s).dropWhile isNumberChar :=
    (List.takeWhile_append_dropWhile (p := isNumberChar)).symm
  have hall : ∀ b ∈ (c :: s).takeWhile isNumberChar, b ∈ txt "0123456789+-eE." := fun b hb => by
    have := numberChar_table ⟨b.toNat, b.toNat_lt⟩
    rw [UInt8.ofNat_toNat] at this
    exact this (List.all_eq_true.mp (List.all_takeWhile (p := isNumberChar) (l := c :: s)) b hb)
  have hhead : ∃ b ∈ ((c :: s).takeWhile isNumberChar).head?, b ∈ txt "-0123456789" := by
    rw [List.takeWhile_cons, if_pos hcc.1]
    exact ⟨c, rfl, hcc.2⟩
  unfold parseNumber at h
  simp only at h
  split at h
  · rename_i i hi
    injection h with h1 h2
    subst h1; subst h2
    refine ⟨_, e, .int hw hall hhead ?_⟩
    unfold strtoimax at hi
    split at hi
    · exact absurd hi (by simp)
    · split_ifs at hi with hr
      injection hi with hi
      subst hi
      omega
  · split at h
    · exact absurd h (by simp)
    · split at h
      · exact absurd h (by simp)
      · rename_i hx
        injection h with h1 h2
        subst h1; subst h2
        exact ⟨_, e, .number hw hall hhead (not_le.mp hx)⟩

theorem parsers_grammar : ∀ n : ℕ,
    (∀ out s v r, parse n out s = .ok v r → ∃ t, s = t ++ r ∧ Text t v) ∧
    (∀ l s v r, parseItems n l s = .ok v r → ∃ t l', s = t ++ r ∧ Items t l' ∧ v = .array (l ++ l')) ∧
    (∀ l s v r, parseMembers n l s = .ok v r →
      ∃ t ps, s = t ++ r ∧ Members t ps ∧ v = .object (ps.foldl (fun l p => setMember p.1 p.2 l) l))
  | 0 => by
    refine ⟨fun out s v r h => ?_, fun l s v r h => ?_, fun l s v r h => ?_⟩
    · rw [parse] at h; exact absurd h (by simp)
    · rw [parseItems] at h; exact absurd h (by simp)
    · rw [parseMembers] at h; exact absurd h (by simp)
  | n + 1 => by
    obtain ⟨i1, i2, i3⟩ := parsers_grammar n
    refine ⟨fun out s v r h => ?_, fun l s v r h => ?_, fun l s v r h => ?_⟩
    · rw [parse] at h
      split at h
      · exact absurd h (by simp)
      · rename_i c t ht
        obtain ⟨w, hw, hs⟩ := skipWs_split s
        rw [ht] at hs
        split_ifs at h with h1 h2 h3 h4 h5 h6 h7
        · obtain ⟨rfl, rfl⟩ := literal_split h
          exact ⟨_, by rw [hs, h1]; simp [txt], .null hw⟩
        · obtain ⟨rfl, rfl⟩ := literal_split h
          exact ⟨_, by rw [hs, h2]; simp [txt], .false hw⟩
        · obtain ⟨rfl, rfl⟩ := literal_split h
          exact ⟨_, by rw [hs, h3]; simp [txt], .true hw⟩
        · unfold stringValue at h
          split at h
          · rename_i o r' hp
            injection h with e1 e2
            subst e1; subst e2
            obtain ⟨body, rfl, hr⟩ := (C185_string _ _ _).mp hp
            exact ⟨_, by rw [hs, h4]; simp, .str hw hr⟩
          · exact absurd h (by simp)
        · split at h
          · rename_i he
            injection h with e1 e2
            subst e1; subst e2
            obtain ⟨u, hu, rfl⟩ := expect_split he
            exact ⟨_, by rw [hs, h5]; simp, .emptyArray hw hu⟩
          · obtain ⟨u, l', rfl, hl, rfl⟩ := i2 _ _ _ _ h
            exact ⟨w ++ 91 :: u, by rw [hs, h5]; simp, .array hw hl⟩
        · split at h
          · rename_i he
            injection h with e1 e2
            subst e1; subst e2
            obtain ⟨u, hu, rfl⟩ := expect_split he
            exact ⟨_, by rw [hs, h6]; simp, .emptyObject hw hu⟩
          · obtain ⟨u, ps, rfl, hl, rfl⟩ := i3 _ _ _ _ h
            have hf := fold_setMember ps [] (by simp)
            exact ⟨_, by rw [hs, h6]; simp, .object hw hl ⟨hf.1, fun k => by rw [hf.2 k, List.append_nil]⟩⟩
        · obtain ⟨u, e, hu⟩ := parseNumber_split hw h7 h
          exact ⟨_, by rw [hs, e, List.append_assoc], hu⟩
    · rw [parseItems] at h
      split at h
      · exact absurd h (by simp)
      · exact absurd h (by simp)
      · rename_i w t ht
        obtain ⟨a, rfl, ha⟩ := i1 _ _ _ _ ht
        split at h
        · rename_i he
          obtain ⟨b, hb, rfl⟩ := expect_split he
          obtain ⟨u, l', rfl, hl, rfl⟩ := i2 _ _ _ _ h
          exact ⟨_, _, by simp, .cons ha hb hl, by simp⟩
        · split at h
          · rename_i he
            obtain ⟨b, hb, rfl⟩ := expect_split he
            injection h with e1 e2
            subst e1; subst e2
            exact ⟨_, _, by simp, .last ha hb, rfl⟩
          · exact absurd h (by simp)
    · rw [parseMembers] at h
      split at h
      · exact absurd h (by simp)
      · rename_i t1 he1
        obtain ⟨w1, hw1, rfl⟩ := expect_split he1
        split at h
        · exact absurd h (by simp)
        · rename_i key t2 hk
          obtain ⟨body, rfl, hr⟩ := (C185_string _ _ _).mp hk
          split at h
          · exact absurd h (by simp)
          · rename_i t3 he3
            obtain ⟨w3, hw3, rfl⟩ := expect_split he3
            have hkey := Key.mk hw1 hr hw3
            split at h
            · exact absurd h (by simp)
            · exact absurd h (by simp)
            · rename_i w t4 ht
              obtain ⟨a, rfl, ha⟩ := i1 _ _ _ _ ht
              split at h
              · rename_i he
                obtain ⟨b, hb, rfl⟩ := expect_split he
                obtain ⟨u, ps, rfl, hl, rfl⟩ := i3 _ _ _ _ h
                exact ⟨_, _, by simp, .cons hkey ha hb hl, by simp⟩
              · split at h
                · rename_i he
                  obtain ⟨b, hb, rfl⟩ := expect_split he
                  injection h with e1 e2
                  subst e1; subst e2
                  exact ⟨_, _, by simp, .last hkey ha hb, rfl⟩
                · exact absurd h (by simp)

/-- **C186**: a text that is accepted begins with a value of the JSON grammar (its number texts aside), the value read is the one that text
stands for (for a key that occurs twice, with its last value), and what is left is the text after it. -/
theorem C186_accepted {s r : Bytes} {v : Value} (h : parseText s = .ok v r) : ∃ t, s = t ++ r ∧ Text t v :=
  (parsers_grammar _).1 _ _ _ _ h

/-- A nested text is accepted. -/
example : ∃ v, parseText (serialize (.object [(txt "a", .array [.null, .bool true, .array []]), (txt "b", .int (-7))]) ++ txt " x") =
    .ok v (txt " x") := by
  obtain ⟨w, hw, -⟩ := C181_round_trip (v := .object [(txt "a", .array [.null, .bool true, .array []]), (txt "b", .int (-7))])
    (by
      simp only [Value.Valid, ValidItems, ValidMembers]
      exact ⟨by decide, ⟨trivial, trivial, trivial, trivial⟩, by norm_num, trivial⟩) (after := txt " x") (by decide)
  exact ⟨w, hw⟩

end Sumo.PicoJson
