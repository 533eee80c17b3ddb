import Verif.Spec.Glb
import Verif.Lemmas.Dict
import Mathlib.Tactic.Ring
import Mathlib.Data.List.Forall2

/-! # Helper lemmas: binary glTF -/

namespace Sumo

theorem align4_spec (n : ℕ) : 4 ∣ align4 n ∧ n ≤ align4 n ∧ align4 n < n + 4 := by
  unfold align4; omega

theorem length_pad4 (l : List UInt8) : (pad4 l).length = align4 l.length := by
  unfold pad4
  rw [List.length_append, List.length_replicate]
  have := align4_spec l.length
  omega

theorem four_dvd_pad4 (l : List UInt8) : 4 ∣ (pad4 l).length := by
  rw [length_pad4]; exact (align4_spec _).1

theorem packU32_ok {n : ℕ} (h : n < 2 ^ 32) : ∃ b, packU32 n = .ok b ∧ ∀ l, readU32 (b ++ l) = some (n, l) := by
  refine ⟨_, if_pos h, fun l => ?_⟩
  simp only [List.cons_append, List.nil_append, readU32, Option.some.injEq, Prod.mk.injEq, and_true,
    UInt8.toNat_ofNat']
  omega

theorem packU32_length {n : ℕ} {b : List UInt8} (h : packU32 n = .ok b) : b.length = 4 := by
  unfold packU32 at h
  split_ifs at h
  injection h with h
  subst h; rfl

theorem packU32_lt {n : ℕ} {b : List UInt8} (h : packU32 n = .ok b) : n < 2 ^ 32 := by
  unfold packU32 at h
  split_ifs at h with h1
  exact h1

theorem filled_length {files : Files} {enc : BodyEncoder} (h : Filled files enc) :
    enc.length = enc.bytes.length ∧ 4 ∣ enc.length := by
  induction h with
  | empty => exact ⟨rfl, by simp [BodyEncoder.empty]⟩
  | @add enc enc' uri o n _ ha ih =>
    unfold BodyEncoder.addToBody at ha
    split at ha
    · cases ha
    · injection ha with ha
      injection ha with ha1 ha2
      subst ha1
      refine ⟨?_, ?_⟩
      · simp [BodyEncoder.bytes] at ih ⊢
        exact ih.1
      · exact Nat.dvd_add ih.2 (four_dvd_pad4 _)

theorem addToBody_ok {files : Files} {enc enc' : BodyEncoder} {uri : String} {o n : ℕ}
    (h : enc.addToBody files uri = .ok (enc', o, n)) : ∃ d, files uri = some d ∧ enc'.bytes = enc.bytes ++ pad4 d ∧
      enc'.length = enc.length + (pad4 d).length ∧ o = enc.length ∧ n = (pad4 d).length := by
  unfold BodyEncoder.addToBody at h
  split at h
  · cases h
  · rename_i d hd
    injection h with h
    injection h with h1 h2
    injection h2 with h2 h3
    subst h1 h2 h3
    exact ⟨d, hd, by simp [BodyEncoder.bytes], rfl, rfl, rfl⟩

/-- A slice inside the middle part. -/
theorem sliceBytes_mid (A d C : List UInt8) {o n : ℕ} (h : o + n ≤ d.length) :
    sliceBytes (A ++ pad4 d ++ C) (o + A.length) n = sliceBytes d o n := by
  unfold sliceBytes pad4
  rw [List.append_assoc, Nat.add_comm, ← List.drop_drop, List.drop_left, List.append_assoc, List.drop_append_of_le_length (by omega),
    List.take_append_of_le_length (by simp; omega)]

theorem sliceBytes_all (A d C : List UInt8) : sliceBytes (A ++ d ++ C) A.length d.length = d := by
  unfold sliceBytes
  rw [List.append_assoc, List.drop_left, List.take_left]

/-- What the loop over the buffers does. -/
theorem convertBuffers_ok {files : Files} : ∀ (bs : List GltfBuffer) (i : ℕ) (st : GlbState) (bs' : List GltfBuffer)
    (st' : GlbState), convertBuffers files bs i st = .ok (bs', st') → st.offset = st.enc.length →
    Filled files st.enc →
    Filled files st'.enc ∧ bs'.length = bs.length ∧
    (∀ k, k < i → st'.map.get? k = st.map.get? k) ∧
    ∃ C, st'.enc.bytes = st.enc.bytes ++ C ∧
    ∀ j b, bs[j]? = some b → ∃ u d A C', b.uri = some u ∧ files u = some d ∧ st'.enc.bytes = A ++ pad4 d ++ C' ∧
      st'.map.get? (i + j) = some A.length ∧ 4 ∣ A.length ∧ (i = 0 → j = 0 → st.enc.length = 0 → A.length = 0) := by
  intro bs
  induction bs with
  | nil =>
    intro i st bs' st' h _ hf
    injection h with h
    injection h with h1 h2
    subst h1 h2
    exact ⟨hf, rfl, fun _ _ => rfl, [], by simp, by simp⟩
  | cons b bs ih =>
    intro i st bs' st' h ho hf
    unfold convertBuffers at h
    cases hu : b.uri with
    | none => simp only [hu, entry, bind, Except.bind] at h; cases h
    | some u =>
      simp only [hu, entry, bind, Except.bind] at h
      cases ha : st.enc.addToBody files u with
      | error e => simp only [ha] at h; cases h
      | ok r =>
        obtain ⟨enc, o, n⟩ := r
        simp only [ha] at h
        cases hc : convertBuffers files bs (i + 1) ⟨enc, st.map.set i st.offset, st.offset + n⟩ with
        | error e => simp only [hc] at h; cases h
        | ok r =>
          obtain ⟨bs2, st2⟩ := r
          simp only [hc] at h
          injection h with h
          injection h with h1 h2
          subst h1 h2
          obtain ⟨d, hd, hb, hl, ho', hn⟩ := addToBody_ok ha
          obtain ⟨k1, k2, k3, C, k4, k5⟩ := ih (i + 1) _ bs2 st2 hc (by simp [ho, hl, hn]) (Filled.add hf ha)
          refine ⟨k1, by simp [k2], ?_, pad4 d ++ C, ?_, ?_⟩
          · intro k hk
            rw [k3 k (by omega)]
            exact Dict.get?_set_ne _ _ (by omega)
          · rw [k4, hb, List.append_assoc]
          · intro j b' hj
            cases j with
            | zero =>
              simp only [List.getElem?_cons_zero, Option.some.injEq] at hj
              subst hj
              refine ⟨u, d, st.enc.bytes, C, hu, hd, by rw [k4, hb], ?_, ?_, ?_⟩
              · rw [Nat.add_zero, k3 i (by omega), Dict.get?_set_self, ho, (filled_length hf).1]
              · rw [← (filled_length hf).1]; exact (filled_length hf).2
              · intro _ _ h0; rw [← (filled_length hf).1, h0]
            | succ j =>
              simp only [List.getElem?_cons_succ] at hj
              obtain ⟨u', d', A, C', a1, a2, a3, a4, a5, -⟩ := k5 j b' hj
              exact ⟨u', d', A, C', a1, a2, a3, by rw [← a4]; congr 1; omega, a5, fun _ h => by simp at h⟩

/-- What the loop over the images does. -/
theorem convertImages_ok {files : Files} {mime : String → Option String} : ∀ (ims : List GltfImage) (vs : List GltfView)
    (enc : BodyEncoder) (ims' : List GltfImage) (vs' : List GltfView) (enc' : BodyEncoder),
    convertImages files mime ims vs enc = .ok (ims', vs', enc') → Filled files enc →
    Filled files enc' ∧ ims'.length = ims.length ∧ (∃ C, enc'.bytes = enc.bytes ++ C) ∧
    (∃ ws, vs' = vs ++ ws ∧ ws.length = ims.length) ∧
    ∀ k im, ims[k]? = some im → ∃ u d A C, im.uri = some u ∧ u ≠ "" ∧ files u = some d ∧
      ims'[k]? = some ⟨none, some (vs.length + k), some (mime u)⟩ ∧
      vs'[vs.length + k]? = some ⟨some 0, some A.length, some (pad4 d).length⟩ ∧
      enc'.bytes = A ++ pad4 d ++ C ∧ enc.bytes.length ≤ A.length ∧ 4 ∣ A.length ∧
      ∀ k', k' < k → ∃ o n, vs'[vs.length + k']? = some ⟨some 0, some o, some n⟩ ∧ o + n ≤ A.length := by
  intro ims
  induction ims with
  | nil =>
    intro vs enc ims' vs' enc' h hf
    injection h with h
    injection h with h1 h2
    injection h2 with h2 h3
    subst h1 h2 h3
    exact ⟨hf, rfl, ⟨[], by simp⟩, ⟨[], by simp⟩, by simp⟩
  | cons im ims ih =>
    intro vs enc ims' vs' enc' h hf
    unfold convertImages at h
    cases hu : im.uri with
    | none => simp only [hu, entry, bind, Except.bind] at h; cases h
    | some u =>
      simp only [hu, entry, bind, Except.bind] at h
      split_ifs at h with hne
      cases ha : enc.addToBody files u with
      | error e => simp only [ha] at h; cases h
      | ok r =>
        obtain ⟨enc1, o, n⟩ := r
        simp only [ha] at h
        cases hc : convertImages files mime ims (vs ++ [⟨some 0, some o, some n⟩]) enc1 with
        | error e => simp only [hc] at h; cases h
        | ok r =>
          obtain ⟨ims2, vs2, enc2⟩ := r
          simp only [hc] at h
          injection h with h
          injection h with h1 h2
          injection h2 with h2 h3
          subst h1 h2 h3
          obtain ⟨d, hd, hb, hl, ho', hn⟩ := addToBody_ok ha
          obtain ⟨k1, k2, ⟨C, k3⟩, ⟨ws, k4, k5⟩, k6⟩ := ih _ _ _ _ _ hc (Filled.add hf ha)
          have hfirst : vs2[vs.length]? = some ⟨some 0, some o, some n⟩ := by
            rw [k4, List.append_assoc, List.getElem?_append_right (by omega)]
            simp
          refine ⟨k1, by simp [k2], ⟨pad4 d ++ C, by rw [k3, hb, List.append_assoc]⟩,
            ⟨⟨some 0, some o, some n⟩ :: ws, by rw [k4]; simp, by simp [k5]⟩, ?_⟩
          intro k im' hk
          cases k with
          | zero =>
            simp only [List.getElem?_cons_zero, Option.some.injEq] at hk
            subst hk
            refine ⟨u, d, enc.bytes, C, hu, hne, hd, by simp, ?_, by rw [k3, hb], le_refl _, ?_, by simp⟩
            · rw [Nat.add_zero, hfirst, ho', hn, (filled_length hf).1]
            · rw [← (filled_length hf).1]; exact (filled_length hf).2
          | succ k =>
            simp only [List.getElem?_cons_succ] at hk
            obtain ⟨u', d', A, C', a1, a2, a3, a4, a5, a6, a7, a8, a9⟩ := k6 k im' hk
            simp only [List.length_append, List.length_cons, List.length_nil] at a4 a5 a9
            refine ⟨u', d', A, C', a1, a2, a3, ?_, ?_, a6, ?_, a8, ?_⟩
            · rw [List.getElem?_cons_succ, a4]; congr 3; omega
            · rw [← a5]; congr 1; omega
            · rw [hb, List.length_append] at a7; omega
            · intro k' hk'
              cases k' with
              | zero =>
                refine ⟨o, n, hfirst, ?_⟩
                rw [hb, List.length_append] at a7
                rw [ho', hn, (filled_length hf).1]; exact a7
              | succ k' =>
                obtain ⟨o2, n2, b1, b2⟩ := a9 k' (by omega)
                exact ⟨o2, n2, by rw [← b1]; congr 1; omega, b2⟩

end Sumo
