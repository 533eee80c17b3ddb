import Verif.Lemmas.Glb

/-! # Binary glTF files (C66, C67) -/

namespace Sumo

/-! ### C66: well-formed files -/

/-- **C66.** Whatever has been added to the body, the exported bytes are read back by a GLB parser: the JSON chunk is the header,
followed by at most three spaces, and the binary chunk is the body. -/
theorem C66_well_formed {files : Files} {enc : BodyEncoder} (hf : Filled files enc) (header out : List UInt8)
    (h : exportString header enc = .ok out) :
    ∃ k, k < 4 ∧ parseGlb out = some (header ++ List.replicate k 32, enc.bytes) := by
  obtain ⟨hlen, hdvd⟩ := filled_length hf
  unfold exportString at h
  dsimp only at h
  have hsz : 12 + 8 + (pad4 header).length + 8 + enc.length < 2 ^ 32 := by
    by_contra hn
    have : packU32 (12 + 8 + (pad4 header).length + 8 + enc.length) = .error .structError := if_neg hn
    obtain ⟨b1, e1, -⟩ := packU32_ok (n := 0x46546C67) (by decide)
    obtain ⟨b2, e2, -⟩ := packU32_ok (n := 2) (by decide)
    simp only [e1, e2, this, bind, Except.bind] at h
    cases h
  obtain ⟨b1, e1, r1⟩ := packU32_ok (n := 0x46546C67) (by decide)
  obtain ⟨b2, e2, r2⟩ := packU32_ok (n := 2) (by decide)
  obtain ⟨b3, e3, r3⟩ := packU32_ok hsz
  obtain ⟨b4, e4, r4⟩ := packU32_ok (n := (pad4 header).length) (by omega)
  obtain ⟨b5, e5, r5⟩ := packU32_ok (n := 0x4E4F534A) (by decide)
  obtain ⟨b6, e6, r6⟩ := packU32_ok (n := enc.length) (by omega)
  obtain ⟨b7, e7, r7⟩ := packU32_ok (n := 0x004E4942) (by decide)
  have l1 := packU32_length e1
  have l2 := packU32_length e2
  have l3 := packU32_length e3
  have l4 := packU32_length e4
  have l5 := packU32_length e5
  have l6 := packU32_length e6
  have l7 := packU32_length e7
  simp only [e1, e2, e3, e4, e5, e6, e7, bind, Except.bind] at h
  injection h with h
  subst h
  refine ⟨align4 header.length - header.length, by have := align4_spec header.length; omega, ?_⟩
  unfold parseGlb
  simp only [List.append_assoc, r1, r2, r3, r4, r5, r6, r7, Option.bind_some, List.drop_left, List.take_left]
  rw [if_pos]
  · rfl
  · simp only [List.length_append, l1, l2, l3, l4, l5, l6, l7, hlen]
    refine ⟨trivial, trivial, by omega, trivial, by omega, four_dvd_pad4 _, trivial, trivial, ?_⟩
    rw [← hlen]; exact hdvd

/-- **C66 (when it fails).** Exporting succeeds exactly when the whole file is shorter than 2³² bytes; otherwise it is a
`struct.error` and the file is left empty. -/
theorem C66_size {files : Files} {enc : BodyEncoder} (hf : Filled files enc) (header : List UInt8) :
    (28 + align4 header.length + enc.bytes.length < 2 ^ 32 →
      ∃ out, exportFile header enc = (out, .ok ()) ∧ out.length = 28 + align4 header.length + enc.bytes.length) ∧
    (2 ^ 32 ≤ 28 + align4 header.length + enc.bytes.length → exportFile header enc = ([], .error .structError)) := by
  obtain ⟨hlen, -⟩ := filled_length hf
  obtain ⟨b1, e1, -⟩ := packU32_ok (n := 0x46546C67) (by decide)
  obtain ⟨b2, e2, -⟩ := packU32_ok (n := 2) (by decide)
  obtain ⟨b5, e5, -⟩ := packU32_ok (n := 0x4E4F534A) (by decide)
  obtain ⟨b7, e7, -⟩ := packU32_ok (n := 0x004E4942) (by decide)
  have hl := length_pad4 header
  constructor
  · intro h
    obtain ⟨b3, e3, -⟩ := packU32_ok (n := 12 + 8 + (pad4 header).length + 8 + enc.length) (by omega)
    obtain ⟨b4, e4, -⟩ := packU32_ok (n := (pad4 header).length) (by omega)
    obtain ⟨b6, e6, -⟩ := packU32_ok (n := enc.length) (by omega)
    unfold exportFile exportString
    simp only [e1, e2, e3, e4, e5, e6, e7, bind, Except.bind]
    refine ⟨_, rfl, ?_⟩
    simp only [List.length_append, packU32_length e1, packU32_length e2, packU32_length e3, packU32_length e4,
      packU32_length e5, packU32_length e6, packU32_length e7, hl]
    omega
  · intro h
    have : packU32 (12 + 8 + (pad4 header).length + 8 + enc.length) = .error .structError := if_neg (by omega)
    unfold exportFile exportString
    simp only [e1, e2, this, bind, Except.bind]

/-! ### C67: the conversion keeps the data -/

theorem gltf2glb_ok {files : Files} {mime : String → Option String} {doc doc' : GltfDoc} {enc : BodyEncoder}
    (h : gltf2glb files mime doc = .ok (doc', enc)) :
    ∃ bs vs bs' st, doc.buffers = some bs ∧ doc.bufferViews = some vs ∧
      convertBuffers files bs 0 ⟨BodyEncoder.empty, [], 0⟩ = .ok (bs', st) ∧ bs ≠ [] ∧
      (∃ b bs2, bs' = b :: bs2 ∧ doc'.buffers = some ({ b with byteLength := some enc.length } :: bs2)) ∧
      ((doc.images = none ∧ doc'.images = none ∧ doc'.bufferViews = some (vs.map (convertView st.map)) ∧ enc = st.enc) ∨
       ∃ ims ims' vs', doc.images = some ims ∧ doc'.images = some ims' ∧ doc'.bufferViews = some vs' ∧
        convertImages files mime ims (vs.map (convertView st.map)) st.enc = .ok (ims', vs', enc)) := by
  unfold gltf2glb at h
  cases hb : doc.buffers with
  | none => simp only [hb, entry, bind, Except.bind] at h; cases h
  | some bs =>
    simp only [hb, entry, bind, Except.bind] at h
    cases hc : convertBuffers files bs 0 ⟨BodyEncoder.empty, [], 0⟩ with
    | error e => simp only [hc] at h; cases h
    | ok r =>
      obtain ⟨bs', st⟩ := r
      simp only [hc] at h
      have hl := (convertBuffers_ok bs 0 _ bs' st hc rfl .empty).2.1
      cases hv : doc.bufferViews with
      | none => simp only [hv] at h; cases h
      | some vs =>
        simp only [hv] at h
        cases hi : doc.images with
        | none =>
          simp only [hi] at h
          cases bs' with
          | nil => cases h
          | cons b bs2 =>
            injection h with h
            injection h with h1 h2
            subst h1 h2
            exact ⟨bs, vs, _, st, rfl, rfl, hc, by rintro rfl; simp at hl, ⟨b, bs2, rfl, rfl⟩,
              Or.inl ⟨rfl, rfl, rfl, rfl⟩⟩
        | some ims =>
          simp only [hi] at h
          cases hci : convertImages files mime ims (vs.map (convertView st.map)) st.enc with
          | error e => simp only [hci] at h; cases h
          | ok r =>
            obtain ⟨ims', vs', enc'⟩ := r
            simp only [hci] at h
            cases bs' with
            | nil => cases h
            | cons b bs2 =>
              injection h with h
              injection h with h1 h2
              subst h1 h2
              exact ⟨bs, vs, _, st, rfl, rfl, hc, by rintro rfl; simp at hl, ⟨b, bs2, rfl, rfl⟩,
                Or.inr ⟨ims, ims', vs', rfl, rfl, rfl, hci⟩⟩

/-- **C67 (buffer views).** After a conversion every buffer view that gives its offset, and every one into the first buffer, denotes
in the new body the bytes it denoted in its own buffer file; offsets keep their alignment; the view count only grows. -/
theorem C67_views_partial {files : Files} {mime : String → Option String} {doc doc' : GltfDoc} {enc : BodyEncoder}
    (h : gltf2glb files mime doc = .ok (doc', enc)) {bs : List GltfBuffer} (hb : doc.buffers = some bs)
    {vs : List GltfView} (hv : doc.bufferViews = some vs) (k : ℕ) (v : GltfView) (hk : vs[k]? = some v) (j : ℕ)
    (hj : v.buffer = some j) (b : GltfBuffer) (hbj : bs[j]? = some b) (hex : v.byteOffset ≠ none ∨ j = 0) :
    ∃ u d vs' o', b.uri = some u ∧ files u = some d ∧ doc'.bufferViews = some vs' ∧
      vs'[k]? = some ⟨some 0, some o', v.byteLength⟩ ∧ o' % 4 = (v.byteOffset.getD 0) % 4 ∧
      ∀ n, v.byteOffset.getD 0 + n ≤ d.length →
        sliceBytes enc.bytes o' n = sliceBytes d (v.byteOffset.getD 0) n := by
  obtain ⟨bs0, vs0, bs', st, h1, h2, h3, -, -, h4⟩ := gltf2glb_ok h
  rw [hb] at h1; injection h1 with h1; subst h1
  rw [hv] at h2; injection h2 with h2; subst h2
  obtain ⟨f1, f2, f3, C, f4, f5⟩ := convertBuffers_ok bs 0 _ bs' st h3 rfl .empty
  obtain ⟨u, d, A, C', a1, a2, a3, a4, a5, a6⟩ := f5 j b hbj
  rw [Nat.zero_add] at a4
  have hnew : ∃ o', convertView st.map v = ⟨some 0, some o', v.byteLength⟩ ∧ o' = v.byteOffset.getD 0 + A.length := by
    unfold convertView
    cases ho : v.byteOffset with
    | some o =>
      rw [hj]
      simp only [Option.bind_some, a4]
      exact ⟨_, rfl, rfl⟩
    | none =>
      rw [ho] at hex
      rcases hex with hex | rfl
      · exact absurd rfl hex
      · exact ⟨0, rfl, by rw [a6 rfl rfl rfl]; rfl⟩
  obtain ⟨o', n1, n2⟩ := hnew
  have hmap : (vs.map (convertView st.map))[k]? = some ⟨some 0, some o', v.byteLength⟩ := by
    rw [List.getElem?_map, hk, Option.map_some, n1]
  have hklt : k < (vs.map (convertView st.map)).length := by
    rw [List.length_map]
    exact (List.getElem?_eq_some_iff.1 hk).1
  have hbytes : ∃ C2, enc.bytes = A ++ pad4 d ++ C2 := by
    rcases h4 with ⟨-, -, -, rfl⟩ | ⟨ims, ims', vs', -, -, -, hci⟩
    · exact ⟨C', a3⟩
    · obtain ⟨-, -, ⟨C2, g⟩, -⟩ := convertImages_ok ims _ _ _ _ _ hci f1
      exact ⟨C' ++ C2, by rw [g, a3]; simp [List.append_assoc]⟩
  obtain ⟨C2, hbytes⟩ := hbytes
  have hview : ∃ vs', doc'.bufferViews = some vs' ∧ vs'[k]? = some ⟨some 0, some o', v.byteLength⟩ := by
    rcases h4 with ⟨-, -, g, -⟩ | ⟨ims, ims', vs', -, -, g, hci⟩
    · exact ⟨_, g, hmap⟩
    · obtain ⟨-, -, -, ⟨ws, e, -⟩, -⟩ := convertImages_ok ims _ _ _ _ _ hci f1
      exact ⟨vs', g, by rw [e, List.getElem?_append_left hklt, hmap]⟩
  obtain ⟨vs', w1, w2⟩ := hview
  refine ⟨u, d, vs', o', a1, a2, w1, w2, by omega, ?_⟩
  intro n hn
  rw [n2, hbytes]
  exact sliceBytes_mid A d C2 hn

/-- **C67 (images).** After a conversion every image refers to a buffer view of its own, which denotes the bytes of the image's
file followed by at most three spaces; these lie behind all buffers, and the views of different images do not overlap. -/
theorem C67_images {files : Files} {mime : String → Option String} {doc doc' : GltfDoc} {enc : BodyEncoder}
    (h : gltf2glb files mime doc = .ok (doc', enc)) {ims : List GltfImage} (hi : doc.images = some ims) :
    ∃ (ims' : List GltfImage) (vs' : List GltfView), doc'.images = some ims' ∧ doc'.bufferViews = some vs' ∧
      ims'.length = ims.length ∧
      ∀ (k : ℕ) (im : GltfImage), ims[k]? = some im → ∃ (u : String) (d : List UInt8) (w o r : ℕ), im.uri = some u ∧ files u = some d ∧
        ims'[k]? = some ⟨none, some w, some (mime u)⟩ ∧ vs'[w]? = some ⟨some 0, some o, some (d.length + r)⟩ ∧ r < 4 ∧
        o % 4 = 0 ∧ sliceBytes enc.bytes o (d.length + r) = d ++ List.replicate r 32 ∧
        (∀ k', k' < k → ∃ w' o' n' : ℕ, ims'[k']?.bind (·.bufferView) = some w' ∧ vs'[w']? = some ⟨some 0, some o', some n'⟩ ∧
          o' + n' ≤ o) := by
  obtain ⟨bs, vs, bs', st, -, -, h3, -, -, h4⟩ := gltf2glb_ok h
  obtain ⟨f1, -⟩ := convertBuffers_ok bs 0 _ bs' st h3 rfl .empty
  rcases h4 with ⟨g, -⟩ | ⟨ims0, ims', vs', g1, g2, g3, hci⟩
  · rw [hi] at g; cases g
  · rw [hi] at g1; injection g1 with g1; subst g1
    obtain ⟨-, k2, -, -, k6⟩ := convertImages_ok ims _ _ _ _ _ hci f1
    refine ⟨ims', vs', g2, g3, k2, ?_⟩
    intro k im hk
    obtain ⟨u, d, A, C, a1, a2, a3, a4, a5, a6, a7, a8, a9⟩ := k6 k im hk
    have hr : (pad4 d).length = d.length + (align4 d.length - d.length) := by
      rw [length_pad4]; have := align4_spec d.length; omega
    refine ⟨u, d, _, A.length, align4 d.length - d.length, a1, a3, a4, by rw [a5, hr],
      by have := align4_spec d.length; omega, by omega, ?_, ?_⟩
    · rw [← hr, a6, sliceBytes_all]; rfl
    · intro k' hk'
      obtain ⟨o', n', b1, b2⟩ := a9 k' hk'
      have hlt : k' < ims.length := by
        have := (List.getElem?_eq_some_iff.1 hk).1; omega
      obtain ⟨u', d', A', C', c1, c2, c3, c4, -⟩ := k6 k' ims[k'] (List.getElem?_eq_getElem hlt)
      exact ⟨_, o', n', by rw [c4]; rfl, b1, b2⟩

/-- **C67 (images and views).** The bytes of the images lie behind those of all the buffers. -/
theorem C67_images_behind {files : Files} {mime : String → Option String} {doc doc' : GltfDoc} {enc : BodyEncoder}
    (h : gltf2glb files mime doc = .ok (doc', enc)) {bs : List GltfBuffer} (hb : doc.buffers = some bs) (j : ℕ)
    (b : GltfBuffer) (hj : bs[j]? = some b) {ims : List GltfImage} (hi : doc.images = some ims) (k : ℕ)
    (hk : k < ims.length) {ims' : List GltfImage} (hi' : doc'.images = some ims') {vs' : List GltfView}
    (hv' : doc'.bufferViews = some vs') {w : ℕ} (hw : ims'[k]?.bind (·.bufferView) = some w) {v : GltfView}
    (hvw : vs'[w]? = some v) :
    ∃ u d base o, b.uri = some u ∧ files u = some d ∧ v.byteOffset = some o ∧
      sliceBytes enc.bytes base d.length = d ∧ base + d.length ≤ o := by
  obtain ⟨bs0, vs, bs', st, h1, -, h3, -, -, h4⟩ := gltf2glb_ok h
  rw [hb] at h1; injection h1 with h1; subst h1
  obtain ⟨f1, -, -, C, -, f5⟩ := convertBuffers_ok bs 0 _ bs' st h3 rfl .empty
  obtain ⟨u, d, A, C', a1, a2, a3, -⟩ := f5 j b hj
  rcases h4 with ⟨g, -⟩ | ⟨ims0, ims2, vs2, g1, g2, g3, hci⟩
  · rw [hi] at g; cases g
  · rw [hi] at g1; injection g1 with g1; subst g1
    rw [hi'] at g2; injection g2 with g2; subst g2
    rw [hv'] at g3; injection g3 with g3; subst g3
    obtain ⟨-, -, ⟨C2, e⟩, -, k6⟩ := convertImages_ok ims _ _ _ _ _ hci f1
    obtain ⟨u2, d2, A2, C3, -, -, -, c4, c5, c6, c7, -⟩ := k6 k ims[k] (List.getElem?_eq_getElem hk)
    rw [c4] at hw
    injection hw with hw
    subst hw
    rw [c5] at hvw
    injection hvw with hvw
    subst hvw
    refine ⟨u, d, A.length, A2.length, a1, a2, rfl, ?_, ?_⟩
    · rw [e, a3]
      have := sliceBytes_mid A d (C' ++ C2) (o := 0) (n := d.length) (by omega)
      rw [Nat.zero_add] at this
      rw [← List.append_assoc] at this
      rw [this]; simp [sliceBytes]
    · rw [a3] at c7
      simp only [List.length_append, length_pad4] at c7
      have := align4_spec d.length
      omega

/-- **C67** is false for a view into another than the first buffer that leaves out `byteOffset` (default 0 in glTF): it is
redirected to the start of the first buffer. -/
theorem C67_false : ∃ (files : Files) (doc doc' : GltfDoc) (enc : BodyEncoder) (d : List UInt8) (v' : GltfView),
    gltf2glb files (fun _ => none) doc = .ok (doc', enc) ∧
    doc.buffers = some [⟨none, some "a"⟩, ⟨none, some "b"⟩] ∧ doc.bufferViews = some [⟨some 1, none, some 4⟩] ∧
    files "b" = some d ∧ d.length = 4 ∧ doc'.bufferViews = some [v'] ∧ v'.buffer = some 0 ∧ v'.byteOffset = some 0 ∧
    sliceBytes enc.bytes 0 4 ≠ d := by
  refine ⟨fun n => if n = "a" then some [1, 2, 3, 4] else some [5, 6, 7, 8],
    ⟨some [⟨none, some "a"⟩, ⟨none, some "b"⟩], some [⟨some 1, none, some 4⟩], none⟩, _, _, [5, 6, 7, 8], _, rfl, rfl, rfl,
    rfl, rfl, rfl, rfl, rfl, by decide⟩

/-- **C67 (what is accepted).** The conversion succeeds exactly for documents with at least one buffer, whose buffers and images
all name existing files, with a list of buffer views and no empty image name. -/
theorem C67_accepts_iff (files : Files) (mime : String → Option String) (doc : GltfDoc) :
    (∃ r, gltf2glb files mime doc = .ok r) ↔
      (∃ bs, doc.buffers = some bs ∧ bs ≠ [] ∧ ∀ b ∈ bs, ∃ u, b.uri = some u ∧ files u ≠ none) ∧
      (∃ vs, doc.bufferViews = some vs) ∧
      ∀ ims, doc.images = some ims → ∀ im ∈ ims, ∃ u, im.uri = some u ∧ u ≠ "" ∧ files u ≠ none := by
  constructor
  · rintro ⟨⟨doc', enc⟩, h⟩
    obtain ⟨bs, vs, bs', st, h1, h2, h3, h4, -, h5⟩ := gltf2glb_ok h
    obtain ⟨f1, -, -, C, -, f5⟩ := convertBuffers_ok bs 0 _ bs' st h3 rfl .empty
    refine ⟨⟨bs, h1, h4, ?_⟩, ⟨vs, h2⟩, ?_⟩
    · intro b hb
      obtain ⟨j, hj⟩ := List.getElem?_of_mem hb
      obtain ⟨u, d, A, C', a1, a2, -⟩ := f5 j b hj
      exact ⟨u, a1, by rw [a2]; simp⟩
    · intro ims hi im him
      rcases h5 with ⟨g, -⟩ | ⟨ims0, ims2, vs2, g1, -, -, hci⟩
      · rw [hi] at g; cases g
      · rw [hi] at g1; injection g1 with g1; subst g1
        obtain ⟨-, -, -, -, k6⟩ := convertImages_ok ims _ _ _ _ _ hci f1
        obtain ⟨k, hk⟩ := List.getElem?_of_mem him
        obtain ⟨u, d, A, C, a1, a2, a3, -⟩ := k6 k im hk
        exact ⟨u, a1, a2, by rw [a3]; simp⟩
  · rintro ⟨⟨bs, h1, hne, h2⟩, ⟨vs, h3⟩, h4⟩
    have hadd : ∀ (enc : BodyEncoder) u, files u ≠ none → ∃ r, enc.addToBody files u = .ok r := by
      intro enc u hu
      unfold BodyEncoder.addToBody
      cases hf : files u with
      | none => exact absurd hf hu
      | some d => exact ⟨_, rfl⟩
    have hbuf : ∀ (bs : List GltfBuffer) (i : ℕ) (st : GlbState),
        (∀ b ∈ bs, ∃ u, b.uri = some u ∧ files u ≠ none) → ∃ r, convertBuffers files bs i st = .ok r := by
      intro bs
      induction bs with
      | nil => intro i st _; exact ⟨_, rfl⟩
      | cons b bs ih =>
        intro i st hb
        obtain ⟨u, hu, hf⟩ := hb b (by simp)
        obtain ⟨⟨enc, o, n⟩, ha⟩ := hadd st.enc u hf
        obtain ⟨⟨bs', st'⟩, hr⟩ := ih (i + 1) ⟨enc, st.map.set i st.offset, st.offset + n⟩
          (fun b hb' => hb b (List.mem_cons_of_mem _ hb'))
        unfold convertBuffers
        simp only [hu, entry, ha, hr, bind, Except.bind]
        exact ⟨_, rfl⟩
    have himg : ∀ (ims : List GltfImage) (vs : List GltfView) (enc : BodyEncoder),
        (∀ im ∈ ims, ∃ u, im.uri = some u ∧ u ≠ "" ∧ files u ≠ none) →
        ∃ r, convertImages files mime ims vs enc = .ok r := by
      intro ims
      induction ims with
      | nil => intro vs enc _; exact ⟨_, rfl⟩
      | cons im ims ih =>
        intro vs enc hb
        obtain ⟨u, hu, hne, hf⟩ := hb im (by simp)
        obtain ⟨⟨enc', o, n⟩, ha⟩ := hadd enc u hf
        obtain ⟨⟨ims', vs', enc2⟩, hr⟩ := ih (vs ++ [⟨some 0, some o, some n⟩]) enc'
          (fun b hb' => hb b (List.mem_cons_of_mem _ hb'))
        unfold convertImages
        simp only [hu, entry, ha, hr, bind, Except.bind, if_neg hne]
        exact ⟨_, rfl⟩
    obtain ⟨⟨bs', st⟩, hr⟩ := hbuf bs 0 ⟨BodyEncoder.empty, [], 0⟩ h2
    have hl := (convertBuffers_ok bs 0 _ bs' st hr rfl .empty).2.1
    cases bs' with
    | nil => cases bs with
      | nil => exact absurd rfl hne
      | cons _ _ => simp at hl
    | cons b bs2 =>
      unfold gltf2glb
      cases hi : doc.images with
      | none =>
        simp only [h1, h3, entry, hr, bind, Except.bind]
        exact ⟨_, rfl⟩
      | some ims =>
        obtain ⟨⟨ims', vs', enc⟩, hr2⟩ := himg ims (vs.map (convertView st.map)) st.enc (h4 ims hi)
        simp only [h1, h3, entry, hr, hr2, bind, Except.bind]
        exact ⟨_, rfl⟩

/-! ### Non-vacuity -/

/-- Two files. -/
def sampleFiles : Files := fun n => if n = "a.bin" then some [1, 2, 3, 4, 5] else if n = "t.png" then some [9, 9] else none

/-- A document with a buffer, a view and an image. -/
def sampleGltf : GltfDoc :=
  ⟨some [⟨some 5, some "a.bin"⟩], some [⟨some 0, some 1, some 4⟩], some [⟨some "t.png", none, none⟩]⟩

example : ∃ r, gltf2glb sampleFiles (fun _ => some "image/png") sampleGltf = .ok r ∧
    r.2.bytes = [1, 2, 3, 4, 5, 32, 32, 32, 9, 9, 32, 32] := ⟨_, rfl, by decide⟩

example : ∃ enc out, Filled sampleFiles enc ∧ exportString [123, 125] enc = .ok out ∧
    parseGlb out = some ([123, 125, 32, 32], [1, 2, 3, 4, 5, 32, 32, 32]) := by
  have ha : BodyEncoder.empty.addToBody sampleFiles "a.bin" =
      .ok (⟨8, [(0, [1, 2, 3, 4, 5, 32, 32, 32])]⟩, 0, 8) := rfl
  exact ⟨_, _, .add .empty ha, rfl, by decide +kernel⟩

end Sumo
