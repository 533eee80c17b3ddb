import Verif.Spec.GlbJson
import Verif.Lemmas.TinyJson
import Verif.Props.Glb

/-! # `gltf2glb` on whole documents (C67) -/

namespace Sumo
namespace Gltf

theorem buffers_json (files : Files) : ∀ (js : List (Json ℚ)) (bs : List GltfBuffer), List.Forall₂ ReadsBuffer js bs →
    ∀ (i : ℕ) (st : GlbState) (map : Dict ℚ ℕ), (∀ n : ℕ, map.get? (n : ℚ) = st.map.get? n) →
    (∀ e, convertBuffers files bs i st = .error e → convertBufferEntries files js i st.enc map st.offset = .error e) ∧
    ∀ bs' st', convertBuffers files bs i st = .ok (bs', st') → ∃ js' map',
      convertBufferEntries files js i st.enc map st.offset = .ok (js', st'.enc, map') ∧ List.Forall₂ ReadsBuffer js' bs' ∧
      List.Forall₂ (Keeps ["uri", "byteLength"]) js js' ∧ ∀ n : ℕ, map'.get? (n : ℚ) = st'.map.get? n
  | _, _, .nil, i, st, map, hm => by
    refine ⟨fun e h => by simp [convertBuffers] at h, fun bs' st' h => ?_⟩
    simp only [convertBuffers, Except.ok.injEq, Prod.mk.injEq] at h
    obtain ⟨rfl, rfl⟩ := h
    exact ⟨[], map, rfl, .nil, .nil, hm⟩
  | _, _, .cons (a := j) (b := b) (l₁ := js) (l₂ := bs) hj hl, i, st, map, hm => by
    obtain ⟨d, rfl, ho, hlen, huri⟩ := hj
    unfold convertBuffers convertBufferEntries
    simp only [Json.item, Dict.get, huri, entry, bind, Except.bind, pure, Except.pure]
    cases hu : b.uri with
    | none => simp
    | some u =>
      simp only [Option.map_some, Json.string]
      cases ha : st.enc.addToBody files u with
      | error e => simp
      | ok r =>
        obtain ⟨enc, o, len⟩ := r
        simp only [delItem, Json.setItem]
        have hm' : ∀ n : ℕ, (map.set (i : ℚ) st.offset).get? (n : ℚ) = (st.map.set i st.offset).get? n := by
          intro n
          rw [Dict.get?_set, Dict.get?_set, hm n]
          by_cases hin : i = n
          · rw [if_pos hin, if_pos (by rw [hin])]
          · rw [if_neg hin, if_neg (by exact_mod_cast hin)]
        obtain ⟨h1, h2⟩ := buffers_json files js bs hl (i + 1) ⟨enc, st.map.set i st.offset, st.offset + len⟩ _ hm'
        dsimp only at h1 h2
        cases hc : convertBuffers files bs (i + 1) ⟨enc, st.map.set i st.offset, st.offset + len⟩ with
        | error e =>
          rw [h1 e hc]
          simp
        | ok r =>
          obtain ⟨bs', st'⟩ := r
          obtain ⟨js', map', g1, g2, g3, g4⟩ := h2 bs' st' hc
          rw [g1]
          refine ⟨fun e h => by simp at h, fun bs2 st2 h => ?_⟩
          simp only [Except.ok.injEq, Prod.mk.injEq] at h
          obtain ⟨rfl, rfl⟩ := h
          refine ⟨_, _, rfl, .cons ⟨_, rfl, ordered_mapSet (ho.pop _) _ _, ?_, ?_⟩ g2, .cons ⟨_, _, rfl, rfl, fun k hk => ?_⟩ g3, g4⟩
          · rw [get?_mapSet, if_pos rfl]; rfl
          · rw [get?_mapSet, if_neg (by decide), get?_pop_ordered ho, if_pos rfl]; rfl
          · simp only [List.mem_cons, List.not_mem_nil, or_false, not_or] at hk
            rw [get?_mapSet, if_neg (Ne.symm hk.2), get?_pop_ordered ho, if_neg (Ne.symm hk.1)]

theorem view_json {map : Dict ℚ ℕ} {map' : Dict ℕ ℕ} (hm : ∀ n : ℕ, map.get? (n : ℚ) = map'.get? n) {j : Json ℚ} {v : GltfView}
    (h : ReadsView j v) : ∃ j', convertViewEntry map j = .ok j' ∧ ReadsView j' (convertView map' v) ∧
      Keeps ["buffer", "byteOffset"] j j' := by
  obtain ⟨d, rfl, ho, h1, h2, h3⟩ := h
  have key : ∀ o : ℕ, viewOffset map (.obj d) = .ok (.int o) → convertView map' v = ⟨some 0, some o, v.byteLength⟩ →
      ∃ j', convertViewEntry map (.obj d) = .ok j' ∧ ReadsView j' (convertView map' v) ∧ Keeps ["buffer", "byteOffset"] (.obj d) j' := by
    intro o ho1 ho2
    refine ⟨.obj (mapSet (mapSet d "byteOffset" (.int o)) "buffer" (.int 0)), ?_, ?_, ?_⟩
    · unfold convertViewEntry
      rw [ho1]
      rfl
    · rw [ho2]
      refine ⟨_, rfl, ordered_mapSet (ordered_mapSet ho _ _) _ _, ?_, ?_, ?_⟩
      · rw [get?_mapSet, if_pos rfl]; rfl
      · rw [get?_mapSet, if_neg (by decide), get?_mapSet, if_pos rfl]; rfl
      · rw [get?_mapSet, if_neg (by decide), get?_mapSet, if_neg (by decide), h3]
    · refine ⟨_, _, rfl, rfl, fun k hk => ?_⟩
      simp only [List.mem_cons, List.not_mem_nil, or_false, not_or] at hk
      rw [get?_mapSet, if_neg (Ne.symm hk.1), get?_mapSet, if_neg (Ne.symm hk.2)]
  obtain ⟨vb, vo, vl⟩ := v
  cases vo with
  | none =>
    refine key 0 ?_ rfl
    unfold viewOffset Json.item Dict.get
    dsimp only
    rw [h2]
    rfl
  | some o =>
    cases vb with
    | none =>
      refine key 0 ?_ rfl
      unfold viewOffset Json.item Dict.get
      dsimp only
      rw [h1, h2]
      rfl
    | some b =>
      cases hb : map'.get? b with
      | none =>
        refine key 0 ?_ (by unfold convertView; dsimp only [Option.bind_some]; rw [hb])
        unfold viewOffset Json.item Dict.get
        dsimp only
        rw [h1, h2]
        show (match Option.bind (some ((b : ℤ) : ℚ)) map.get? with | none => _ | some base => _) = _
        rw [Option.bind_some, Int.cast_natCast, hm, hb]
        rfl
      | some base =>
        refine key (o + base) ?_ (by unfold convertView; dsimp only [Option.bind_some]; rw [hb])
        unfold viewOffset Json.item Dict.get
        dsimp only
        rw [h1, h2]
        show (match Option.bind (some ((b : ℤ) : ℚ)) map.get? with | none => _ | some base => _) = _
        rw [Option.bind_some, Int.cast_natCast, hm, hb]
        show Except.ok (Json.int ((o : ℤ) + (base : ℤ))) = _
        push_cast
        rfl

theorem views_json {map : Dict ℚ ℕ} {map' : Dict ℕ ℕ} (hm : ∀ n : ℕ, map.get? (n : ℚ) = map'.get? n) :
    ∀ (js : List (Json ℚ)) (vs : List GltfView), List.Forall₂ ReadsView js vs → ∃ js', js.mapM (convertViewEntry map) = .ok js' ∧
      List.Forall₂ ReadsView js' (vs.map (convertView map')) ∧ List.Forall₂ (Keeps ["buffer", "byteOffset"]) js js'
  | _, _, .nil => ⟨[], rfl, .nil, .nil⟩
  | _, _, .cons (l₁ := js) (l₂ := vs) h hl => by
    obtain ⟨j', a1, a2, a3⟩ := view_json hm h
    obtain ⟨js', b1, b2, b3⟩ := views_json hm js vs hl
    refine ⟨j' :: js', ?_, .cons a2 b2, .cons a3 b3⟩
    rw [List.mapM_cons, a1, b1]
    rfl

theorem images_json (files : Files) (mime : String → Option String) : ∀ (js : List (Json ℚ)) (ims : List GltfImage),
    List.Forall₂ ReadsImage js ims → ∀ (ws : List (Json ℚ)) (vs : List GltfView) (enc : BodyEncoder), List.Forall₂ ReadsView ws vs →
    (∀ e, convertImages files mime ims vs enc = .error e → convertImageEntries files mime js ws enc = .error e) ∧
    ∀ ims' vs' enc', convertImages files mime ims vs enc = .ok (ims', vs', enc') → ∃ js' more,
      convertImageEntries files mime js ws enc = .ok (js', ws ++ more, enc') ∧ List.Forall₂ ReadsImage js' ims' ∧
      List.Forall₂ ReadsView (ws ++ more) vs' ∧ List.Forall₂ (Keeps ["uri", "bufferView", "mimeType"]) js js'
  | _, _, .nil, ws, vs, enc, hv => by
    refine ⟨fun e h => by simp [convertImages] at h, fun ims' vs' enc' h => ?_⟩
    simp only [convertImages, Except.ok.injEq, Prod.mk.injEq] at h
    obtain ⟨rfl, rfl, rfl⟩ := h
    exact ⟨[], [], by rw [List.append_nil]; rfl, .nil, by rw [List.append_nil]; exact hv, .nil⟩
  | _, _, .cons (a := j) (b := im) (l₁ := js) (l₂ := ims) hj hl, ws, vs, enc, hv => by
    obtain ⟨d, rfl, ho, huri, hbv, hmt⟩ := hj
    unfold convertImages convertImageEntries
    simp only [Json.item, Dict.get, huri, entry, bind, Except.bind, pure, Except.pure]
    cases hu : im.uri with
    | none => simp
    | some u =>
      simp only [Option.map_some, Json.string, Json.falsy, beq_iff_eq]
      by_cases h0 : u = ""
      · simp [h0]
      · rw [if_neg h0, if_neg h0]
        cases ha : enc.addToBody files u with
        | error e => simp
        | ok r =>
          obtain ⟨enc1, o, len⟩ := r
          simp only [delItem, Json.setItem]
          have hv' : List.Forall₂ ReadsView (ws ++ [.obj [("buffer", .int 0), ("byteLength", .int len), ("byteOffset", .int o)]])
              (vs ++ [⟨some 0, some o, some len⟩]) := by
            refine List.rel_append hv (.cons ⟨_, rfl, ?_, rfl, rfl, rfl⟩ .nil)
            unfold Ordered
            simp only [List.pairwise_cons, List.mem_cons, List.not_mem_nil, or_false, forall_eq_or_imp, forall_eq, List.Pairwise.nil, and_true]
            refine ⟨⟨by decide, by decide⟩, ⟨by decide, fun _ h => h.elim⟩⟩
          obtain ⟨h1, h2⟩ := images_json files mime js ims hl _ _ enc1 hv'
          have hlen : ws.length = vs.length := hv.length_eq
          cases hc : convertImages files mime ims (vs ++ [⟨some 0, some o, some len⟩]) enc1 with
          | error e =>
            rw [h1 e hc]
            simp
          | ok r =>
            obtain ⟨ims', vs', enc'⟩ := r
            obtain ⟨js', more, g1, g2, g3, g4⟩ := h2 ims' vs' enc' hc
            rw [g1]
            refine ⟨fun e h => by simp at h, fun ims2 vs2 enc2 h => ?_⟩
            simp only [Except.ok.injEq, Prod.mk.injEq] at h
            obtain ⟨rfl, rfl, rfl⟩ := h
            rw [List.append_assoc] at g3 ⊢
            have hord := fun mv => ordered_mapSet (ordered_mapSet ho "bufferView" (Json.int (ws.length : ℤ))) "mimeType" mv
            refine ⟨_, _, rfl, .cons ⟨_, rfl, (hord _).pop _, ?_, ?_, ?_⟩ g2, g3, .cons ⟨_, _, rfl, rfl, fun k hk => ?_⟩ g4⟩
            · rw [get?_pop_ordered (hord _), if_pos rfl]; rfl
            · rw [get?_pop_ordered (hord _), if_neg (by decide), get?_mapSet, if_neg (by decide), get?_mapSet, if_pos rfl, hlen]; rfl
            · rw [get?_pop_ordered (hord _), if_neg (by decide), get?_mapSet, if_pos rfl]
              cases mime u <;> rfl
            · simp only [List.mem_cons, List.not_mem_nil, or_false, not_or] at hk
              rw [get?_pop_ordered (hord _), if_neg (Ne.symm hk.1), get?_mapSet, if_neg (Ne.symm hk.2.2), get?_mapSet, if_neg (Ne.symm hk.2.1)]

/-- **C67 (whole documents).** On a JSON document, whatever else is in it, the converter does what it does on the entries it knows
about: the same exception, or the same body and a document with the new entries, in which nothing else has changed. -/
theorem C67_documents (files : Files) (mime : String → Option String) {j : Json ℚ} {doc : GltfDoc} (h : ReadsDoc j doc) :
    (∀ e, gltf2glb files mime doc = .error e → convertDocument files mime j = .error e) ∧
    ∀ doc' enc, gltf2glb files mime doc = .ok (doc', enc) → ∃ j', convertDocument files mime j = .ok (j', enc) ∧ ReadsDoc j' doc' ∧
      Keeps ["buffers", "bufferViews", "images"] j j' ∧ KeepsIn "buffers" ["uri", "byteLength"] j j' ∧
      KeepsIn "bufferViews" ["buffer", "byteOffset"] j j' ∧ KeepsIn "images" ["uri", "bufferView", "mimeType"] j j' := by
  obtain ⟨d, rfl, ho, hb, hv, hi⟩ := h
  obtain ⟨dbs, dvs, dis⟩ := doc
  dsimp only at hb hv hi
  unfold gltf2glb convertDocument
  rcases hb with ⟨hb, rfl⟩ | ⟨bjs, bs, hb, rfl, hbs⟩
  · simp [Json.item, Dict.get, hb, entry, bind, Except.bind]
  simp only [Json.item, Dict.get, hb, entry, bind, Except.bind, Json.items, pure, Except.pure]
  obtain ⟨b1, b2⟩ := buffers_json files bjs bs hbs 0 ⟨BodyEncoder.empty, [], 0⟩ [] (fun n => rfl)
  dsimp only at b1 b2
  cases hc : convertBuffers files bs 0 ⟨BodyEncoder.empty, [], 0⟩ with
  | error e => rw [b1 e hc]; simp
  | ok r =>
    obtain ⟨bs', st⟩ := r
    obtain ⟨bjs', map', c1, c2, c3, c4⟩ := b2 bs' st hc
    rw [c1]
    dsimp only
    rcases hv with ⟨hv, rfl⟩ | ⟨vjs, vs, hv, rfl, hvs⟩
    · simp [hv]
    rw [hv]
    dsimp only
    obtain ⟨vjs', e1, e2, e3⟩ := views_json c4 vjs vs hvs
    rw [e1]
    dsimp only
    -- the last step: the length of the first buffer
    have last : ∀ (d1 : Dict String (Json ℚ)) (vjs2 : List (Json ℚ)) (more : List (Json ℚ)) (vs2 : List GltfView) (ims2 : Option (List GltfImage))
        (enc : BodyEncoder), Ordered d1 → (∀ k, k ∉ ["buffers", "bufferViews", "images"] → d1.get? k = d.get? k) →
        vjs2 = vjs' ++ more → List.Forall₂ ReadsView vjs2 vs2 → ReadsList ReadsImage (d1.get? "images") ims2 →
        KeepsIn "images" ["uri", "bufferView", "mimeType"] (.obj d) (.obj d1) → ∀ (b : GltfBuffer) (bt : List GltfBuffer), bs' = b :: bt →
        ∃ j', (match bjs' with
          | [] => Except.error PyErr.indexError
          | b :: bs => match b.setItem "byteLength" (Json.int ↑enc.length) with
            | .error err => .error err
            | .ok v => match (Json.obj d1).setItem "buffers" (Json.arr (v :: bs)) with
              | .error err => .error err
              | .ok v => match v.setItem "bufferViews" (Json.arr vjs2) with
                | .error err => .error err
                | .ok v => .ok (v, enc)) = .ok (j', enc) ∧
          ReadsDoc j' ⟨some ({ b with byteLength := some enc.length } :: bt), some vs2, ims2⟩ ∧
          Keeps ["buffers", "bufferViews", "images"] (.obj d) j' ∧ KeepsIn "buffers" ["uri", "byteLength"] (.obj d) j' ∧
          KeepsIn "bufferViews" ["buffer", "byteOffset"] (.obj d) j' ∧ KeepsIn "images" ["uri", "bufferView", "mimeType"] (.obj d) j' := by
      intro d1 vjs2 more vs2 ims2 enc hd1 hk hvj hvr hir hki b bt hbt
      subst hbt
      cases c2 with
      | cons hb1 hbt' =>
        obtain ⟨bd, rfl, bo, bl, bu⟩ := hb1
        refine ⟨_, rfl, ⟨_, rfl, ordered_mapSet (ordered_mapSet hd1 _ _) _ _, ?_, ?_, ?_⟩, ⟨_, _, rfl, rfl, fun k hk' => ?_⟩, ?_, ?_, ?_⟩
        · rw [get?_mapSet, if_neg (by decide), get?_mapSet, if_pos rfl]
          refine Or.inr ⟨_, _, rfl, rfl, .cons ⟨_, rfl, ordered_mapSet bo _ _, ?_, ?_⟩ hbt'⟩
          · rw [get?_mapSet, if_pos rfl]; rfl
          · rw [get?_mapSet, if_neg (by decide), bu]
        · rw [get?_mapSet, if_pos rfl]
          exact Or.inr ⟨_, _, rfl, rfl, hvr⟩
        · rw [get?_mapSet, if_neg (by decide), get?_mapSet, if_neg (by decide)]
          exact hir
        · have hk2 := hk'
          simp only [List.mem_cons, List.not_mem_nil, or_false, not_or] at hk2
          rw [get?_mapSet, if_neg (Ne.symm hk2.2.1), get?_mapSet, if_neg (Ne.symm hk2.1), hk k hk']
        · intro js hjs
          have : js = bjs := by
            simp only [Json.item, Dict.get, hb, Except.ok.injEq, Json.arr.injEq] at hjs
            exact hjs.symm
          subst this
          cases c3 with
          | cons k1 k2 =>
            refine ⟨.obj (mapSet bd "byteLength" (.int enc.length)) :: _, [], ?_, .cons ?_ k2⟩
            · simp only [Json.item, Dict.get, get?_mapSet, if_neg (show "bufferViews" ≠ "buffers" by decide), if_pos, List.append_nil]
            · obtain ⟨x, y, rfl, e, hxy⟩ := k1
              obtain rfl := Json.obj.inj e
              refine ⟨_, _, rfl, rfl, fun k hk' => ?_⟩
              have hk2 := hk'
              simp only [List.mem_cons, List.not_mem_nil, or_false, not_or] at hk2
              rw [get?_mapSet, if_neg (Ne.symm hk2.2), hxy k hk']
        · intro js hjs
          have : js = vjs := by
            simp only [Json.item, Dict.get, hv, Except.ok.injEq, Json.arr.injEq] at hjs
            exact hjs.symm
          subst this
          exact ⟨vjs', more, by simp only [Json.item, Dict.get, get?_mapSet, if_pos, hvj], e3⟩
        · intro js hjs
          obtain ⟨js', m, q1, q2⟩ := hki js hjs
          refine ⟨js', m, ?_, q2⟩
          simp only [Json.item, Dict.get] at q1 ⊢
          rw [get?_mapSet, if_neg (by decide), get?_mapSet, if_neg (by decide)]
          exact q1
    rcases hi with ⟨hi, rfl⟩ | ⟨ijs, ims, hi, rfl, his⟩
    · rw [hi]
      dsimp only
      cases hbb : bs' with
      | nil =>
        rw [hbb] at c2
        cases c2
        simp
      | cons b bt =>
        refine ⟨fun e h => by simp at h, fun doc' enc h => ?_⟩
        simp only [Except.ok.injEq, Prod.mk.injEq] at h
        obtain ⟨rfl, rfl⟩ := h
        obtain ⟨j', q, q'⟩ := last d vjs' [] _ _ st.enc ho (fun _ _ => rfl) (by simp) e2 (Or.inl ⟨hi, rfl⟩)
          (fun js hjs => by simp [Json.item, Dict.get, hi] at hjs) b bt hbb
        refine ⟨j', ?_, q'⟩
        rw [← q]
        cases bjs' with
        | nil => rfl
        | cons x y => cases x <;> rfl
    · rw [hi]
      dsimp only
      obtain ⟨i1, i2⟩ := images_json files mime ijs ims his vjs' _ st.enc e2
      cases hci : convertImages files mime ims (vs.map (convertView st.map)) st.enc with
      | error e => rw [i1 e hci]; simp
      | ok r =>
        obtain ⟨ims', vs', enc'⟩ := r
        obtain ⟨ijs', more, k1, k2, k3, k4⟩ := i2 ims' vs' enc' hci
        rw [k1]
        simp only [Json.setItem]
        cases hbb : bs' with
        | nil =>
          rw [hbb] at c2
          cases c2
          simp
        | cons b bt =>
          refine ⟨fun e h => by simp at h, fun doc' enc h => ?_⟩
          simp only [Except.ok.injEq, Prod.mk.injEq] at h
          obtain ⟨rfl, rfl⟩ := h
          have hl := last (mapSet d "images" (.arr ijs')) (vjs' ++ more) more _ (some ims') enc' (ordered_mapSet ho _ _) (fun k hk => ?_) rfl k3 ?_ ?_
            b bt hbb
          · obtain ⟨j', q, q'⟩ := hl
            refine ⟨j', ?_, q'⟩
            rw [← q]
            cases bjs' with
            | nil => rfl
            | cons x y => cases x <;> rfl
          · simp only [List.mem_cons, List.not_mem_nil, or_false, not_or] at hk
            rw [get?_mapSet, if_neg (Ne.symm hk.2.2)]
          · rw [get?_mapSet, if_pos rfl]
            exact Or.inr ⟨_, _, rfl, rfl, k2⟩
          · intro js hjs
            have : js = ijs := by
              simp only [Json.item, Dict.get, hi, Except.ok.injEq, Json.arr.injEq] at hjs
              exact hjs.symm
            subst this
            exact ⟨ijs', [], by simp only [Json.item, Dict.get, get?_mapSet, if_pos, List.append_nil], k4⟩

/-- A document with two buffers, a view into each of them, a picture and other entries. -/
def twoBuffers : Json ℚ :=
  .obj [("asset", .obj [("version", .str "2.0")]),
    ("bufferViews", .arr [.obj [("buffer", .int 0), ("byteLength", .int 2), ("byteOffset", .int 1)],
      .obj [("buffer", .int 1), ("byteLength", .int 3), ("byteOffset", .int 0), ("target", .int 34962)]]),
    ("buffers", .arr [.obj [("byteLength", .int 3), ("uri", .str "a.bin")], .obj [("byteLength", .int 5), ("uri", .str "b.bin")]]),
    ("images", .arr [.obj [("name", .str "x"), ("uri", .str "x.png")]])]

/-- What the converter knows about it. -/
def twoBuffersDoc : GltfDoc :=
  ⟨some [⟨some 3, some "a.bin"⟩, ⟨some 5, some "b.bin"⟩], some [⟨some 0, some 1, some 2⟩, ⟨some 1, some 0, some 3⟩],
    some [⟨some "x.png", none, none⟩]⟩

/-- C67 on whole documents applies to it. -/
theorem twoBuffers_reads : ReadsDoc twoBuffers twoBuffersDoc := by
  refine ⟨_, rfl, by unfold Ordered; decide, Or.inr ⟨_, _, rfl, rfl, ?_⟩, Or.inr ⟨_, _, rfl, rfl, ?_⟩, Or.inr ⟨_, _, rfl, rfl, ?_⟩⟩
  · exact .cons ⟨_, rfl, by unfold Ordered; decide, rfl, rfl⟩ (.cons ⟨_, rfl, by unfold Ordered; decide, rfl, rfl⟩ .nil)
  · exact .cons ⟨_, rfl, by unfold Ordered; decide, rfl, rfl, rfl⟩ (.cons ⟨_, rfl, by unfold Ordered; decide, rfl, rfl, rfl⟩ .nil)
  · exact .cons ⟨_, rfl, by unfold Ordered; decide, rfl, rfl, rfl⟩ .nil

example : ∃ doc' enc, gltf2glb (fun _ => some [1, 2, 3, 4, 5]) (fun _ => none) twoBuffersDoc = .ok (doc', enc) ∧
    doc'.bufferViews = some [⟨some 0, some 1, some 2⟩, ⟨some 0, some 8, some 3⟩, ⟨some 0, some 16, some 8⟩] := ⟨_, _, rfl, rfl⟩

end Gltf
end Sumo
