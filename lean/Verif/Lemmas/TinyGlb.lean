import Verif.Lemmas.TinyGltf
import Verif.Props.GlbSave

/-! # Lemmas: reading the file written by `save_as_glb` -/

namespace Sumo
namespace Gltf

/-! ### The converter -/

/-- The pictures in the body of the file. -/
def bodyOf (pics : List Written) : List UInt8 := (pics.map fun w => pad4 w.2).flatten

/-- The new entries for the pictures. -/
def viewEntries : ℕ → List Written → List (Json ℚ)
  | _, [] => []
  | off, w :: ws => .obj [("buffer", .int 0), ("byteLength", .int (pad4 w.2).length), ("byteOffset", .int off)] ::
      viewEntries (off + (pad4 w.2).length) ws

/-- The new views for the pictures. -/
def picViews : ℕ → List Written → List BufferView
  | _, [] => []
  | off, w :: ws => ⟨0, off, (pad4 w.2).length, 0, 0⟩ :: picViews (off + (pad4 w.2).length) ws

/-- An entry of a picture after the conversion. -/
structure PicEntry (n : ℕ) (o : Fields ℚ) : Prop where
  wf : WfO o
  view : Dict.get? o "bufferView" = some (.int n)
  uri : Dict.get? o "uri" = none
  width : Dict.get? o "width" = none
  height : Dict.get? o "height" = none

/-- The entries of the pictures after the conversion. -/
inductive PicEntries : ℕ → ℕ → List (Json ℚ) → Prop
  | nil (n : ℕ) : PicEntries n 0 []
  | cons {n k : ℕ} {o : Fields ℚ} {l : List (Json ℚ)} : PicEntry n o → PicEntries (n + 1) k l → PicEntries n (k + 1) (.obj o :: l)

theorem PicEntries.wf {n k : ℕ} {l : List (Json ℚ)} (h : PicEntries n k l) : ∀ j ∈ l, j.Wf := by
  induction h with
  | nil => simp
  | cons h _ ih =>
    intro j hj
    rcases List.mem_cons.1 hj with rfl | hj
    · exact wf_obj.2 h.wf
    · exact ih j hj

theorem wf_viewEntries : ∀ (ws : List Written) (off : ℕ), ∀ j ∈ viewEntries off ws, j.Wf
  | [], _ => by simp [viewEntries]
  | w :: ws, off => by
    intro j hj
    rcases List.mem_cons.1 hj with rfl | hj
    · refine wf_obj.2 ⟨?_, fun e he => ?_⟩
      · unfold Ordered
        simp only [List.pairwise_cons, List.mem_cons, List.not_mem_nil, or_false, forall_eq_or_imp, forall_eq, false_implies,
          implies_true, List.Pairwise.nil, and_true]
        decide
      · simp only [List.mem_cons, List.not_mem_nil, or_false] at he
        rcases he with rfl | rfl | rfl <;> trivial
    · exact wf_viewEntries ws _ j hj

theorem reads_viewEntries : ∀ (ws : List Written) (off : ℕ), Reads parseView (viewEntries off ws) (picViews off ws)
  | [], _ => .nil
  | w :: ws, off => by
    refine .cons ⟨_, rfl, ?_⟩ (reads_viewEntries ws _)
    refine parseView_ok ⟨rfl, by simp, by simp⟩ ?_ ?_ ?_ ?_ ?_ <;> simp [numberOf, Dict.get?, Json.number?]

theorem good_picViews : ∀ (ws : List Written) (off : ℕ), ∀ v ∈ picViews off ws, GoodView v
  | [], _ => by simp [picViews]
  | w :: ws, off => by
    intro v hv
    rcases List.mem_cons.1 hv with rfl | hv
    · exact ⟨rfl, by simp, by simp⟩
    · exact good_picViews ws _ v hv

theorem addToBody_some {files : Files} {enc : BodyEncoder} {uri : String} {d : List UInt8} (h : files uri = some d) :
    ∃ enc' : BodyEncoder, enc.addToBody files uri = .ok (enc', enc.length, (pad4 d).length) ∧ enc'.bytes = enc.bytes ++ pad4 d ∧
      enc'.length = enc.length + (pad4 d).length := by
  refine ⟨⟨enc.length + (pad4 d).length, enc.parts ++ [(enc.length, pad4 d)]⟩, ?_, ?_, rfl⟩
  · unfold BodyEncoder.addToBody
    rw [h]
  · simp [BodyEncoder.bytes]

theorem convert_images {L : Loader} {f : Number → Option ℚ} {files : Files} {mime : String → Option String} :
    ∀ {i : ℕ} {imgs : List Image} {pics : List Written}, GoodImages i imgs → List.Forall₂ (Picture L) imgs pics →
    (∀ w ∈ pics, files w.1 = some w.2) → ∀ (vs : List (Json ℚ)) (enc : BodyEncoder),
    ∃ ims enc', convertImageEntries files mime ((imgs.map writeImage).map (Json.print f)) vs enc =
        .ok (ims, vs ++ viewEntries enc.length pics, enc') ∧ PicEntries vs.length pics.length ims ∧
      enc'.bytes = enc.bytes ++ bodyOf pics ∧ enc'.length = enc.length + (bodyOf pics).length := by
  intro i imgs pics hg hp
  induction hp generalizing i with
  | nil => intro _ vs enc; exact ⟨[], enc, by simp [convertImageEntries, viewEntries], .nil _, by simp [bodyOf], by simp [bodyOf]⟩
  | @cons img w imgs pics h1 _ ih =>
    intro hf vs enc
    cases hg with
    | cons g1 g2 =>
      obtain ⟨o, e1, e2, e3⟩ := image_fields img
      have hfile : files img.uri = some w.2 := by rw [← h1.1]; exact hf w List.mem_cons_self
      obtain ⟨enc1, a1, a2, a3⟩ := addToBody_some (enc := enc) hfile
      obtain ⟨ims, enc', b1, b2, b3, b4⟩ := ih g2 (fun w hw => hf w (List.mem_cons_of_mem _ hw))
        (vs ++ [.obj [("buffer", .int 0), ("byteLength", .int (pad4 w.2).length), ("byteOffset", .int enc.length)]]) enc1
      have hitem : ((writeImage img).print f).item "uri" = .ok (.str img.uri) := by
        rw [e1, print_obj]
        show Dict.get _ _ = _
        rw [Dict.get_eq_ok, get?_printFields, e3]
        simp [Json.print]
      have hne : img.uri ≠ "" := by
        rw [g1.uri]; unfold pngName; intro e; have := congrArg String.toList e; simp at this
      have hn : (img.uri == "") = false := by simpa using hne
      have hprint : (writeImage img).print f = .obj (Json.printFields f o) := by rw [e1, print_obj]
      let m : Json ℚ := match mime img.uri with | some s => .str s | none => .null
      have hm : m.Wf := by
        simp only [m]
        split <;> trivial
      refine ⟨.obj (Dict.pop (mapSet (mapSet (Json.printFields f o) "bufferView" (.int vs.length)) "mimeType" m) "uri") :: ims, enc',
        ?_, .cons ⟨?_, ?_, ?_, ?_, ?_⟩ ?_, ?_, ?_⟩
      · rw [a3] at b1
        simp only [List.map_cons, convertImageEntries, hitem, Json.falsy, hn, Json.string, a1, b1, bind, Except.bind, pure, Except.pure,
          Bool.false_eq_true, if_false]
        rw [hprint]
        simp only [Json.setItem, delItem, List.append_assoc, List.cons_append, List.nil_append, viewEntries]
        rfl
      · exact (((e2.print f).set (wf_int _)).set hm).pop _
      · rw [get?_pop_ordered (((e2.print f).set (wf_int _)).set hm).1, if_neg (by decide), get?_mapSet, if_neg (by decide), get?_mapSet,
          if_pos rfl]
      · rw [get?_pop_ordered (((e2.print f).set (wf_int _)).set hm).1, if_pos rfl]
      · rw [get?_pop_ordered (((e2.print f).set (wf_int _)).set hm).1, if_neg (by decide), get?_mapSet, if_neg (by decide), get?_mapSet,
          if_neg (by decide), get?_printFields, e3]
        simp
      · rw [get?_pop_ordered (((e2.print f).set (wf_int _)).set hm).1, if_neg (by decide), get?_mapSet, if_neg (by decide), get?_mapSet,
          if_neg (by decide), get?_printFields, e3]
        simp
      · simpa using b2
      · rw [b3, a2]; simp [bodyOf]
      · rw [b4, a3]; simp [bodyOf]; omega

theorem mapM_views {f : Number → Option ℚ} : ∀ {l : List BufferView}, (∀ v ∈ l, GoodView v) →
    ∃ js, ((l.map writeView).map (Json.print f)).mapM (convertViewEntry [((0 : ℚ), 0)]) = .ok js ∧ Reads parseView js l ∧
      ∀ j ∈ js, j.Wf
  | [], _ => ⟨[], rfl, .nil, by simp⟩
  | v :: l, h => by
    obtain ⟨js, h1, h2, h3⟩ := mapM_views (f := f) (l := l) fun v hv => h v (List.mem_cons_of_mem _ hv)
    obtain ⟨o, a1, a2, a3⟩ := convert_view f (h v List.mem_cons_self)
    refine ⟨.obj o :: js, ?_, .cons ⟨o, rfl, a3⟩ h2, ?_⟩
    · simp only [List.map_cons, List.mapM_cons, a1, h1, bind, Except.bind, pure, Except.pure]
    · intro j hj
      rcases List.mem_cons.1 hj with rfl | hj
      · exact wf_obj.2 a2
      · exact h3 j hj

/-- What the converter makes of the document. -/
structure Converted (f : Number → Option ℚ) (M : Model) (junk : Bool) (bin : String) (d : List UInt8) (pics : List Written)
    (v : Fields ℚ) : Prop where
  wf : WfO v
  other : ∀ k, k ≠ "buffers" → k ≠ "bufferViews" → k ≠ "images" →
    Dict.get? v k = Dict.get? (Json.printFields f (writeDocument junk bin M)) k
  buffers : ∃ o, Dict.get? v "buffers" = some (.arr [.obj o]) ∧ Dict.get? o "uri" = none ∧
    Dict.get? o "byteLength" = some (.int (pad4 d ++ bodyOf pics).length)
  views : ∃ js, Dict.get? v "bufferViews" = some (.arr js) ∧
    Reads parseView js (M.bufferViews ++ picViews (pad4 d).length pics)
  images : (Dict.get? v "images" = none ∧ M.images = []) ∨ ∃ ims, Dict.get? v "images" = some (.arr ims) ∧
    PicEntries M.bufferViews.length pics.length ims

theorem reads_append {α : Type} {parse : Fields ℚ → Except PyErr α} {a b : List (Json ℚ)} {l k : List α} (h1 : Reads parse a l)
    (h2 : Reads parse b k) : Reads parse (a ++ b) (l ++ k) := List.rel_append h1 h2

theorem reads_length {α : Type} {parse : Fields ℚ → Except PyErr α} {a : List (Json ℚ)} {l : List α} (h1 : Reads parse a l) :
    a.length = l.length := List.Forall₂.length_eq h1

theorem convert_document {L : Loader} {f : Number → Option ℚ} {files : Files} {mime : String → Option String} {M : Model} (hM : Writable M)
    {junk : Bool} {bin : String} {d : List UInt8} (hd : M.buffers = [d]) {pics : List Written}
    (hp : List.Forall₂ (Picture L) M.images pics) (hb : files bin = some d) (hf : ∀ w ∈ pics, files w.1 = some w.2) :
    ∃ v enc, convertDocument files mime (.obj (Json.printFields f (writeDocument junk bin M))) = .ok (.obj v, enc) ∧
      Converted f M junk bin d pics v ∧ enc.bytes = pad4 d ++ bodyOf pics ∧ enc.length = (pad4 d ++ bodyOf pics).length := by
  obtain ⟨g1, g2, g3, g4, -⟩ := document_get junk bin M hM.someAccessors hM.someViews (by rw [hd]; simp)
  have hwf := (document_wf (junk := junk) (bin := bin) hM).print f
  obtain ⟨bo, e1, e2, e3, e4⟩ := buffer_fields bin d
  obtain ⟨js, m1, m2, m3⟩ := mapM_views (f := f) hM.views
  obtain ⟨enc1, a1, a2, a3⟩ := addToBody_some (enc := BodyEncoder.empty) hb
  have i1 : (Json.obj (Json.printFields f (writeDocument junk bin M))).item "buffers" = .ok (.arr [.obj (Json.printFields f bo)]) := by
    show Dict.get _ _ = _
    rw [Dict.get_eq_ok, get?_printFields, g2, hd, Option.map_some, print_arr]
    rw [List.map_cons, List.map_cons, e1, print_obj]
    rfl
  have i2 : (Json.obj (Json.printFields f (writeDocument junk bin M))).item "bufferViews" =
      .ok (.arr ((M.bufferViews.map writeView).map (Json.print f))) := by
    show Dict.get _ _ = _
    rw [Dict.get_eq_ok, get?_printFields, g3, Option.map_some, print_arr]
  have hwb : WfO (mapSet (Dict.pop (Json.printFields f bo) "uri") "byteLength" (.int (pad4 d).length : Json ℚ)) :=
    ((e2.print f).pop _).set (wf_int _)
  have c1 : convertBufferEntries files [.obj (Json.printFields f bo)] 0 BodyEncoder.empty [] 0 =
      .ok ([.obj (mapSet (Dict.pop (Json.printFields f bo) "uri") "byteLength" (.int (pad4 d).length))], enc1, [((0 : ℚ), 0)]) := by
    have hu : (Json.obj (Json.printFields f bo)).item "uri" = .ok (.str bin) := by
      show Dict.get _ _ = _
      rw [Dict.get_eq_ok, get?_printFields, e4]
      simp [Json.print]
    simp only [convertBufferEntries, hu, Json.string, a1, delItem, Json.setItem, bind, Except.bind, pure, Except.pure]
    rfl
  have hz : BodyEncoder.empty.bytes = [] := rfl
  have hz' : BodyEncoder.empty.length = 0 := rfl
  rw [hz, List.nil_append] at a2
  rw [hz', Nat.zero_add] at a3
  -- the images
  obtain ⟨v1, ims, enc2, k1, k2, k3, k4, k5⟩ : ∃ (v1 : Fields ℚ) (vs : List (Json ℚ)) (enc2 : BodyEncoder),
      (match (Json.obj (Json.printFields f (writeDocument junk bin M))).item "images" with
        | .error _ => (pure (.obj (Json.printFields f (writeDocument junk bin M)), js, enc1) :
            Except PyErr (Json ℚ × List (Json ℚ) × BodyEncoder))
        | .ok images => do
          let images ← images.items
          let (images, views, enc) ← convertImageEntries files mime images js enc1
          let doc ← (Json.obj (Json.printFields f (writeDocument junk bin M))).setItem "images" (.arr images)
          pure (doc, views, enc)) = .ok (.obj v1, js ++ viewEntries (pad4 d).length pics, enc2) ∧
      WfO v1 ∧ (∀ k, k ≠ "images" → Dict.get? v1 k = Dict.get? (Json.printFields f (writeDocument junk bin M)) k) ∧
      ((Dict.get? v1 "images" = none ∧ M.images = []) ∨ ∃ ims, Dict.get? v1 "images" = some (.arr ims) ∧
        PicEntries M.bufferViews.length pics.length ims) ∧ enc2.bytes = pad4 d ++ bodyOf pics ∧
        enc2.length = (pad4 d ++ bodyOf pics).length := by
    by_cases hi : M.images = []
    · have hpn : pics = [] := by
        rw [hi] at hp
        cases hp
        rfl
      subst hpn
      have : (Json.obj (Json.printFields f (writeDocument junk bin M))).item "images" = .error .keyError := by
        show Dict.get _ _ = _
        rw [Dict.get_eq_error]
        refine ⟨?_, rfl⟩
        rw [get?_printFields, g4, if_neg (by simpa using hi)]
        rfl
      refine ⟨_, [], enc1, ?_, hwf, fun _ _ => rfl, Or.inl ⟨?_, hi⟩, by simp [a2, bodyOf], by simp [a3, bodyOf]⟩
      · rw [this]; simp [viewEntries, pure, Except.pure]
      · rw [get?_printFields, g4, if_neg (by simpa using hi)]
        rfl
    · have : (Json.obj (Json.printFields f (writeDocument junk bin M))).item "images" =
          .ok (.arr ((M.images.map writeImage).map (Json.print f))) := by
        show Dict.get _ _ = _
        rw [Dict.get_eq_ok, get?_printFields, g4, if_pos hi, Option.map_some, print_arr]
      obtain ⟨ims, enc', b1, b2, b3, b4⟩ := convert_images (f := f) (mime := mime) hM.images hp hf js enc1
      rw [reads_length m2] at b2
      rw [a3] at b1 b4
      rw [a2] at b3
      refine ⟨mapSet (Json.printFields f (writeDocument junk bin M)) "images" (.arr ims), [], enc', ?_, hwf.set (wf_arr.2 b2.wf),
        fun k hk => ?_, Or.inr ⟨ims, ?_, b2⟩, b3, by rw [b4, List.length_append]⟩
      · rw [this]
        simp only [Json.items, b1, Json.setItem, bind, Except.bind, pure, Except.pure]
      · rw [get?_mapSet, if_neg (Ne.symm hk)]
      · rw [get?_mapSet, if_pos rfl]
  refine ⟨mapSet (mapSet v1 "buffers" (.arr [.obj (mapSet (mapSet (Dict.pop (Json.printFields f bo) "uri") "byteLength"
      (.int (pad4 d).length)) "byteLength" (.int enc2.length))])) "bufferViews" (.arr (js ++ viewEntries (pad4 d).length pics)), enc2, ?_,
    ⟨?_, fun k h1 h2 h3 => ?_, ⟨mapSet (mapSet (Dict.pop (Json.printFields f bo) "uri") "byteLength"
      (.int (pad4 d).length)) "byteLength" (.int enc2.length), ?_, ?_, ?_⟩, ⟨js ++ viewEntries (pad4 d).length pics, ?_, reads_append m2 (reads_viewEntries _ _)⟩, ?_⟩, k5.1, k5.2⟩
  · unfold convertDocument
    have q1 : (Json.arr [Json.obj (Json.printFields f bo)]).items = .ok [Json.obj (Json.printFields f bo)] := rfl
    have q2 : (Json.arr ((M.bufferViews.map writeView).map (Json.print f))).items =
        .ok ((M.bufferViews.map writeView).map (Json.print f)) := rfl
    simp only [i1, i2, q1, q2, c1, m1, bind, Except.bind, pure, Except.pure] at k1 ⊢
    cases hit : (Json.obj (Json.printFields f (writeDocument junk bin M))).item "images" with
    | error e =>
      rw [hit] at k1
      dsimp only at k1 ⊢
      injection k1 with k1
      injection k1 with k11 k12
      injection k12 with k12 k13
      rw [k11, ← k12, k13]
      rfl
    | ok images =>
      rw [hit] at k1
      dsimp only at k1 ⊢
      cases h1 : images.items with
      | error e => rw [h1] at k1; cases k1
      | ok l =>
        rw [h1] at k1
        dsimp only at k1 ⊢
        cases h2 : convertImageEntries files mime l js enc1 with
        | error e => rw [h2] at k1; cases k1
        | ok r =>
          rw [h2] at k1
          dsimp only at k1 ⊢
          cases h3 : (Json.obj (Json.printFields f (writeDocument junk bin M))).setItem "images" (.arr r.1) with
          | error e => rw [h3] at k1; cases k1
          | ok dc =>
            rw [h3] at k1
            dsimp only at k1 ⊢
            injection k1 with k1
            injection k1 with k11 k12
            injection k12 with k12 k13
            rw [k11, k12, k13]
            rfl
  · refine (k2.set (wf_arr.2 ?_)).set (wf_arr.2 ?_)
    · intro j hj
      rw [List.mem_singleton] at hj
      subst hj
      exact wf_obj.2 (hwb.set (wf_int _))
    · intro j hj
      rcases List.mem_append.1 hj with hj | hj
      · exact m3 j hj
      · exact wf_viewEntries _ _ j hj
  · rw [get?_mapSet, if_neg (Ne.symm h2), get?_mapSet, if_neg (Ne.symm h1), k3 k h3]
  · rw [get?_mapSet, if_neg (by decide), get?_mapSet, if_pos rfl]
  · rw [get?_mapSet, if_neg (by decide), get?_mapSet, if_neg (by decide), get?_pop_ordered (e2.print f).1, if_pos rfl]
  · rw [get?_mapSet, if_pos rfl, k5.2]
  · rw [get?_mapSet, if_pos rfl]
  · rw [get?_mapSet, if_neg (by decide), get?_mapSet, if_neg (by decide)]
    exact k4

/-! ### Loading -/

theorem pad4_eq (b : List UInt8) : ∃ n, pad4 b = b ++ List.replicate n 32 := ⟨_, rfl⟩

theorem parse_pictures {L : Loader} {B : List UInt8} {V : List BufferView} {imgs : List Image} {pics : List Written}
    (hp : List.Forall₂ (Picture L) imgs pics) : ∀ {pre : List BufferView} {A : List UInt8} {ims : List (Json ℚ)},
    PicEntries pre.length pics.length ims → V = pre ++ picViews A.length pics → B = A ++ bodyOf pics →
    ∃ res, Reads (parseImage L { buffers := [B], bufferViews := V }) ims res ∧
      List.Forall₂ (fun a b => (∀ x, Holds a x → Holds b x) ∧ b.uri = "" ∧ ∃ x, Holds b x) imgs res := by
  induction hp with
  | nil =>
    intro pre A ims hi _ _
    cases hi
    exact ⟨[], .nil, .nil⟩
  | @cons img w imgs pics h1 _ ih =>
    intro pre A ims hi hV hB
    cases hi with
    | @cons _ _ o l h2 h3 =>
      obtain ⟨w1, w2, x, hx, hdec⟩ := h1
      obtain ⟨res, r1, r2⟩ := ih (pre := pre ++ [⟨0, A.length, (pad4 w.2).length, 0, 0⟩]) (A := A ++ pad4 w.2) (ims := l)
        (by simpa using h3) (by rw [hV]; simp [picViews]) (by rw [hB]; simp [bodyOf])
      obtain ⟨n, hn⟩ := pad4_eq w.2
      obtain ⟨r, hr, hru, hrx⟩ := loadImageData_ok (bytes := pad4 w.2) hx
        ⟨(stringOf o "name").getD "", "", 0, 0, L.uninit.2.2, [], (stringOf o "mimeType").getD ""⟩ (by rw [hn]; exact hdec n)
      refine ⟨r :: res, .cons ⟨o, rfl, ?_⟩ r1, .cons ⟨fun y hy => ?_, hru, x, hrx⟩ r2⟩
      · have b1 : Dict.has o "bufferView" = true := by rw [Dict.has_iff]; exact ⟨_, h2.view⟩
        have b2 : Dict.has o "uri" = false := by rw [Bool.eq_false_iff, Ne, Dict.has_iff, h2.uri]; simp
        have n1 : numberOf o "bufferView" = some ((pre.length : ℕ) : ℚ) := by
          unfold numberOf; rw [h2.view]; simp [Json.number?]
        have n2 : numberOf o "width" = none := by unfold numberOf; rw [h2.width]; rfl
        have n3 : numberOf o "height" = none := by unfold numberOf; rw [h2.height]; rfl
        have t0 : Model.toInt 0 = 0 := by simpa using toInt_natCast 0
        have hv : V[pre.length]? = some ⟨0, A.length, (pad4 w.2).length, 0, 0⟩ := by
          rw [hV, List.getElem?_append_right (le_refl _)]
          simp [picViews]
        unfold parseImage
        simp only [b1, b2, n1, n2, n3, Option.getD_none, t0, toInt_natCast]
        rw [if_neg (by decide), if_pos trivial, if_neg (by omega), if_neg (by omega), Int.toNat_natCast, hv]
        simp only [lt_irrefl, if_false, Int.toNat_zero, List.getElem?_cons_zero]
        rw [if_pos (by rw [hB]; simp [bodyOf])]
        have : List.take (pad4 w.2).length (List.drop A.length B) = pad4 w.2 := by
          rw [hB, List.drop_left, bodyOf, List.map_cons, List.flatten_cons, List.take_left]
        rw [this]
        exact hr
      · have : y = x := by
          have := hy.cvImage
          rw [hx.cvImage] at this
          exact (Except.ok.inj this).symm
        rw [this]
        exact hrx

theorem setURIs_good {imgs res : List Image}
    (h : List.Forall₂ (fun a b => (∀ x, Holds a x → Holds b x) ∧ b.uri = "" ∧ ∃ x, Holds b x) imgs res) : ∀ i,
    ∃ out, Model.setURIsFrom ".png" i res = (out, .ok ()) ∧ GoodImages i out ∧
      List.Forall₂ (fun a b => ∀ x, Holds a x → Holds b x) imgs out := by
  induction h with
  | nil => intro i; exact ⟨[], rfl, .nil _, .nil⟩
  | @cons a b imgs res h1 _ ih =>
    intro i
    obtain ⟨out, e1, e2, e3⟩ := ih (i + 1)
    obtain ⟨k1, k2, x, k3⟩ := h1
    have hh : ∀ y, Holds b y → Holds { b with uri := toString i ++ ".png" } y := fun y hy =>
      ⟨hy.width, hy.height, hy.component, hy.data, hy.sound, hy.pixels⟩
    refine ⟨{ b with uri := toString i ++ ".png" } :: out, ?_, .cons ⟨rfl, x, hh x k3⟩ e2, .cons (fun y hy => hh y (k1 y hy)) e3⟩
    simp only [Model.setURIsFrom, k2, ne_eq, not_true, if_false, e1]

/-- The document of a GLB file with its body. -/
theorem loadDocument_glb {W : Writer} {L : Loader} {f : Number → Option ℚ} {round : ℚ → ℚ} (hF : Faithful W L f round) {M : Model}
    (hM : Good M) {d : List UInt8} (hd : M.buffers = [d]) {pics : List Written}
    (hp : List.Forall₂ (Picture L) M.images pics) {junk : Bool} {bin : String} {v : Fields ℚ} (hc : Converted f M junk bin d pics v)
    {text : List UInt8} (hlen : 4 ≤ text.length) (hparse : L.parse text = some (.obj v)) {size : ℕ}
    (hs : (pad4 d ++ bodyOf pics).length ≤ size) (hne : pad4 d ++ bodyOf pics ≠ []) :
    ∃ N res out, loadDocument L (some (pad4 d ++ bodyOf pics, size)) text = (N, .ok ()) ∧ N.images = res ∧
      Model.setURIsFrom ".png" 0 res = (out, .ok ()) ∧ Kept round M { N with images := out } := by
  obtain ⟨r1, r2, r3, r4, r5, r6, r7, mats, r8, r9⟩ := document_reads hF hM junk bin
  obtain ⟨bo, b1, b2, b3⟩ := hc.buffers
  obtain ⟨js, v1, v2⟩ := hc.views
  have hl : (pad4 d ++ bodyOf pics).length ≠ 0 := fun e => hne (List.length_eq_zero_iff.1 e)
  have hbuf : parseBuffer L (some (pad4 d ++ bodyOf pics, size)) bo = .ok (pad4 d ++ bodyOf pics) := by
    have n1 : numberOf bo "byteLength" = some (((pad4 d ++ bodyOf pics).length : ℕ) : ℚ) := by
      unfold numberOf; rw [b3]; rfl
    have n2 : stringOf bo "uri" = none := by unfold stringOf; rw [b2]
    unfold parseBuffer
    rw [n1, n2]
    simp only [Option.getD_none, toNat_toInt_natCast, ne_eq, not_true, if_false]
    rw [if_neg (by omega), if_neg (by rw [not_lt]; exact_mod_cast hs), if_neg hl, if_pos (le_refl _), List.take_length]
  let K : Model := { buffers := [pad4 d ++ bodyOf pics], bufferViews := M.bufferViews ++ picViews (pad4 d).length pics }
  obtain ⟨res, i1, i2⟩ : ∃ res, ReadsSection (parseImage L K) (Dict.get? v "images") res ∧
      List.Forall₂ (fun a b => (∀ x, Holds a x → Holds b x) ∧ b.uri = "" ∧ ∃ x, Holds b x) M.images res := by
    rcases hc.images with ⟨h1, h2⟩ | ⟨ims, h1, h2⟩
    · exact ⟨[], Or.inl ⟨h1, rfl⟩, by rw [h2]; exact .nil⟩
    · obtain ⟨res, a1, a2⟩ := parse_pictures (L := L) hp h2 rfl rfl
      exact ⟨res, Or.inr ⟨ims, h1, a1⟩, a2⟩
  obtain ⟨out, o1, o2, o3⟩ := setURIs_good i2 0
  let N0 : Model := { M with buffers := [pad4 d ++ bodyOf pics] }
  let N1 : Model := { N0 with bufferViews := M.bufferViews ++ picViews (pad4 d).length pics }
  let N2 : Model := { N1 with accessors := M.accessors.map (backAccessor f) }
  let N3 : Model := { N2 with materials := mats }
  let N : Model := { N3 with images := res }
  have e : ∀ k, k ≠ "buffers" → k ≠ "bufferViews" → k ≠ "images" → Dict.get? v k =
    Dict.get? (Json.printFields f (writeDocument junk bin M)) k := hc.other
  refine ⟨N, res, out, ?_, rfl, o1, ?_⟩
  · refine loadDocument_ok hlen hparse (Or.inr ⟨_, b1, .cons ⟨bo, rfl, hbuf⟩ .nil⟩) (Or.inr ⟨_, v1, v2⟩) ?_ ?_ ?_ ?_ ?_ ?_ i1 ?_ ?_
      (by simp [N, N3, N2, N1, N0]) (by simp [N, N3, N2, N1, hM.someViews]) (by simp [N, N3, N2, hM.someAccessors])
      hM.someNodes hM.someScenes
    · rw [e _ (by decide) (by decide) (by decide)]; exact r1
    · rw [e _ (by decide) (by decide) (by decide)]; exact r2
    · rw [e _ (by decide) (by decide) (by decide)]; exact r3
    · rw [e _ (by decide) (by decide) (by decide)]; exact r4
    · unfold numberOf at r5 ⊢
      rw [e _ (by decide) (by decide) (by decide)]; exact r5
    · rw [e _ (by decide) (by decide) (by decide)]; exact r8
    · rw [e _ (by decide) (by decide) (by decide)]; exact r6
    · rw [e _ (by decide) (by decide) (by decide)]; exact r7
  · obtain ⟨n, hn⟩ := pad4_eq d
    exact ⟨⟨d, List.replicate n 32 ++ bodyOf pics, hd, by simp [N, N3, N2, N1, N0, hn]⟩,
      ⟨picViews (pad4 d).length pics, rfl, good_picViews _ _⟩, ⟨f, rfl⟩, rfl, rfl, rfl, rfl, rfl, r9, o3, o2⟩

/-- Without data loading ends the process. -/
theorem loadDocument_glb_empty {W : Writer} {L : Loader} {f : Number → Option ℚ} {round : ℚ → ℚ} (hF : Faithful W L f round) {M : Model}
    (hM : Good M) {d : List UInt8} {pics : List Written}
    {junk : Bool} {bin : String} {v : Fields ℚ} (hc : Converted f M junk bin d pics v)
    {text : List UInt8} (hlen : 4 ≤ text.length) (hparse : L.parse text = some (.obj v)) {size : ℕ} (hs : 0 < size)
    (hne : pad4 d ++ bodyOf pics = []) :
    loadDocument L (some (pad4 d ++ bodyOf pics, size)) text = ({}, .error .indexError) := by
  obtain ⟨r1, r2, r3, r4, r5, r6, r7, mats, r8, r9⟩ := document_reads hF hM junk bin
  have e : ∀ k, k ≠ "buffers" → k ≠ "bufferViews" → k ≠ "images" → Dict.get? v k =
    Dict.get? (Json.printFields f (writeDocument junk bin M)) k := hc.other
  obtain ⟨js, v1, v2⟩ := hc.views
  obtain ⟨bo, b1, b2, b3⟩ := hc.buffers
  have hbuf : parseBuffer L (some (pad4 d ++ bodyOf pics, size)) bo = .error .indexError := by
    rw [hne] at b3 ⊢
    have n1 : numberOf bo "byteLength" = some ((0 : ℕ) : ℚ) := by
      unfold numberOf; rw [b3]; rfl
    have n2 : stringOf bo "uri" = none := by unfold stringOf; rw [b2]
    unfold parseBuffer
    rw [n1, n2]
    simp only [Option.getD_none, toNat_toInt_natCast, ne_eq, not_true, if_false]
    rw [if_neg (by omega), if_neg (by rw [not_lt]; exact_mod_cast Nat.zero_le _), if_pos trivial]
  have s1 : isArray v "accessors" = true := readsSection_array (l := M.accessors.map (backAccessor f))
    (by rw [e _ (by decide) (by decide) (by decide)]; exact r1) (by simp [hM.someAccessors])
  have s2 : isArray v "nodes" = true := readsSection_array (by rw [e _ (by decide) (by decide) (by decide)]; exact r3) hM.someNodes
  have s3 : isArray v "scenes" = true := readsSection_array (by rw [e _ (by decide) (by decide) (by decide)]; exact r4) hM.someScenes
  unfold loadDocument
  rw [if_neg (by omega), hparse]
  dsimp only
  rw [s1, s2, s3, isArray_ok b1, isArray_ok v1, if_pos (by rfl)]
  have : parseSection v "buffers" (fun _ => parseBuffer L (some (pad4 d ++ bodyOf pics, size))) (fun M b => { M with buffers := M.buffers ++ [b] }) {} =
      ({}, .error .indexError) := by
    unfold parseSection
    rw [b1]
    simp only [parseEach, hbuf]
  simp only [this, Loading.andThen]

/-! ### The file -/

theorem dec_enc_append {n : ℕ} (h : n < 2 ^ 32) (l : List UInt8) : uintCodec.dec (uintCodec.enc n ++ l) = n := by
  simp only [uintCodec, List.cons_append, List.nil_append, List.getD_cons_zero, List.getD_cons_succ, UInt8.toNat_ofNat']
  omega

theorem packU32_eq {n : ℕ} {b : List UInt8} (h : packU32 n = .ok b) : b = uintCodec.enc n ∧ n < 2 ^ 32 := by
  refine ⟨?_, packU32_lt h⟩
  unfold packU32 at h
  rw [if_pos (packU32_lt h)] at h
  exact (Except.ok.inj h).symm

theorem export_bytes {header : List UInt8} {enc : BodyEncoder} {b : List UInt8} (h : exportString header enc = .ok b) :
    28 + (pad4 header).length + enc.length < 2 ^ 32 ∧
    b = uintCodec.enc 0x46546C67 ++ (uintCodec.enc 2 ++ (uintCodec.enc (28 + (pad4 header).length + enc.length) ++
      (uintCodec.enc (pad4 header).length ++ (uintCodec.enc 0x4E4F534A ++ (pad4 header ++ (uintCodec.enc enc.length ++
      (uintCodec.enc 0x004E4942 ++ enc.bytes))))))) := by
  unfold exportString at h
  have e : 12 + 8 + (pad4 header).length + 8 + enc.length = 28 + (pad4 header).length + enc.length := by omega
  simp only [e] at h
  cases h1 : packU32 0x46546C67 with
  | error e => simp only [h1, bind, Except.bind] at h; cases h
  | ok b1 =>
  cases h2 : packU32 2 with
  | error e => simp only [h1, h2, bind, Except.bind] at h; cases h
  | ok b2 =>
  cases h3 : packU32 (28 + (pad4 header).length + enc.length) with
  | error e => simp only [h1, h2, h3, bind, Except.bind] at h; cases h
  | ok b3 =>
  cases h4 : packU32 (pad4 header).length with
  | error e => simp only [h1, h2, h3, h4, bind, Except.bind] at h; cases h
  | ok b4 =>
  cases h5 : packU32 0x4E4F534A with
  | error e => simp only [h1, h2, h3, h4, h5, bind, Except.bind] at h; cases h
  | ok b5 =>
  cases h6 : packU32 enc.length with
  | error e => simp only [h1, h2, h3, h4, h5, h6, bind, Except.bind] at h; cases h
  | ok b6 =>
  cases h7 : packU32 0x004E4942 with
  | error e => simp only [h1, h2, h3, h4, h5, h6, h7, bind, Except.bind] at h; cases h
  | ok b7 =>
  simp only [h1, h2, h3, h4, h5, h6, h7, bind, Except.bind] at h
  injection h with h
  refine ⟨(packU32_eq h3).2, ?_⟩
  rw [← h, (packU32_eq h1).1, (packU32_eq h2).1, (packU32_eq h3).1, (packU32_eq h4).1, (packU32_eq h5).1, (packU32_eq h6).1,
    (packU32_eq h7).1]
  simp only [List.append_assoc]

theorem export_ok {header : List UInt8} {enc : BodyEncoder} (h : 28 + (pad4 header).length + enc.length < 2 ^ 32) :
    ∃ b, exportString header enc = .ok b := by
  obtain ⟨b1, h1, -⟩ := packU32_ok (n := 0x46546C67) (by decide)
  obtain ⟨b2, h2, -⟩ := packU32_ok (n := 2) (by decide)
  obtain ⟨b3, h3, -⟩ := packU32_ok (n := 12 + 8 + (pad4 header).length + 8 + enc.length) (by omega)
  obtain ⟨b4, h4, -⟩ := packU32_ok (n := (pad4 header).length) (by omega)
  obtain ⟨b5, h5, -⟩ := packU32_ok (n := 0x4E4F534A) (by decide)
  obtain ⟨b6, h6, -⟩ := packU32_ok (n := enc.length) (by omega)
  obtain ⟨b7, h7, -⟩ := packU32_ok (n := 0x004E4942) (by decide)
  refine ⟨b1 ++ b2 ++ b3 ++ b4 ++ b5 ++ pad4 header ++ b6 ++ b7 ++ enc.bytes, ?_⟩
  unfold exportString
  simp only [h1, h2, h3, h4, h5, h6, h7, bind, Except.bind]

theorem export_error {header : List UInt8} {enc : BodyEncoder} (h : 2 ^ 32 ≤ 28 + (pad4 header).length + enc.length) :
    exportString header enc = .error .structError := by
  obtain ⟨b1, h1, -⟩ := packU32_ok (n := 0x46546C67) (by decide)
  obtain ⟨b2, h2, -⟩ := packU32_ok (n := 2) (by decide)
  have h3 : packU32 (12 + 8 + (pad4 header).length + 8 + enc.length) = .error .structError := if_neg (by omega)
  unfold exportString
  simp only [h1, h2, h3, bind, Except.bind]

theorem loadBinary_export {L : Loader} {header : List UInt8} {enc : BodyEncoder} {b : List UInt8} (h : exportString header enc = .ok b)
    (hl : enc.length = enc.bytes.length) (hh : header ≠ []) :
    b.length = 28 + (pad4 header).length + enc.length ∧ b.length < 2 ^ 32 ∧
    loadBinary L b = loadDocument L (some (enc.bytes, 8 + enc.length)) (pad4 header) := by
  obtain ⟨hlt, hb⟩ := export_bytes h
  have le : ∀ n, (uintCodec.enc n).length = 4 := fun _ => rfl
  have hlen : b.length = 28 + (pad4 header).length + enc.length := by
    rw [hb]; simp only [List.length_append, le]; omega
  have hpos : 0 < (pad4 header).length := by
    have := (align4_spec header.length).2.1
    have h0 : header.length ≠ 0 := fun e => hh (List.length_eq_zero_iff.1 e)
    rw [length_pad4]; omega
  refine ⟨hlen, by omega, ?_⟩
  have d4 : ∀ (n k : ℕ) (l : List UInt8), (uintCodec.enc n ++ l).drop (4 + k) = l.drop k := fun n k l => by
    rw [← List.drop_drop]; rfl
  have u8 : uintAt b 8 = 28 + (pad4 header).length + enc.length := by
    unfold uintAt
    rw [hb, d4 _ 4, d4 _ 0, List.drop_zero, dec_enc_append hlt]
  have u12 : uintAt b 12 = (pad4 header).length := by
    unfold uintAt
    rw [hb, d4 _ 8, d4 _ 4, d4 _ 0, List.drop_zero, dec_enc_append (by omega)]
  have u16 : uintAt b 16 = 0x4E4F534A := by
    unfold uintAt
    rw [hb, d4 _ 12, d4 _ 8, d4 _ 4, d4 _ 0, List.drop_zero, dec_enc_append (by decide)]
  have t4 : b.take 4 = [103, 108, 84, 70] := by rw [hb]; rfl
  have d20 : b.drop 20 = pad4 header ++ (uintCodec.enc enc.length ++ (uintCodec.enc 0x004E4942 ++ enc.bytes)) := by
    rw [hb, d4 _ 16, d4 _ 12, d4 _ 8, d4 _ 4, d4 _ 0, List.drop_zero]
  have d28 : b.drop (28 + (pad4 header).length) = enc.bytes := by
    rw [show 28 + (pad4 header).length = 20 + ((pad4 header).length + 8) by omega, ← List.drop_drop, d20, ← List.drop_drop,
      List.drop_left, d4 _ 4, d4 _ 0, List.drop_zero]
  unfold loadBinary
  rw [Nat.mod_eq_of_lt (show b.length < 2 ^ 32 by omega)]
  dsimp only
  rw [if_neg (by omega), if_neg (by rw [t4]; simp)]
  simp only [u8, u12, u16]
  rw [if_neg (by rw [hlen]; omega), if_neg (by omega), d20, d28, List.take_left]
  congr 3
  omega

/-! ### `save_as_glb` -/

theorem RootName.root {name root : String} (h : RootName name) (hn : GlbSave.GlbName name root) : RootName root := by
  obtain ⟨rfl, -⟩ := hn
  unfold RootName at h ⊢
  rw [String.toList_append] at h
  exact ⟨fun h' => h.1 (List.mem_append_left _ h'), fun h' => h.2 (List.mem_append_left _ h')⟩

/-- What is exported. -/
structure Exported (W : Writer) (L : Loader) (f : Number → Option ℚ) (M : Model) (root : String) (v : Fields ℚ) (enc : BodyEncoder)
    (d : List UInt8) (pics : List Written) : Prop where
  buffers : M.buffers = [d]
  pictures : List.Forall₂ (Picture L) M.images pics
  write : (exporter W M).write root = (filesOf W M root d pics, .ok ())
  convert : (exporter W M).convert root (GlbSave.contents (filesOf W M root d pics)) = .ok (W.dumps (.obj v), enc)
  model : (saveGltf W [] (fun _ => false) M root).1 = M
  doc : Converted f M W.junk (root ++ ".bin") d pics v
  bytes : enc.bytes = pad4 d ++ bodyOf pics
  length : enc.length = (pad4 d ++ bodyOf pics).length
  header : 4 ≤ (W.dumps (.obj v)).length
  parse : L.parse (pad4 (W.dumps (.obj v))) = some (.obj v)

theorem exported {W : Writer} {L : Loader} {f : Number → Option ℚ} {round : ℚ → ℚ} (hF : Faithful W L f round) {M : Model}
    (hM : Writable M) {root : String} (hr : RootName root) : ∃ v enc d pics, Exported W L f M root v enc d pics := by
  obtain ⟨d, hd⟩ := hM.buffers
  obtain ⟨pics, hp, hs⟩ := saveGltf_good hF hd hM.images hr
  have hnd := filesOf_nodup hM.images hp W root d
  have f1 : GlbSave.contents (filesOf W M root d pics) (root ++ ".bin") = some d := contents_mem hnd List.mem_cons_self
  have f2 : GlbSave.contents (filesOf W M root d pics) (root ++ ".gltf") =
      some (W.dump (.obj (writeDocument W.junk (root ++ ".bin") M)) ++ [10]) :=
    contents_mem hnd (List.mem_cons_of_mem _ List.mem_cons_self)
  have f3 : ∀ w ∈ pics, GlbSave.contents (filesOf W M root d pics) w.1 = some w.2 := fun w hw =>
    contents_mem hnd (List.mem_cons_of_mem _ (List.mem_cons_of_mem _ hw))
  obtain ⟨v, enc, c1, c2, c3, c4⟩ := convert_document (f := f) (mime := W.mime) (junk := W.junk) hM hd hp f1 f3
  have hne : v ≠ [] := by
    obtain ⟨o, h, _⟩ := c2.buffers
    rintro rfl
    cases h
  refine ⟨v, enc, d, pics, hd, hp, ?_, ?_, ?_, c2, c3, c4, hF.dumpsLength v hne, ?_⟩
  · show (saveGltf W [] (fun _ => false) M root).2 = _
    rw [hs]
  · show convertGltf W root _ = _
    have hl := hF.loads _ (wf_obj.2 (document_wf (junk := W.junk) (bin := root ++ ".bin") hM))
    rw [print_obj] at hl
    unfold convertGltf
    rw [f2]
    dsimp only
    rw [hl]
    simp only [c1, bind, Except.bind, pure, Except.pure]
  · rw [hs]
  · exact hF.parsePython v _ (wf_obj.2 c2.wf)

/-- Loading a bundle. -/
theorem loadGlb_bundle {W : Writer} {L : Loader} {f : Number → Option ℚ} {round : ℚ → ℚ} (hF : Faithful W L f round) {M : Model}
    (hM : Good M) {bin : String} {v : Fields ℚ} {enc : BodyEncoder} {d : List UInt8} {pics : List Written}
    (hE1 : M.buffers = [d]) (hE2 : List.Forall₂ (Picture L) M.images pics) (hE3 : Converted f M W.junk bin d pics v)
    (hE4 : enc.bytes = pad4 d ++ bodyOf pics) (hE5 : enc.length = (pad4 d ++ bodyOf pics).length)
    (hE6 : 4 ≤ (W.dumps (.obj v)).length) (hE7 : L.parse (pad4 (W.dumps (.obj v))) = some (.obj v)) {b : List UInt8} (hb : exportString (W.dumps (.obj v)) enc = .ok b) :
    b.length = 28 + (pad4 (W.dumps (.obj v))).length + enc.length ∧ b.length < 2 ^ 32 ∧
    (b.length < 2 ^ 31 → pad4 d ++ bodyOf pics ≠ [] → ∃ N, loadGlb L (some b) = .ok N ∧ Kept round M N) ∧
    (2 ^ 31 ≤ b.length → loadGlb L (some b) = .error .ioError) ∧
    (pad4 d ++ bodyOf pics = [] → b.length < 2 ^ 31 → loadGlb L (some b) = .error .terminated) := by
  have hh : W.dumps (.obj v) ≠ [] := by
    intro e
    have := hE6
    rw [e] at this
    simp at this
  have hpad : 4 ≤ (pad4 (W.dumps (.obj v))).length := by
    rw [length_pad4]
    exact hE6.trans (align4_spec _).2.1
  obtain ⟨b1, b2, b3⟩ := loadBinary_export (L := L) hb (by rw [hE5, hE4]) hh
  rw [hE4] at b3
  refine ⟨b1, b2, fun h31 hne => ?_, fun h31 => ?_, fun he h31 => ?_⟩
  · obtain ⟨N, res, out, n1, n2, n3, n4⟩ := loadDocument_glb hF hM hE1 hE2 hE3 hpad hE7
      (size := 8 + enc.length) (by rw [hE5]; omega) hne
    refine ⟨{ N with images := out }, ?_, n4⟩
    unfold loadGlb
    rw [readWhole_ok (by intro e; rw [e] at b1; simp at b1; omega) h31]
    dsimp only
    rw [b3, n1]
    dsimp only
    rw [n2, n3]
  · unfold loadGlb readWhole
    dsimp only
    rw [Nat.mod_eq_of_lt b2, if_pos h31]
  · have h1 := loadDocument_glb_empty hF hM hE3 hpad hE7 (size := 8 + enc.length) (by omega) he
    unfold loadGlb
    rw [readWhole_ok (by intro e; rw [e] at b1; simp at b1; omega) h31]
    dsimp only
    rw [b3, h1]
    rfl

/-- Loading the exported bytes. -/
theorem loadGlb_export {W : Writer} {L : Loader} {f : Number → Option ℚ} {round : ℚ → ℚ} (hF : Faithful W L f round) {M : Model}
    (hM : Good M) {root : String} {v : Fields ℚ} {enc : BodyEncoder} {d : List UInt8} {pics : List Written}
    (hE : Exported W L f M root v enc d pics) {b : List UInt8} (hb : exportString (W.dumps (.obj v)) enc = .ok b) :
    b.length = 28 + (pad4 (W.dumps (.obj v))).length + enc.length ∧ b.length < 2 ^ 32 ∧
    (b.length < 2 ^ 31 → pad4 d ++ bodyOf pics ≠ [] → ∃ N, loadGlb L (some b) = .ok N ∧ Kept round M N) ∧
    (2 ^ 31 ≤ b.length → loadGlb L (some b) = .error .ioError) ∧
    (pad4 d ++ bodyOf pics = [] → b.length < 2 ^ 31 → loadGlb L (some b) = .error .terminated) :=
  loadGlb_bundle hF hM hE.buffers hE.pictures hE.doc hE.bytes hE.length hE.header hE.parse hb

/-- What `save_as_glb` does. -/
theorem saveAsGlb_exported {W : Writer} {L : Loader} {f : Number → Option ℚ} {M : Model} {os : GlbSave.Os} {temp : GlbSave.Dir}
    {p : GlbSave.GlbPath} {root : String} {v : Fields ℚ} {enc : BodyEncoder} {d : List UInt8} {pics : List Written}
    (hE : Exported W L f M root v enc d pics) (hf : GlbSave.Fresh os temp) (hp : p.absolute = true)
    (hn : GlbSave.GlbName p.name root) :
    (saveAsGlb W M os temp p).1 = M ∧
    (os.isDir p.dirs = true → ∀ b, exportString (W.dumps (.obj v)) enc = .ok b →
      (saveAsGlb W M os temp p).2.2 = .ok () ∧ (saveAsGlb W M os temp p).2.1.file p.dirs p.name = some b) ∧
    (os.isDir p.dirs = true → ∀ e, exportString (W.dumps (.obj v)) enc = .error e → (saveAsGlb W M os temp p).2.2 = .error e) ∧
    (os.isDir p.dirs = false → (saveAsGlb W M os temp p).2.2 = .error .ioError ∨
      (saveAsGlb W M os temp p).2.1.file p.dirs p.name = none) := by
  have hs := GlbSave.splitext_glb hn
  refine ⟨?_, fun hd b hb => ?_, fun hd e he => ?_, fun hd => ?_⟩
  · show (if (GlbSave.splitext p.name).2 = ".glb" then _ else _) = _
    rw [hs, if_pos rfl]
    exact hE.model
  · exact GlbSave.C99_partial (exporter W M) hf hp hn hd (by rw [hE.write]) (by rw [hE.write]; exact hE.convert) hb
  all_goals
    have key : (saveAsGlb W M os temp p).2 = ((((GlbSave.tryBody (exporter W M) ((os.mkdtemp temp).chdir temp) temp root p).1.rmtree temp).chdir
        os.cwd), (GlbSave.tryBody (exporter W M) ((os.mkdtemp temp).chdir temp) temp root p).2) := by
      unfold saveAsGlb GlbSave.saveAsGlb
      dsimp only
      rw [hs, if_neg (by simp)]
      rfl
    obtain ⟨h1, h2, h3⟩ := GlbSave.writeAll_isDir temp (filesOf W M root d pics) ((os.mkdtemp temp).chdir temp)
    have ht : GlbSave.tryBody (exporter W M) ((os.mkdtemp temp).chdir temp) temp root p =
        GlbSave.exportTo ((filesOf W M root d pics).foldl (fun os f => os.write temp f.1 f.2) ((os.mkdtemp temp).chdir temp)) p
          (W.dumps (.obj v)) enc := by
      unfold GlbSave.tryBody
      rw [hE.write]
      dsimp only
      rw [GlbSave.writeAll_contents temp _ ((os.mkdtemp temp).chdir temp) (fun n => hf.2 temp n (List.prefix_refl _)), hE.convert]
    unfold GlbSave.exportTo at ht
    rw [show GlbSave.Os.resolve _ p = p.dirs by unfold GlbSave.Os.resolve; rw [if_pos hp], h1] at ht
    have hdir : ((os.mkdtemp temp).chdir temp).isDir p.dirs = if p.dirs = temp then true else os.isDir p.dirs := rfl
    rw [hdir] at ht
  · have : p.dirs ≠ temp := by
      rintro h
      rw [h, hf.1 temp (List.prefix_refl _)] at hd
      cases hd
    rw [if_neg this, hd, if_pos rfl] at ht
    rw [key, ht]
    unfold exportFile
    rw [he]
  · by_cases h : p.dirs = temp
    · right
      rw [key]
      show (if temp <+: p.dirs then none else _) = _
      rw [if_pos (h ▸ List.prefix_refl _)]
    · left
      rw [if_neg h, hd, if_neg (by simp)] at ht
      rw [key, ht]

end Gltf
end Sumo
