import Verif.Lemmas.TinyLoad
import Verif.Lemmas.Glb

/-! # Lemmas: the files written for a model -/

namespace Sumo
namespace Gltf

/-! ### Names -/

theorem digits_of_toString {n : ℕ} {c : Char} (h : c ∈ (toString n).toList) : c.isDigit = true := by
  rw [Nat.toString_eq_ofList_toDigits, String.toList_ofList] at h
  exact Nat.isDigit_of_mem_toDigits (by decide) (by decide) h

theorem toString_nat_inj {a b : ℕ} (h : toString a = toString b) : a = b := by
  have h' := congrArg String.toList h
  rw [Nat.toString_eq_ofList_toDigits, Nat.toString_eq_ofList_toDigits, String.toList_ofList, String.toList_ofList] at h'
  have := congrArg (fun l => Nat.ofDigitChars 10 l 0) h'
  simpa [Nat.ofDigitChars_ten_toDigits] using this

/-- The name of the `i`-th picture. -/
def pngName (i : ℕ) : String := toString i ++ ".png"

theorem pngName_inj {a b : ℕ} (h : pngName a = pngName b) : a = b := by
  unfold pngName at h
  have := congrArg String.toList h
  rw [String.toList_append, String.toList_append] at this
  exact toString_nat_inj (String.toList_inj.1 (List.append_cancel_right this))

theorem pngName_chars {i : ℕ} {c : Char} (h : c ∈ (pngName i).toList) : c ≠ '/' ∧ c ≠ '\\' := by
  unfold pngName at h
  rw [String.toList_append, List.mem_append] at h
  rcases h with h | h
  · have := digits_of_toString h
    constructor <;> rintro rfl <;> revert this <;> decide
  · have h' : c ∈ ['.', 'p', 'n', 'g'] := h
    simp only [List.mem_cons, List.not_mem_nil, or_false] at h'
    rcases h' with rfl | rfl | rfl | rfl <;> decide

theorem takeWhile_all {α : Type} {p : α → Bool} {l : List α} (h : ∀ x ∈ l, p x = true) : l.takeWhile p = l := by
  induction l with
  | nil => rfl
  | cons a l ih => rw [List.takeWhile_cons_of_pos (h a (by simp)), ih fun x hx => h x (by simp [hx])]

theorem dropWhile_all {α : Type} {p : α → Bool} {l : List α} (h : ∀ x ∈ l, p x = true) : l.dropWhile p = [] := by
  induction l with
  | nil => rfl
  | cons a l ih => rw [List.dropWhile_cons_of_pos (h a (by simp)), ih fun x hx => h x (by simp [hx])]

theorem baseFilename_plain {s : String} (h : ∀ c ∈ s.toList, c ≠ '/' ∧ c ≠ '\\') : baseFilename s = s := by
  unfold baseFilename
  rw [takeWhile_all (fun c hc => by simpa using h c (List.mem_reverse.1 hc)), List.reverse_reverse, String.ofList_toList]

theorem baseDir_plain {s : String} (h : ∀ c ∈ s.toList, c ≠ '/' ∧ c ≠ '\\') : baseDir s = "" := by
  unfold baseDir
  rw [dropWhile_all (fun c hc => by simpa using h c (List.mem_reverse.1 hc))]
  rfl

theorem fileExtension_png (s : String) : fileExtension (s ++ ".png") = "png" := by
  unfold fileExtension
  have e : (s ++ ".png").toList = s.toList ++ ['.', 'p', 'n', 'g'] := by rw [String.toList_append]; rfl
  rw [e, if_pos (by simp), List.reverse_append]
  rfl

theorem canWrite_plain {dirs : List String} {s : String} (h : '/' ∉ s.toList) : canWrite dirs s = true := by
  unfold canWrite
  rw [Bool.or_eq_true]
  left
  simpa using h

theorem RootName.chars {root : String} (h : RootName root) : ∀ c ∈ root.toList, c ≠ '/' ∧ c ≠ '\\' :=
  fun _ hc => ⟨fun e => h.1 (e ▸ hc), fun e => h.2 (e ▸ hc)⟩

theorem RootName.binName {root : String} (h : RootName root) : binName root = root ++ ".bin" := by
  unfold Gltf.binName
  rw [baseFilename_plain h.chars]

theorem RootName.binPath {root : String} (h : RootName root) : binPath root = root ++ ".bin" := by
  unfold Gltf.binPath
  rw [baseDir_plain h.chars, if_pos rfl, h.binName]

theorem RootName.noSlash {root s : String} (h : RootName root) (hs : '/' ∉ s.toList) : '/' ∉ (root ++ s).toList := by
  rw [String.toList_append, List.mem_append]
  exact fun h' => h'.elim h.1 hs

theorem RootName.writeFile {root s : String} (h : RootName root) (hs : '/' ∉ s.toList) (dirs : List String) (b : List UInt8) :
    writeFile dirs (root ++ s) b = [(root ++ s, b)] := by
  unfold Gltf.writeFile
  rw [canWrite_plain (h.noSlash hs), if_pos rfl]

theorem isDataUri_plain {uri : String} (h : '/' ∉ uri.toList) : isDataUri uri = false := by
  unfold isDataUri
  rw [List.any_eq_false]
  intro header hh
  have hm : '/' ∈ header.toList := by
    simp only [List.mem_cons, List.not_mem_nil, or_false] at hh
    rcases hh with rfl | rfl | rfl | rfl | rfl | rfl | rfl <;> decide
  intro hp
  have hp' : header.toList <+: uri.toList := List.isPrefixOf_iff_prefix.1 hp
  exact h (hp'.subset hm)

/-! ### Pictures -/

theorem swapRB_swapRB : ∀ l : List UInt8, swapRB (swapRB l) = l
  | [] => rfl
  | [_] => rfl
  | [_, _] => rfl
  | r :: g :: b :: l => by simp only [swapRB, swapRB_swapRB l]

theorem length_swapRB : ∀ l : List UInt8, (swapRB l).length = l.length
  | [] => rfl
  | [_] => rfl
  | [_, _] => rfl
  | r :: g :: b :: l => by simp only [swapRB, List.length_cons, length_swapRB l]

theorem swapRB_reversed : ∀ l : List UInt8, 3 ∣ l.length → Reversed l (swapRB l)
  | [], _ => ⟨rfl, fun i c _ => by simp [swapRB]⟩
  | [_], h => by simp at h
  | [_, _], h => by simp at h
  | r :: g :: b :: l, h => by
    have ih := swapRB_reversed l (by simp only [List.length_cons] at h; omega)
    refine ⟨by rw [length_swapRB], fun i c hc => ?_⟩
    cases i with
    | zero =>
      simp only [swapRB]
      match c, hc with
      | 0, _ => rfl
      | 1, _ => rfl
      | 2, _ => rfl
    | succ i =>
      simp only [swapRB]
      rw [show 3 * (i + 1) + c = (3 * i + c) + 1 + 1 + 1 by ring, show 3 * (i + 1) + (2 - c) = (3 * i + (2 - c)) + 1 + 1 + 1 by ring]
      simp only [List.getElem?_cons_succ]
      exact ih.2 i c hc

theorem Reversed.unique {a b b' : List UInt8} (h : Reversed a b) (h' : Reversed a b') : b = b' := by
  refine List.ext_getElem? fun k => ?_
  have e : k = 3 * (k / 3) + k % 3 := by omega
  rw [e, h.2 _ _ (Nat.mod_lt _ (by omega)), h'.2 _ _ (Nat.mod_lt _ (by omega))]

theorem Reversed.swapRB_eq {a b : List UInt8} (h : Reversed (swapRB a) b) (h3 : 3 ∣ a.length) : b = a := by
  have := swapRB_reversed (swapRB a) (by rw [length_swapRB]; exact h3)
  rw [swapRB_swapRB] at this
  exact h.unique this

/-- An image with three components that holds the picture `x`. -/
structure Holds (img : Image) (x : Mat3b) : Prop where
  width : img.width = x.cols
  height : img.height = x.rows
  component : img.component = 3
  data : img.image = x.data
  sound : SoundImage x
  pixels : x.rows * x.cols ≠ 0

theorem Holds.cvImage {img : Image} {x : Mat3b} (h : Holds img x) : Model.cvImageFromImage img = .ok x := by
  unfold Model.cvImageFromImage
  rw [h.width, h.height, h.component, h.data]
  rw [if_neg (by decide), if_neg, if_neg (by simp), if_pos rfl]
  · simp
  · have := h.sound
    unfold SoundImage at this
    rw [this]
    push_cast
    rw [not_not]
    ring

theorem Holds.ne_nil {img : Image} {x : Mat3b} (h : Holds img x) : img.image ≠ [] := by
  intro e
  rw [h.data] at e
  have := h.sound
  unfold SoundImage at this
  rw [e] at this
  exact h.pixels (by simpa using this.symm)

/-- The `i`-th image of a model as it is written. -/
structure GoodImage (i : ℕ) (img : Image) : Prop where
  uri : img.uri = pngName i
  holds : ∃ x, Holds img x

/-- The images from number `i` on. -/
inductive GoodImages : ℕ → List Image → Prop
  | nil (i : ℕ) : GoodImages i []
  | cons {i : ℕ} {img : Image} {l : List Image} : GoodImage i img → GoodImages (i + 1) l → GoodImages i (img :: l)

theorem GoodImages.append {i : ℕ} {l : List Image} (h : GoodImages i l) {img : Image} (hi : GoodImage (i + l.length) img) :
    GoodImages i (l ++ [img]) := by
  induction h with
  | nil i => exact .cons (by simpa using hi) (.nil _)
  | @cons i a l h1 h2 ih =>
    refine .cons h1 (ih ?_)
    rw [List.length_cons] at hi
    rwa [show i + 1 + l.length = i + (l.length + 1) by omega]

theorem GoodImages.get {i : ℕ} {l : List Image} (h : GoodImages i l) {k : ℕ} {img : Image} (hk : l[k]? = some img) :
    GoodImage (i + k) img := by
  induction h generalizing k with
  | nil i => simp at hk
  | @cons i a l h1 h2 ih =>
    cases k with
    | zero => simp at hk; subst hk; exact h1
    | succ k =>
      have := ih (k := k) (by simpa using hk)
      rwa [show i + 1 + k = i + (k + 1) by omega] at this

theorem updateImage_good {i j : ℕ} {img : Image} (h : GoodImage i img) : updateImage j img = .ok img := by
  obtain ⟨x, hx⟩ := h.holds
  have hn : imageFilename j img = img.uri := by
    unfold imageFilename
    rw [if_pos (by rw [h.uri]; unfold pngName; intro e; have := congrArg String.toList e; simp at this), h.uri,
      baseFilename_plain fun _ hc => pngName_chars hc]
  unfold updateImage
  rw [hn, h.uri]
  dsimp only
  have hx' : fileExtension (pngName i) = "png" := fileExtension_png (toString i)
  rw [if_pos (Or.inl hx'), if_neg (by simpa using hx.ne_nil), ← h.uri]

theorem updateImages_good {i : ℕ} {l : List Image} (h : GoodImages i l) : ∀ j, updateImages j l = .ok l := by
  induction h with
  | nil i => intro j; rfl
  | cons h1 _ ih =>
    intro j
    simp only [updateImages, updateImage_good h1, ih (j + 1), bind, Except.bind, pure, Except.pure]

/-- What is written for an image: a file of its name, which decodes to its picture, also with spaces after it. -/
def Picture (L : Loader) (img : Image) (w : Written) : Prop :=
  w.1 = img.uri ∧ w.2 ≠ [] ∧ ∃ x, Holds img x ∧ ∀ n, L.decode (w.2 ++ List.replicate n 32) = some (x.cols, x.rows, 3, x.data)

theorem saveImage_good {W : Writer} {L : Loader} {f : Number → Option ℚ} {round : ℚ → ℚ} (hF : Faithful W L f round) {i : ℕ}
    {img : Image} (h : GoodImage i img) :
    ∃ w, (∀ dirs, saveImage W dirs img = .ok [w]) ∧ Picture L img w := by
  obtain ⟨x, hx⟩ := h.holds
  obtain ⟨b, h1, h2, data, h4, h3⟩ := hF.png (toString i) { x with data := swapRB x.data } (by
    have := hx.sound
    unfold SoundImage at this ⊢
    rw [length_swapRB]
    exact this) hx.pixels
  refine ⟨(img.uri, b), fun dirs => ?_, rfl, h2, x, hx, fun n => ?_⟩
  · unfold saveImage
    rw [if_neg (by simpa using hx.ne_nil), hx.cvImage]
    dsimp only
    have hu : img.uri = toString i ++ ".png" := h.uri
    rw [if_neg (by rw [hu]; intro e; have := congrArg String.toList e; simp at this), hu, h1]
    dsimp only
    unfold writeFile
    rw [if_pos (canWrite_plain (fun hc => (pngName_chars (i := i) hc).1 rfl) : canWrite dirs (toString i ++ ".png") = true)]
  · rw [h3 n, h4.swapRB_eq (by have := hx.sound; unfold SoundImage at this; exact ⟨_, this⟩)]

theorem saveImages_good {W : Writer} {L : Loader} {f : Number → Option ℚ} {round : ℚ → ℚ} (hF : Faithful W L f round) {i : ℕ}
    {l : List Image} (h : GoodImages i l) :
    ∃ ws, (∀ dirs, saveImages W dirs l = (ws, .ok ())) ∧ List.Forall₂ (Picture L) l ws := by
  induction h with
  | nil i => exact ⟨[], fun _ => rfl, .nil⟩
  | cons h1 _ ih =>
    obtain ⟨w, a1, a2⟩ := saveImage_good hF h1
    obtain ⟨ws, b1, b2⟩ := ih
    refine ⟨w :: ws, fun dirs => ?_, .cons a2 b2⟩
    simp only [saveImages, a1, b1, List.cons_append, List.nil_append]

/-! ### The files -/

/-- The files of a model: the data, the text and the pictures. -/
def filesOf (W : Writer) (M : Model) (root : String) (d : List UInt8) (pics : List Written) : List Written :=
  (root ++ ".bin", d) :: (root ++ ".gltf", W.dump (.obj (writeDocument W.junk (root ++ ".bin") M)) ++ [10]) :: pics

theorem saveGltf_good {W : Writer} {L : Loader} {f : Number → Option ℚ} {round : ℚ → ℚ} (hF : Faithful W L f round) {M : Model}
    {d : List UInt8} (hb : M.buffers = [d]) (hi : GoodImages 0 M.images) {root : String} (hr : RootName root) :
    ∃ pics, List.Forall₂ (Picture L) M.images pics ∧
      ∀ dirs old, saveGltf W dirs old M root = (M, filesOf W M root d pics, .ok ()) := by
  obtain ⟨pics, h1, h2⟩ := saveImages_good hF hi
  refine ⟨pics, h2, fun dirs old => ?_⟩
  have hw : writeGltfScene W dirs M root = .ok (M, [(root ++ ".bin", d),
      (root ++ ".gltf", W.dump (.obj (writeDocument W.junk (root ++ ".bin") M)) ++ [10])]) := by
    unfold writeGltfScene
    simp only [updateImages_good hi 0, bind, Except.bind, pure, Except.pure]
    rw [hr.binName, hr.binPath, hb, hr.writeFile (s := ".gltf") (by decide), List.flatMap_cons, List.flatMap_nil,
      hr.writeFile (s := ".bin") (by decide)]
    have : ({ M with images := M.images } : Model) = M := rfl
    rw [← hb]
    rfl
  unfold saveGltf
  rw [hw]
  dsimp only
  rw [if_neg (by simp), h1]
  rfl

theorem last_ne {a b : String} {c e : Char} (ha : a.toList.getLast? = some c) (hb : b.toList.getLast? = some e) (h : c ≠ e) :
    a ≠ b := by
  rintro rfl
  rw [ha] at hb
  exact h (Option.some.inj hb)

theorem last_append {s t : String} {c : Char} (h : t.toList.getLast? = some c) : (s ++ t).toList.getLast? = some c := by
  rw [String.toList_append, List.getLast?_append, h]
  rfl

theorem pictures_nodup {L : Loader} {i : ℕ} {l : List Image} (h : GoodImages i l) {ws : List Written}
    (hw : List.Forall₂ (Picture L) l ws) : (ws.map Prod.fst).Nodup ∧ ∀ n ∈ ws.map Prod.fst, ∃ k, i ≤ k ∧ n = pngName k := by
  induction hw generalizing i with
  | nil => simp
  | @cons img w l ws h1 _ ih =>
    cases h with
    | cons g1 g2 =>
      obtain ⟨a1, a2⟩ := ih g2
      have hn : w.1 = pngName i := h1.1.trans g1.uri
      refine ⟨?_, ?_⟩
      · rw [List.map_cons, List.nodup_cons]
        refine ⟨fun hm => ?_, a1⟩
        obtain ⟨k, hk, he⟩ := a2 _ hm
        rw [hn] at he
        have := pngName_inj he
        omega
      · intro n hn'
        rw [List.map_cons, List.mem_cons] at hn'
        rcases hn' with rfl | hn'
        · exact ⟨i, le_refl _, hn⟩
        · obtain ⟨k, hk, he⟩ := a2 n hn'
          exact ⟨k, by omega, he⟩

theorem filesOf_nodup {L : Loader} {M : Model} (hi : GoodImages 0 M.images) {pics : List Written}
    (hp : List.Forall₂ (Picture L) M.images pics) (W : Writer) (root : String) (d : List UInt8) :
    ((filesOf W M root d pics).map Prod.fst).Nodup := by
  obtain ⟨h1, h2⟩ := pictures_nodup hi hp
  have b : (root ++ ".bin").toList.getLast? = some 'n' := last_append rfl
  have g : (root ++ ".gltf").toList.getLast? = some 'f' := last_append rfl
  have p : ∀ k, (pngName k).toList.getLast? = some 'g' := fun k => last_append rfl
  unfold filesOf
  simp only [List.map_cons, List.nodup_cons]
  refine ⟨fun hm => ?_, fun hm => ?_, h1⟩
  · rw [List.mem_cons] at hm
    rcases hm with hm | hm
    · exact last_ne b g (by decide) hm
    · obtain ⟨k, _, hk⟩ := h2 _ hm
      exact last_ne b (p k) (by decide) hk
  · obtain ⟨k, _, hk⟩ := h2 _ hm
    exact last_ne g (p k) (by decide) hk

theorem lastWritten_other {l : List Written} {f : Files} {n : String} (h : n ∉ l.map Prod.fst) : lastWritten l f n = f n := by
  induction l generalizing f with
  | nil => rfl
  | cons w l ih =>
    rw [List.map_cons, List.mem_cons, not_or] at h
    simp only [lastWritten]
    rw [ih h.2, if_neg h.1]

theorem lastWritten_mem {l : List Written} (h : (l.map Prod.fst).Nodup) (f : Files) {n : String} {b : List UInt8}
    (hm : (n, b) ∈ l) : lastWritten l f n = some b := by
  induction l generalizing f with
  | nil => simp at hm
  | cons w l ih =>
    rw [List.map_cons, List.nodup_cons] at h
    simp only [lastWritten]
    rcases List.mem_cons.1 hm with rfl | hm
    · rw [lastWritten_other h.1, if_pos rfl]
    · exact ih h.2 _ hm

theorem contents_mem {l : List Written} (h : (l.map Prod.fst).Nodup) {n : String} {b : List UInt8} (hm : (n, b) ∈ l) :
    GlbSave.contents l n = some b := by
  unfold GlbSave.contents
  have hr : ((l.reverse).map Prod.fst).Nodup := by rw [List.map_reverse]; exact List.nodup_reverse.2 h
  have key : ∀ l : List Written, (l.map Prod.fst).Nodup → (n, b) ∈ l → (l.find? (fun f => n == f.1)).map Prod.snd = some b := by
    intro l hl hm
    induction l with
    | nil => simp at hm
    | cons w l ih =>
      rw [List.map_cons, List.nodup_cons] at hl
      rcases List.mem_cons.1 hm with rfl | hm
      · rw [List.find?_cons_of_pos (by simp)]; rfl
      · rw [List.find?_cons_of_neg, ih hl.2 hm]
        simp only [beq_iff_eq]
        rintro rfl
        exact hl.1 (List.mem_map.2 ⟨_, hm, rfl⟩)
  exact key _ hr (List.mem_reverse.2 hm)

end Gltf
end Sumo
