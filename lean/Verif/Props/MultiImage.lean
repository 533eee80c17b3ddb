import Verif.Model.MultiImage
import Verif.Props.Tiff

/-!
# C153: what a MultiImageTiff keeps
-/

namespace Sumo
namespace Tiff

set_option linter.unusedSectionVars false

variable {K : Type} [Field K] [LinearOrder K] [IsStrictOrderedRing K] [FloorRing K]

/-- The operation changes dict `d`. -/
def Touches (d : ℕ) : MultiOp K → Prop
  | .setItem d' _ _ => d' = d
  | .delItem d' _ => d' = d
  | _ => False

/-- The operation changes the contents of array `a`. -/
def Fills (a : ℕ) : MultiOp K → Prop
  | .fill a' _ => a' = a
  | _ => False

/-- The operation writes to `path`. -/
def Writes (path : String) : MultiOp K → Prop
  | .save _ p _ => p = path
  | _ => False

/-! ### One step -/

theorem step_obj (ρ : Rounding K) (wr : String → Bool) (w : World K) (op : MultiOp K) {o : ℕ} {x : MultiObj}
    (h : w.objs[o]? = some x) : (w.step ρ wr op).1.objs[o]? = some x := by
  have hlt : o < w.objs.length := (List.getElem?_eq_some_iff.1 h).1
  cases op with
  | make d =>
    simp only [World.step]
    split_ifs
    · rw [List.getElem?_append_left hlt]; exact h
    · exact h
  | load path options =>
    simp only [World.step, World.load]
    split_ifs
    · exact h
    · split
      · exact h
      · rw [List.getElem?_append_left hlt]; exact h
  | _ => exact h

theorem step_dict (ρ : Rounding K) (wr : String → Bool) (w : World K) (op : MultiOp K) {d : ℕ} {x : Dict String ℕ}
    (h : w.dicts[d]? = some x) (hn : ¬ Touches d op) : (w.step ρ wr op).1.dicts[d]? = some x := by
  have hlt : d < w.dicts.length := (List.getElem?_eq_some_iff.1 h).1
  cases op with
  | dict items => simp only [World.step]; rw [List.getElem?_append_left hlt]; exact h
  | setItem d' k a =>
    have hne : ¬ d' = d := hn
    simp [World.step, hne, h]
  | delItem d' k =>
    have hne : ¬ d' = d := hn
    simp [World.step, hne, h]
  | make d' => simp only [World.step]; split_ifs <;> exact h
  | load path options =>
    simp only [World.step, World.load]
    split_ifs
    · exact h
    · split <;> exact h
  | _ => exact h

theorem step_array (ρ : Rounding K) (wr : String → Bool) (w : World K) (op : MultiOp K) {a : ℕ} {x : NpImage K}
    (h : w.arrays[a]? = some x) (hn : ¬ Fills a op) : (w.step ρ wr op).1.arrays[a]? = some x := by
  have hlt : a < w.arrays.length := (List.getElem?_eq_some_iff.1 h).1
  cases op with
  | array im => simp only [World.step]; rw [List.getElem?_append_left hlt]; exact h
  | fill a' im =>
    simp only [World.step]
    rw [List.getElem?_set_ne (fun e => hn e)]
    exact h
  | make d' => simp only [World.step]; split_ifs <;> exact h
  | load path options =>
    simp only [World.step, World.load]
    split_ifs
    · exact h
    · split
      · exact h
      · rw [List.getElem?_append_left hlt]; exact h
  | _ => exact h

theorem step_file (ρ : Rounding K) (wr : String → Bool) (w : World K) (op : MultiOp K) {path : String}
    (hn : ¬ Writes path op) : (w.step ρ wr op).1.files path = w.files path := by
  cases op with
  | save o p near => exact (C71_refused_unwritten ρ wr w.files _ p _).2 path fun e => hn e.symm
  | make d' => simp only [World.step]; split_ifs <;> rfl
  | load p options =>
    simp only [World.step, World.load]
    split_ifs
    · rfl
    · split <;> rfl
  | _ => rfl

theorem run_obj (ρ : Rounding K) (wr : String → Bool) {o : ℕ} {x : MultiObj} (ops : List (MultiOp K)) :
    ∀ w : World K, w.objs[o]? = some x → (w.run ρ wr ops).objs[o]? = some x := by
  induction ops with
  | nil => exact fun w h => h
  | cons op ops ih => exact fun w h => ih _ (step_obj ρ wr w op h)

theorem run_dict (ρ : Rounding K) (wr : String → Bool) {d : ℕ} {x : Dict String ℕ} (ops : List (MultiOp K)) :
    ∀ w : World K, w.dicts[d]? = some x → (∀ op ∈ ops, ¬ Touches d op) → (w.run ρ wr ops).dicts[d]? = some x := by
  induction ops with
  | nil => exact fun w h _ => h
  | cons op ops ih =>
    exact fun w h hn => ih _ (step_dict ρ wr w op h (hn op (by simp))) fun op' h' => hn op' (by simp [h'])

theorem run_array (ρ : Rounding K) (wr : String → Bool) {a : ℕ} {x : NpImage K} (ops : List (MultiOp K)) :
    ∀ w : World K, w.arrays[a]? = some x → (∀ op ∈ ops, ¬ Fills a op) → (w.run ρ wr ops).arrays[a]? = some x := by
  induction ops with
  | nil => exact fun w h _ => h
  | cons op ops ih =>
    exact fun w h hn => ih _ (step_array ρ wr w op h (hn op (by simp))) fun op' h' => hn op' (by simp [h'])

/-! ### Properties -/

/-- **C153** (partial: the dict must be left alone) If, after `MultiImageTiff(images)`, the program does not change the dict `images`,
the attributes of the object stay the arrays in it, whatever else happens; and if it does not change the contents of these
arrays either, a later `save` writes exactly what an immediate one would have written. -/
theorem C153_made_partial (ρ : Rounding K) (wr : String → Bool) (w : World K) {d : ℕ} {items : Dict String ℕ}
    (hd : w.dicts[d]? = some items) (ops : List (MultiOp K)) (hn : ∀ op ∈ ops, ¬ Touches d op) :
    let w1 := (w.step ρ wr (.make d)).1
    let w2 := w1.run ρ wr ops
    let o := w.objs.length
    (∀ key, w2.getImage o key = items.get? key) ∧
    ((∀ kv ∈ items, kv.2 < w.arrays.length) → (∀ kv ∈ items, ∀ op ∈ ops, ¬ Fills kv.2 op) →
      ∀ path near, ((w2.save ρ wr o path near).1.files path, (w2.save ρ wr o path near).2) =
        if (w1.save ρ wr o path near).2 = .ok () then ((w1.save ρ wr o path near).1.files path, .ok ())
        else (w2.files path, (w1.save ρ wr o path near).2)) := by
  intro w1 w2 o
  have hlt : d < w.dicts.length := (List.getElem?_eq_some_iff.1 hd).1
  have e1 : w1 = { w with objs := w.objs ++ [.shared d] } := by simp [w1, World.step, hlt]
  have ho : w1.objs[o]? = some (.shared d) := by rw [e1]; simp [o]
  have hd1 : w1.dicts[d]? = some items := by rw [e1]; exact hd
  have ho2 : w2.objs[o]? = some (.shared d) := run_obj ρ wr ops w1 ho
  have hd2 : w2.dicts[d]? = some items := run_dict ρ wr ops w1 hd1 hn
  have p1 : w1.pageMap o = items := by simp [World.pageMap, ho, hd1]
  have p2 : w2.pageMap o = items := by simp [World.pageMap, ho2, hd2]
  refine ⟨fun key => by simp [World.getImage, p2], fun hr hf path near => ?_⟩
  have hc : w2.contents items = w1.contents items := by
    unfold World.contents
    refine List.map_congr_left fun kv hkv => ?_
    have hx : w1.arrays[kv.2]? = some (w.arrays[kv.2]'(hr kv hkv)) := by rw [e1]; simp
    rw [run_array ρ wr ops w1 hx (hf kv hkv), hx]
  unfold World.save
  simp only [p1, p2, hc]
  exact save_agree ρ wr w1.files w2.files _ path _
where
  save_agree (ρ : Rounding K) (wr : String → Bool) (f1 f2 : TiffFiles K) (c : Dict String (NpImage K)) (path : String) (near : K) :
      ((Tiff.save ρ wr f2 c path near).1 path, (Tiff.save ρ wr f2 c path near).2) =
        if (Tiff.save ρ wr f1 c path near).2 = .ok () then ((Tiff.save ρ wr f1 c path near).1 path, .ok ())
        else (f2 path, (Tiff.save ρ wr f1 c path near).2) := by
    unfold Tiff.save
    cases validate c with
    | error e => simp
    | ok u =>
      dsimp only
      cases saveLoop ρ near (fun _ => none) c with
      | error e => simp
      | ok pm =>
        dsimp only [writeRgbdTiff]
        split_ifs <;> simp_all

/-- **C153** An object that `load` returns is nobody else's: its attributes never change, whatever the program does; nor do the
contents of the images, unless the program changes the very array. They are new arrays, and just what the file held. -/
theorem C153_loaded (ρ : Rounding K) (wr : String → Bool) (w : World K) {path : String} {images : Dict String (NpImage K)}
    (hl : Tiff.load ρ w.files path = .ok images) (ops : List (MultiOp K)) :
    let w1 := (w.step ρ wr (.load path [])).1
    let w2 := w1.run ρ wr ops
    let o := w.objs.length
    (w.step ρ wr (.load path [])).2 = .ok () ∧
    (∀ key, w2.getImage o key = w1.getImage o key) ∧
    (∀ key a, w1.getImage o key = some a → w.arrays.length ≤ a ∧ a < w1.arrays.length) ∧
    (∀ key, (w1.getImage o key).bind (w1.arrays[·]?) = images.get? key) ∧
    ∀ key, (∀ a, w1.getImage o key = some a → ∀ op ∈ ops, ¬ Fills a op) → (w2.getImage o key).bind (w2.arrays[·]?) = images.get? key := by
  intro w1 w2 o
  have e0 : w.step ρ wr (.load path []) =
      ({ w with arrays := w.arrays ++ images.values, objs := w.objs ++ [.own (newItems w.arrays.length images)] }, .ok ()) := by
    simp [World.step, World.load, hl]
  have e1 : w1 = { w with arrays := w.arrays ++ images.values, objs := w.objs ++ [.own (newItems w.arrays.length images)] } := by
    simp only [w1, e0]
  have ho : w1.objs[o]? = some (.own (newItems w.arrays.length images)) := by rw [e1]; simp [o]
  have ho2 := run_obj ρ wr ops w1 ho
  have p1 : w1.pageMap o = newItems w.arrays.length images := by simp [World.pageMap, ho]
  have p2 : w2.pageMap o = newItems w.arrays.length images := by simp [World.pageMap, w2, ho2]
  have key : ∀ (d : Dict String (NpImage K)) (k : ℕ) (key : String),
      Dict.get? ((d.zipIdx k).map fun x => (x.1.1, w.arrays.length + x.2) : Dict String ℕ) key = none ∧ d.get? key = none ∨
      ∃ i x, Dict.get? ((d.zipIdx k).map fun x => (x.1.1, w.arrays.length + x.2) : Dict String ℕ) key = some (w.arrays.length + (k + i)) ∧
        d.get? key = some x ∧ d.values[i]? = some x := by
    intro d
    induction d with
    | nil => intro k key; left; simp [Dict.get?]
    | cons kv d ih =>
      intro k key
      by_cases hk : kv.1 = key
      · right
        exact ⟨0, kv.2, by simp [Dict.get?, List.zipIdx_cons, hk], by simp [Dict.get?, hk], by simp [Dict.values]⟩
      · rcases ih (k + 1) key with ⟨h1, h2⟩ | ⟨i, x, h1, h2, h3⟩
        · left
          exact ⟨by simpa [Dict.get?, List.zipIdx_cons, hk] using h1, by simpa [Dict.get?, hk] using h2⟩
        · right
          refine ⟨i + 1, x, ?_, by simpa [Dict.get?, hk] using h2, by simpa [Dict.values] using h3⟩
          have : k + (i + 1) = k + 1 + i := by omega
          rw [this]
          simpa [Dict.get?, List.zipIdx_cons, hk] using h1
  have look : ∀ k, (w1.getImage o k = none ∧ images.get? k = none) ∨
      ∃ i x, w1.getImage o k = some (w.arrays.length + i) ∧ images.get? k = some x ∧ images.values[i]? = some x := by
    intro k
    rcases key images 0 k with h | ⟨i, x, h1, h2, h3⟩
    · left; simpa [World.getImage, p1, newItems] using h
    · right; exact ⟨i, x, by simpa [World.getImage, p1, newItems] using h1, h2, h3⟩
  have arr : ∀ i x, images.values[i]? = some x → w1.arrays[w.arrays.length + i]? = some x := by
    intro i x h
    rw [e1]
    simpa [List.getElem?_append_right] using h
  refine ⟨by rw [e0], fun k => by simp [World.getImage, p1, p2], ?_, ?_, ?_⟩
  · intro k a ha
    rcases look k with ⟨h, -⟩ | ⟨i, x, h1, -, h3⟩
    · rw [h] at ha; simp at ha
    · rw [h1] at ha
      simp only [Option.some.injEq] at ha
      subst ha
      exact ⟨by omega, (List.getElem?_eq_some_iff.1 (arr i x h3)).1⟩
  · intro k
    rcases look k with ⟨h, h'⟩ | ⟨i, x, h1, h2, h3⟩
    · rw [h, h']; rfl
    · rw [h1, h2]; exact arr i x h3
  · intro k hf
    have : w2.getImage o k = w1.getImage o k := by simp [World.getImage, p1, p2]
    rw [this]
    rcases look k with ⟨h, h'⟩ | ⟨i, x, h1, h2, h3⟩
    · rw [h, h']; rfl
    · rw [h1, h2]; exact run_array ρ wr ops w1 (arr i x h3) (hf _ h1)

/-- **C153** What was saved stays saved: nothing the program does later to dicts, arrays or objects changes the file, only another
save to the same path. -/
theorem C153_saved (ρ : Rounding K) (wr : String → Bool) {path : String} (ops : List (MultiOp K))
    (hn : ∀ op ∈ ops, ¬ Writes path op) (w : World K) : (w.run ρ wr ops).files path = w.files path := by
  induction ops generalizing w with
  | nil => rfl
  | cons op ops ih =>
    rw [World.run, ih (fun op' h' => hn op' (by simp [h'])), step_file ρ wr w op (hn op (by simp))]

theorem contents_get? (w : World K) (items : Dict String ℕ) (key : String) :
    (w.contents items).get? key = (items.get? key).map fun a => w.arrays[a]?.getD .other := by
  unfold World.contents
  induction items with
  | nil => rfl
  | cons kv l ih =>
    simp only [List.map_cons, Dict.get?]
    split_ifs <;> simp [ih]

/-- **C153** Saving an object and loading the file gives an object with the same colours and labels (`None` where there were none), and
with the ranges up to the quantisation. -/
theorem C153_round_trip {ρ : Rounding K} (hρ : ρ.Lawful) (wr : String → Bool) (w : World K) {o : ℕ}
    (hv : Valid (w.contents (w.pageMap o))) (ha : ∀ kv ∈ w.pageMap o, kv.2 < w.arrays.length) {path : String} (hw : wr path = true)
    {near : Option K} (hn : 0 < near.getD defaultNear) (hs : ρ.IsSingle (ρ.f32 (near.getD defaultNear))) :
    let w1 := (w.step ρ wr (.save o path near)).1
    let w2 := (w1.step ρ wr (.load path [])).1
    let o' := w.objs.length
    (w.step ρ wr (.save o path near)).2 = .ok () ∧ (w1.step ρ wr (.load path [])).2 = .ok () ∧
    (∀ key ∈ ["rgb", "category", "instance"],
      (w2.getImage o' key).bind (w2.arrays[·]?) = (w.getImage o key).bind (w.arrays[·]?)) ∧
    ∃ im im', (w.getImage o "depth").bind (w.arrays[·]?) = some (.f32 im) ∧
      (w2.getImage o' "depth").bind (w2.arrays[·]?) = some (.f32 im') ∧ QuantisedImage (ρ.f32 (near.getD defaultNear)) im im' := by
  intro w1 w2 o'
  obtain ⟨h1, d', h2, h3, im, im', h4, h5, h6⟩ := C71_round_trip hρ wr w.files hv hw hn hs
  have hl : Tiff.load ρ w1.files path = .ok d' := h2
  obtain ⟨g1, -, -, g2, -⟩ := C153_loaded ρ wr w1 hl []
  have hget : ∀ key, (w.getImage o key).bind (w.arrays[·]?) = (w.contents (w.pageMap o)).get? key := by
    intro key
    rw [contents_get?]
    unfold World.getImage
    rcases hk : (w.pageMap o).get? key with - | a
    · rfl
    · have hmem : (key, a) ∈ w.pageMap o := Dict.mem_of_get? hk
      have := ha _ hmem
      simp only [Option.bind_some, Option.map_some]
      rw [List.getElem?_eq_getElem this]; rfl
  have go : w1.objs.length = o' := rfl
  rw [go] at g2
  refine ⟨h1, g1, ?_, im, im', by rw [hget, h4], by rw [← h5]; exact g2 _, h6⟩
  intro key hkey
  rw [hget]
  have hne : key ≠ "depth" := by rintro rfl; simp at hkey
  rw [← h3 key hne]
  exact g2 key

/-- **C153** (false of the code) The object keeps the caller's dict, not the images: deleting a key from the dict takes the image out
of the object, and another object made from the same dict; then it cannot be saved. -/
theorem C153_false : ∃ (w : World K) (ops : List (MultiOp K)), ∀ (ρ : Rounding K) (wr : String → Bool),
    let w' := w.run ρ wr ops
    w.getImage 0 "rgb" = some 0 ∧ w'.getImage 0 "rgb" = none ∧ w.getImage 1 "rgb" = some 0 ∧ w'.getImage 1 "rgb" = none ∧
    ∀ path near, (w'.save ρ wr 0 path near).2 = .error .keyError := by
  refine ⟨⟨fun _ => none, [.rgb8 [[(1, 2, 3)]], .f32 [[.fin 1]]], [[("rgb", 0), ("depth", 1)]], [.shared 0, .shared 0]⟩,
    [.delItem 0 "rgb"], fun ρ wr => ⟨rfl, rfl, rfl, rfl, fun path near => rfl⟩⟩

/-- **C153** (false of the code) The options `load` is documented to take are never taken. -/
theorem C153_options_false (ρ : Rounding K) (wr : String → Bool) (w : World K) (path : String) {options : List String}
    (h : options ≠ []) : w.step ρ wr (.load path options) = (w, .error .typeError) := by
  simp [World.step, World.load, h]

/-- **C153** An object made from inverse depths has no range (`None`), but its saved copy has: the depths these stand for. -/
theorem C153_inverse_depth {ρ : Rounding K} (wr : String → Bool) (w : World K) {d : ℕ} {i j : ℕ}
    (hd : w.dicts[d]? = some [("rgb", i), ("invdepth", j)]) {a : List (List (ℕ × ℕ × ℕ))} (hi : w.arrays[i]? = some (.rgb8 a))
    (pa : HasPixels a) {b : List (List ℕ)} (hj : w.arrays[j]? = some (.u16 b)) (pb : HasPixels b) {path : String}
    (hw : wr path = true) {near : Option K} (hs : ρ.IsSingle (ρ.f32 (near.getD defaultNear))) :
    let w1 := (w.step ρ wr (.make d)).1
    let w2 := (w1.step ρ wr (.save w.objs.length path near)).1
    let w3 := (w2.step ρ wr (.load path [])).1
    w1.getImage w.objs.length "depth" = none ∧
    (w3.getImage (w.objs.length + 1) "depth").bind (w3.arrays[·]?) =
      some (.f32 (b.map fun row => row.map fun c => depthOfInverseDepth ρ c (ρ.f32 (near.getD defaultNear)))) := by
  intro w1 w2 w3
  have hlt : d < w.dicts.length := (List.getElem?_eq_some_iff.1 hd).1
  have e1 : w1 = { w with objs := w.objs ++ [.shared d] } := by simp [w1, World.step, hlt]
  have p1 : w1.pageMap w.objs.length = [("rgb", i), ("invdepth", j)] := by rw [e1]; simp [World.pageMap, hd]
  have hc : w1.contents [("rgb", i), ("invdepth", j)] = [("rgb", .rgb8 a), ("invdepth", .u16 b)] := by
    rw [e1]; simp [World.contents, hi, hj]
  obtain ⟨-, d', h2, -, -, h3⟩ := C71_inverse_depth (ρ := ρ) (K := K) wr w.files (d := [("rgb", .rgb8 a), ("invdepth", .u16 b)])
    (by unfold Dict.NodupKeys Dict.keys; simp) (by simp [Dict.keys]) rfl pa rfl pb (by simp [Dict.get?]) hw hs
  have hl : Tiff.load ρ w2.files path = .ok d' := by
    have : w2.files = (Tiff.save ρ wr w.files [("rgb", .rgb8 a), ("invdepth", .u16 b)] path (near.getD defaultNear)).1 := by
      simp only [w2, World.step, World.save, p1, hc]
      rw [e1]
    rw [this]; exact h2
  obtain ⟨-, -, -, g, -⟩ := C153_loaded ρ wr w2 hl []
  have go : w2.objs.length = w.objs.length + 1 := by simp [w2, World.step, World.save, e1]
  rw [go] at g
  exact ⟨by simp [World.getImage, p1, Dict.get?], by rw [← h3]; exact g "depth"⟩

/-! ### Examples -/

/-- Colours, ranges and instances, a dict of them, and a `MultiImageTiff` of the dict. -/
def exWorld : World ℚ :=
  ⟨fun _ => none, [.rgb8 [[(1, 2, 3), (4, 5, 6)]], .f32 [[.fin 2, .fin 5]], .u16 [[7, 8]]],
    [[("rgb", 0), ("depth", 1), ("instance", 2)]], [.shared 0]⟩

theorem exWorld_valid : Valid (exWorld.contents (exWorld.pageMap 0)) := by
  refine ⟨?_, ?_, ⟨_, rfl, _, List.mem_singleton.2 rfl, by simp⟩, ⟨_, rfl, ⟨_, List.mem_cons_self, by simp⟩⟩, ?_⟩
  · show (["rgb", "depth", "instance"] : List String).Nodup
    decide
  · show ∀ k ∈ (["rgb", "depth", "instance"] : List String), k ∈ ["rgb", "depth", "category", "instance"]
    decide
  · intro k hk im him
    simp only [List.mem_cons, List.not_mem_nil, or_false] at hk
    rcases hk with rfl | rfl
    · cases him
    · cases (him : some (NpImage.u16 [[7, 8]]) = some im)
      exact ⟨_, rfl, _, List.mem_singleton.2 rfl, by simp⟩

/-- The hypotheses of `C153_round_trip` are met: the round trip of the example. -/
example := C153_round_trip exact_lawful (fun _ => true) exWorld (o := 0) exWorld_valid (by decide) (path := "x.tif") rfl
  (near := none) (by norm_num [defaultNear]) (exact_isSingle _)

/-- The hypotheses of `C153_made_partial` are met by a program that changes another dict and a new array. -/
example := C153_made_partial (Rounding.exact ℚ) (fun _ => true) exWorld (d := 0) rfl
  [.dict [("rgb", 0)], .delItem 1 "rgb", .array (.u16 [[1]]), .fill 3 (.u16 [[2]]), .save 0 "y.tif" none]
  (by simp [Touches])

/-- The hypothesis of `C153_loaded` is met: after a save there is a file to load. -/
example : ∃ images, Tiff.load (Rounding.exact ℚ) (exWorld.step (Rounding.exact ℚ) (fun _ => true) (.save 0 "x.tif" none)).1.files "x.tif" =
    .ok images := by
  obtain ⟨-, d', h, -⟩ := C71_round_trip exact_lawful (fun _ => true) exWorld.files exWorld_valid (path := "x.tif") rfl
    (near := defaultNear) (by norm_num [defaultNear]) (exact_isSingle _)
  exact ⟨d', h⟩

/-- The hypotheses of `C153_inverse_depth` are met. -/
example := C153_inverse_depth (ρ := Rounding.exact ℚ) (fun _ => true)
  (⟨fun _ => none, [.rgb8 [[(1, 2, 3)]], .u16 [[7]]], [[("rgb", 0), ("invdepth", 1)]], []⟩ : World ℚ) (d := 0) rfl rfl
  ⟨_, List.mem_singleton.2 rfl, by simp⟩ rfl ⟨_, List.mem_singleton.2 rfl, by simp⟩ (path := "x.tif") rfl (near := none) (exact_isSingle _)

end Tiff
end Sumo
