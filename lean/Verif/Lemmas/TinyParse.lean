import Verif.Lemmas.TinyJson

/-! # Lemmas: what the loader makes of the entries of a document -/

namespace Sumo
namespace Gltf

theorem toNat_toInt_natCast (n : ℕ) : (Model.toInt (n : ℚ)).toNat = n := by
  rw [toInt_natCast]; rfl

theorem print_int {ν : Type} (f : ν → Option ℚ) (n : ℤ) : (Json.int n : Json ν).print f = .int n := by simp only [Json.print]

theorem number?_print_int {ν : Type} (f : ν → Option ℚ) (n : ℤ) : ((Json.int n : Json ν).print f).number? = some (n : ℚ) := by
  rw [print_int]; rfl

/-- Proves that an object is a map, of values that are. -/
macro "wfo" : tactic =>
  `(tactic| repeat' first | exact wfO_nil | exact wf_int _ | exact wf_str _ | exact wf_num _ | with_reducible apply WfO.set |
    with_reducible apply WfO.ite)

/-! ### Views -/

/-- A view of the one buffer as it is written and read. -/
structure GoodView (v : BufferView) : Prop where
  buffer : v.buffer = 0
  stride : v.byteStride ≤ 252 ∧ v.byteStride % 4 = 0
  target : v.target = 0 ∨ v.target = 34962 ∨ v.target = 34963

theorem parseView_ok {o : Fields ℚ} {v : BufferView} (hv : GoodView v) (h1 : numberOf o "buffer" = some (v.buffer : ℚ))
    (h2 : numberOf o "byteLength" = some (v.byteLength : ℚ)) (h3 : (numberOf o "byteStride").getD 0 = (v.byteStride : ℚ))
    (h4 : (numberOf o "byteOffset").getD 0 = (v.byteOffset : ℚ)) (h5 : (numberOf o "target").getD 0 = (v.target : ℚ)) :
    parseView o = .ok v := by
  unfold parseView
  rw [h1, h2]
  simp only [h3, h4, h5, toNat_toInt_natCast, toInt_intCast]
  rw [if_neg (by have := hv.stride; omega)]
  have ht : (if v.target = 34962 ∨ v.target = 34963 then v.target else 0) = v.target := by
    rcases hv.target with h | h | h <;> simp [h]
  rw [ht]

theorem view_fields (v : BufferView) : ∃ o : Fields Number, writeView v = .obj o ∧ WfO o ∧
    o.get? "buffer" = some (.int v.buffer) ∧ o.get? "byteLength" = some (.int v.byteLength) ∧
    o.get? "byteStride" = (if 4 ≤ v.byteStride then some (.int v.byteStride) else none) ∧
    o.get? "byteOffset" = (if 0 < v.byteOffset then some (.int v.byteOffset) else none) ∧
    o.get? "target" = (if v.target = 34962 ∨ v.target = 34963 then some (.int v.target) else none) := by
  refine ⟨_, rfl, ?_, ?_, ?_, ?_, ?_, ?_⟩
  · wfo
  all_goals split_ifs <;> simp [get?_mapSet]

theorem getD_number_ite {p : Prop} [Decidable p] {f : Number → Option ℚ} {n : ℕ} (h : ¬ p → n = 0) :
    (((if p then some (.int n) else none : Option (Json Number))).bind fun j => (j.print f).number?).getD 0 = (n : ℚ) := by
  split_ifs with hp
  · simp [number?_print_int]
  · rw [h hp]; rfl

theorem parse_view (f : Number → Option ℚ) {v : BufferView} (hv : GoodView v) :
    ∃ o : Fields Number, writeView v = .obj o ∧ WfO o ∧ parseView (Json.printFields f o) = .ok v := by
  obtain ⟨o, h0, hw, h1, h2, h3, h4, h5⟩ := view_fields v
  refine ⟨o, h0, hw, parseView_ok hv ?_ ?_ ?_ ?_ ?_⟩ <;> rw [numberOf_print]
  · rw [h1]; exact number?_print_int f _
  · rw [h2]; exact number?_print_int f _
  · rw [h3]; exact getD_number_ite (fun h => by have := hv.stride; omega)
  · rw [h4]; exact getD_number_ite (fun h => by omega)
  · rw [h5]; exact getD_number_ite (fun h => by have := hv.target; tauto)

/-- What the converter makes of a view. -/
theorem convert_view (f : Number → Option ℚ) {v : BufferView} (hv : GoodView v) :
    ∃ o : Fields ℚ, convertViewEntry [((0 : ℚ), 0)] ((writeView v).print f) = .ok (.obj o) ∧ WfO o ∧ parseView o = .ok v := by
  obtain ⟨o, h0, hw, h1, h2, h3, h4, h5⟩ := view_fields v
  rw [h0, print_obj]
  have g1 : Dict.get? (Json.printFields f o) "buffer" = some (.int 0) := by
    rw [get?_printFields, h1, hv.buffer]; simp [Json.print]
  have hoff : viewOffset [((0 : ℚ), 0)] (.obj (Json.printFields f o)) = .ok (.int v.byteOffset) := by
    have g2 : (Json.obj (Json.printFields f o)).item "buffer" = .ok (.int 0) := by
      show Dict.get _ _ = _
      rw [Dict.get_eq_ok]; exact g1
    unfold viewOffset
    rw [g2]
    by_cases hz : 0 < v.byteOffset
    · have g3 : (Json.obj (Json.printFields f o)).item "byteOffset" = .ok (.int v.byteOffset) := by
        show Dict.get _ _ = _
        rw [Dict.get_eq_ok, get?_printFields, h4, if_pos hz]; simp [Json.print]
      rw [g3]
      simp [Json.number?, Dict.get?, Json.plus]
    · have g3 : (Json.obj (Json.printFields f o)).item "byteOffset" = .error .keyError := by
        show Dict.get _ _ = _
        rw [Dict.get_eq_error]
        refine ⟨?_, rfl⟩
        rw [get?_printFields, h4, if_neg hz]; rfl
      rw [g3]
      have : v.byteOffset = 0 := by omega
      simp [this]
  refine ⟨mapSet (mapSet (Json.printFields f o) "byteOffset" (.int v.byteOffset)) "buffer" (.int 0), ?_,
    ((hw.print f).set (wf_int _)).set (wf_int _), parseView_ok hv ?_ ?_ ?_ ?_ ?_⟩
  · unfold convertViewEntry
    rw [hoff]
    rfl
  · simp [numberOf, get?_mapSet, hv.buffer, Json.number?]
  · simp [numberOf, get?_mapSet, get?_printFields, h2, Json.number?, Json.print]
  · have : numberOf (mapSet (mapSet (Json.printFields f o) "byteOffset" (.int v.byteOffset)) "buffer" (.int 0)) "byteStride" =
      numberOf (Json.printFields f o) "byteStride" := by simp [numberOf, get?_mapSet]
    rw [this, numberOf_print, h3]; exact getD_number_ite (fun h => by have := hv.stride; omega)
  · simp [numberOf, get?_mapSet, Json.number?]
  · have : numberOf (mapSet (mapSet (Json.printFields f o) "byteOffset" (.int v.byteOffset)) "buffer" (.int 0)) "target" =
      numberOf (Json.printFields f o) "target" := by simp [numberOf, get?_mapSet]
    rw [this, numberOf_print, h5]; exact getD_number_ite (fun h => by have := hv.target; tauto)

/-! ### Accessors -/

/-- An accessor of a type that has a name. -/
structure GoodAccessor (a : Accessor) : Prop where
  type : typeOfName (typeName a.type) = some a.type
  component : 5120 ≤ a.componentType ∧ a.componentType ≤ 5130

/-- The numbers read from an array: those before the first that has no text. -/
def readNumbers (f : Number → Option ℚ) : List Number → List Number
  | [] => []
  | x :: l => match f x with
    | none => []
    | some q => .real q :: readNumbers f l

/-- The accessor read back. -/
def backAccessor (f : Number → Option ℚ) (a : Accessor) : Accessor :=
  { a with minValues := readNumbers f a.minValues, maxValues := readNumbers f a.maxValues }

theorem numbersIn_print (f : Number → Option ℚ) (l : List Number) :
    (numbersIn ((l.map Json.num).map (Json.print f))).1.map Number.real = readNumbers f l := by
  induction l with
  | nil => rfl
  | cons x l ih =>
    simp only [List.map_cons, numbersIn, readNumbers, Json.print]
    cases hx : f x with
    | none => simp [Json.number?]
    | some q => simp only [Json.number?, List.map_cons, ih]

theorem get?_writeNumbers (key : String) (l : List Number) (o : Fields Number) (k : String) :
    (writeNumbers key l o).get? k = if key = k ∧ l ≠ [] then some (.arr (l.map .num)) else o.get? k := by
  unfold writeNumbers
  cases l with
  | nil => simp
  | cons a l => simp [get?_mapSet]

theorem WfO.numbers {o : Fields Number} (h : WfO o) (key : String) (l : List Number) : WfO (writeNumbers key l o) := by
  unfold writeNumbers
  refine WfO.ite h (h.set (wf_arr.2 fun j hj => ?_))
  obtain ⟨x, _, rfl⟩ := List.mem_map.1 hj
  trivial

theorem numbersOf_print {f : Number → Option ℚ} {o : Fields Number} {k : String} {l : List Number}
    (h : o.get? k = if l ≠ [] then some (.arr (l.map .num)) else none) :
    (numbersOf (Json.printFields f o) k).1.map Number.real = readNumbers f l := by
  unfold numbersOf
  rw [get?_printFields, h]
  cases l with
  | nil => rfl
  | cons x l =>
    rw [if_pos (by simp), Option.map_some, print_arr]
    exact numbersIn_print f (x :: l)

theorem accessor_fields (a : Accessor) : ∃ o : Fields Number, writeAccessor a = .obj o ∧ WfO o ∧
    o.get? "bufferView" = some (.int a.bufferView) ∧
    o.get? "byteOffset" = (if a.byteOffset ≠ 0 then some (.int a.byteOffset) else none) ∧
    o.get? "componentType" = some (.int a.componentType) ∧ o.get? "count" = some (.int a.count) ∧
    o.get? "min" = (if a.minValues ≠ [] then some (.arr (a.minValues.map .num)) else none) ∧
    o.get? "max" = (if a.maxValues ≠ [] then some (.arr (a.maxValues.map .num)) else none) ∧
    o.get? "type" = some (.str (typeName a.type)) := by
  refine ⟨_, rfl, ?_, ?_, ?_, ?_, ?_, ?_, ?_, ?_⟩
  · refine WfO.set (WfO.numbers (WfO.numbers (WfO.set (WfO.set ?_ (wf_int _)) (wf_int _)) _ _) _ _) (wf_str _)
    wfo
  all_goals simp only [get?_mapSet, get?_writeNumbers]
  all_goals split_ifs <;> simp_all [get?_mapSet]

theorem parse_accessor (f : Number → Option ℚ) {a : Accessor} (ha : GoodAccessor a) :
    ∃ o : Fields Number, writeAccessor a = .obj o ∧ WfO o ∧ parseAccessor (Json.printFields f o) = .ok (backAccessor f a) := by
  obtain ⟨o, h0, hw, h1, h2, h3, h4, h5, h6, h7⟩ := accessor_fields a
  refine ⟨o, h0, hw, ?_⟩
  have n1 : numberOf (Json.printFields f o) "bufferView" = some (a.bufferView : ℚ) := by
    rw [numberOf_print, h1]; exact number?_print_int f _
  have n3 : numberOf (Json.printFields f o) "componentType" = some (a.componentType : ℚ) := by
    rw [numberOf_print, h3]; exact number?_print_int f _
  have n4 : numberOf (Json.printFields f o) "count" = some (a.count : ℚ) := by
    rw [numberOf_print, h4]; exact number?_print_int f _
  have n7 : stringOf (Json.printFields f o) "type" = some (typeName a.type) := by rw [stringOf_print, h7]
  have n2 : (numberOf (Json.printFields f o) "byteOffset").getD 0 = (a.byteOffset : ℚ) := by
    rw [numberOf_print, h2]; exact getD_number_ite (fun h => by simpa using h)
  unfold parseAccessor
  simp only [n1, n3, n4, n7, n2, ha.type, toNat_toInt_natCast, toInt_intCast, if_pos ha.component]
  rw [numbersOf_print h5, numbersOf_print h6]
  rfl

/-! ### Meshes -/

/-- A primitive as it is written and read. -/
structure GoodPrimitive (p : Primitive) : Prop where
  attributes : p.attributes ≠ []
  ordered : Ordered p.attributes
  indices : -1 ≤ p.indices
  material : -1 ≤ p.material

theorem getD_index_ite {f : Number → Option ℚ} {n : ℤ} (h : -1 ≤ n) :
    (((if -1 < n then some (.int n) else none : Option (Json Number))).bind fun j => (j.print f).number?).getD (-1) = (n : ℚ) := by
  split_ifs with hp
  · simp [number?_print_int]
  · have : n = -1 := by omega
    rw [this]; simp

theorem toInt_neg_one : Model.toInt (-1) = -1 := by
  have := toInt_intCast (-1)
  simpa using this

theorem attributes_back (d : Dict String ℤ) (f : Number → Option ℚ) :
    (Json.printFields f (d.map fun e => (e.1, (.int e.2 : Json Number)))).mapM
      (fun e => e.2.number?.map fun q => (e.1, Model.toInt q)) = some d := by
  induction d with
  | nil => rfl
  | cons p d ih =>
    obtain ⟨k, n⟩ := p
    simp only [List.map_cons, Json.printFields, Json.printEntry, Json.print, List.mapM_cons, number?_int, Option.map_some,
      toInt_intCast, ih]
    rfl

theorem primitive_fields (p : Primitive) (hp : GoodPrimitive p) : ∃ o : Fields Number, writePrimitive p = .obj o ∧ WfO o ∧
    o.get? "attributes" = some (.obj (p.attributes.map fun e => (e.1, (.int e.2 : Json Number)))) ∧
    o.get? "indices" = (if -1 < p.indices then some (.int p.indices) else none) ∧
    o.get? "material" = (if -1 < p.material then some (.int p.material) else none) ∧
    o.get? "mode" = some (.int p.mode) := by
  have hne : (Json.ofFields (p.attributes.map fun e => (e.1, (.int e.2 : Json Number)))) =
      .obj (p.attributes.map fun e => (e.1, (.int e.2 : Json Number))) := by
    unfold Json.ofFields
    rw [if_neg]
    simpa using hp.attributes
  have hw0 : WfO (p.attributes.map fun e => (e.1, (.int e.2 : Json Number))) := by
    refine ⟨ordered_map_snd (fun _ n => (.int n : Json Number)) hp.ordered, fun e he => ?_⟩
    obtain ⟨x, _, rfl⟩ := List.mem_map.1 he
    trivial
  refine ⟨_, rfl, ?_, ?_, ?_, ?_, ?_⟩
  · have h1 := (wfO_nil (ν := Number)).set (k := "attributes") (wf_ofFields hw0)
    have h2 := WfO.ite (p := -1 < p.indices) (h1.set (k := "indices") (wf_int p.indices)) h1
    have h3 := WfO.ite (p := -1 < p.material) (h2.set (k := "material") (wf_int p.material)) h2
    exact h3.set (wf_int _)
  all_goals simp only [hne]
  all_goals split_ifs <;> simp [get?_mapSet]

theorem parse_primitive (f : Number → Option ℚ) {p : Primitive} (hp : GoodPrimitive p) :
    (writePrimitive p).Wf ∧ parsePrimitive ((writePrimitive p).print f) = some p := by
  obtain ⟨o, h0, hw, h1, h2, h3, h4⟩ := primitive_fields p hp
  rw [h0, print_obj]
  refine ⟨wf_obj.2 hw, ?_⟩
  have ha : attributesOf (Json.printFields f o) = some p.attributes := by
    unfold attributesOf
    rw [get?_printFields, h1, Option.map_some, print_obj]
    exact attributes_back _ f
  have n2 : (numberOf (Json.printFields f o) "indices").getD (-1) = (p.indices : ℚ) := by
    rw [numberOf_print, h2]; exact getD_index_ite hp.indices
  have n3 : (numberOf (Json.printFields f o) "material").getD (-1) = (p.material : ℚ) := by
    rw [numberOf_print, h3]; exact getD_index_ite hp.material
  have n4 : (numberOf (Json.printFields f o) "mode").getD 4 = (p.mode : ℚ) := by
    rw [numberOf_print, h4]
    show ((Json.int (p.mode : ℤ) : Json Number).print f).number?.getD 4 = _
    rw [number?_print_int]; simp
  unfold parsePrimitive
  simp only [ha, n2, n3, n4, Option.map_some, toInt_intCast, toNat_toInt_natCast]

theorem filterMap_all {α β : Type} {g : α → β} {h : β → Option α} {l : List α} (hl : ∀ x ∈ l, h (g x) = some x) :
    (l.map g).filterMap h = l := by
  induction l with
  | nil => rfl
  | cons a l ih =>
    rw [List.map_cons, List.filterMap_cons_some (hl a (by simp)), ih fun x hx => hl x (by simp [hx])]

theorem parse_mesh (f : Number → Option ℚ) {m : List Primitive} (hm : ∀ p ∈ m, GoodPrimitive p) :
    ∃ o : Fields Number, writeMesh m = .obj o ∧ WfO o ∧ parseMesh (Json.printFields f o) = .ok m := by
  refine ⟨_, rfl, wfO_nil.set (wf_ofList fun j hj => ?_), ?_⟩
  · obtain ⟨p, hp, rfl⟩ := List.mem_map.1 hj
    exact (parse_primitive f (hm p hp)).1
  · unfold parseMesh
    rw [get?_printFields, get?_mapSet, if_pos rfl, Option.map_some, print_ofList]
    cases m with
    | nil => rfl
    | cons p m =>
      simp only [Json.ofList, List.map_cons, List.isEmpty_cons, Bool.false_eq_true, if_false]
      rw [← List.map_cons, ← List.map_cons, List.map_map]
      exact congrArg _ (filterMap_all (g := Json.print f ∘ writePrimitive) fun x hx => (parse_primitive f (hm x hx)).2)

/-! ### Nodes, scenes, textures, samplers -/

theorem parse_node (f : Number → Option ℚ) (n : ℤ) :
    ∃ o : Fields Number, writeNode n = .obj o ∧ WfO o ∧ parseNode (Json.printFields f o) = .ok n := by
  refine ⟨_, rfl, by wfo, ?_⟩
  unfold parseNode
  by_cases h : n = -1
  · subst h
    simp only [ne_eq, not_true, if_false]
    rw [get?_printFields, get?_mapSet]
    simp [numberOf_print, get?_mapSet, toInt_neg_one]
  · simp only [ne_eq, h, not_false_eq_true, if_true]
    rw [get?_printFields, get?_mapSet]
    simp [numberOf_print, get?_mapSet, number?_print_int, toInt_intCast]

theorem numbersIn_ints (f : Number → Option ℚ) (l : List ℕ) :
    numbersIn ((l.map fun n : ℕ => (.int n : Json Number)).map (Json.print f)) = (l.map (Nat.cast : ℕ → ℚ), true) := by
  induction l with
  | nil => rfl
  | cons a l ih =>
    simp only [List.map_cons, numbersIn, Json.print, number?_int, ih]
    rfl

theorem parse_scene (f : Number → Option ℚ) {s : List ℕ} (hs : s ≠ []) :
    ∃ o : Fields Number, writeScene s = .obj o ∧ WfO o ∧ parseScene (Json.printFields f o) = .ok s := by
  have he : s.isEmpty = false := by simpa using hs
  refine ⟨mapSet [] "nodes" (.arr (s.map fun n : ℕ => .int n)), ?_, wfO_nil.set (wf_arr.2 fun j hj => ?_), ?_⟩
  · unfold writeScene
    rw [he]
    rfl
  · obtain ⟨x, _, rfl⟩ := List.mem_map.1 hj
    trivial
  · have : numbersOf (Json.printFields f (mapSet [] "nodes" (.arr (s.map fun n : ℕ => .int n)))) "nodes" =
        (s.map (Nat.cast : ℕ → ℚ), true) := by
      unfold numbersOf
      rw [get?_printFields, get?_mapSet, if_pos rfl, Option.map_some, print_arr]
      exact numbersIn_ints f s
    unfold parseScene
    rw [this, if_pos rfl, List.map_map]
    congr 1
    conv_rhs => rw [← List.map_id s]
    exact List.map_congr_left fun n _ => toNat_toInt_natCast n

theorem parse_texture (f : Number → Option ℚ) {t : Texture} (ht : -1 ≤ t.sampler) :
    ∃ o : Fields Number, writeTexture t = .obj o ∧ WfO o ∧ parseTexture (Json.printFields f o) = .ok t := by
  refine ⟨_, rfl, by wfo, ?_⟩
  unfold parseTexture
  have h1 : (mapSet (if -1 < t.sampler then mapSet [] "sampler" (.int t.sampler) else [] : Fields Number) "source"
      (.int t.source)).get? "sampler" = (if -1 < t.sampler then some (.int t.sampler) else none) := by
    split_ifs <;> simp [get?_mapSet]
  rw [numberOf_print, numberOf_print, h1, getD_index_ite ht, get?_mapSet, if_pos rfl]
  simp [number?_print_int, toInt_intCast]

theorem parse_sampler (f : Number → Option ℚ) (s : Sampler) :
    ∃ o : Fields Number, writeSampler s = .obj o ∧ WfO o ∧ parseSampler (Json.printFields f o) = .ok s := by
  refine ⟨_, rfl, by wfo, ?_⟩
  unfold parseSampler
  simp [numberOf_print, get?_mapSet, number?_print_int, toInt_natCast]

end Gltf
end Sumo
