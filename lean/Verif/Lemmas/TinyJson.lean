import Verif.Spec.TinyGltf
import Verif.Lemmas.Gltf
import Mathlib.Data.String.Basic

/-! # Lemmas about JSON documents -/

namespace Sumo
namespace Gltf

/-! ### Maps -/

theorem mem_mapSet {υ : Type} {d : Dict String υ} {k : String} {v : υ} {e : String × υ} (h : e ∈ mapSet d k v) :
    e = (k, v) ∨ e ∈ d := by
  induction d with
  | nil => simpa [mapSet] using h
  | cons p d ih =>
    obtain ⟨a, w⟩ := p
    simp only [mapSet] at h
    split_ifs at h with h1 h2
    · rcases List.mem_cons.1 h with h | h
      · exact Or.inl h
      · exact Or.inr (List.mem_cons_of_mem _ h)
    · rcases List.mem_cons.1 h with h | h
      · exact Or.inl h
      · exact Or.inr h
    · rcases List.mem_cons.1 h with h | h
      · exact Or.inr (h ▸ List.mem_cons_self)
      · exact (ih h).imp id (List.mem_cons_of_mem _)

theorem ordered_mapSet {υ : Type} {d : Dict String υ} (h : Ordered d) (k : String) (v : υ) : Ordered (mapSet d k v) := by
  induction d with
  | nil => simp [mapSet, Ordered]
  | cons p d ih =>
    obtain ⟨a, w⟩ := p
    have h' := List.pairwise_cons.1 h
    simp only [mapSet]
    split_ifs with h1 h2
    · subst h1
      exact List.pairwise_cons.2 ⟨h'.1, h'.2⟩
    · refine List.pairwise_cons.2 ⟨fun e he => ?_, h⟩
      rcases List.mem_cons.1 he with rfl | he
      · exact h2
      · exact lt_trans h2 (h'.1 e he)
    · refine List.pairwise_cons.2 ⟨fun e he => ?_, ih h'.2⟩
      rcases mem_mapSet he with rfl | he
      · exact lt_of_le_of_ne (not_lt.1 h2) h1
      · exact h'.1 e he

theorem Ordered.nodup {υ : Type} {d : Dict String υ} (h : Ordered d) : d.NodupKeys := by
  unfold Dict.NodupKeys Dict.keys
  rw [List.Nodup, List.pairwise_map]
  exact h.imp fun h => ne_of_lt h

theorem Ordered.filter {υ : Type} {d : Dict String υ} (h : Ordered d) (f : String × υ → Bool) : Ordered (d.filter f) :=
  List.Pairwise.filter _ h

theorem Ordered.pop {υ : Type} {d : Dict String υ} (h : Ordered d) (k : String) : Ordered (Dict.pop d k) := by
  rw [Dict.pop_eq_filter h.nodup]
  exact h.filter _

theorem mem_pop {υ : Type} {d : Dict String υ} {k : String} {e : String × υ} (h : e ∈ Dict.pop d k) : e ∈ d := by
  induction d with
  | nil => simp [Dict.pop] at h
  | cons p d ih =>
    obtain ⟨a, w⟩ := p
    simp only [Dict.pop] at h
    split_ifs at h with h1
    · exact List.mem_cons_of_mem _ h
    · rcases List.mem_cons.1 h with h | h
      · exact h ▸ List.mem_cons_self
      · exact List.mem_cons_of_mem _ (ih h)

theorem get?_pop_ordered {υ : Type} {d : Dict String υ} (h : Ordered d) (k k' : String) :
    (Dict.pop d k).get? k' = if k = k' then none else d.get? k' := by
  induction d with
  | nil => simp [Dict.pop]
  | cons p d ih =>
    obtain ⟨a, w⟩ := p
    have h' := List.pairwise_cons.1 h
    simp only [Dict.pop]
    by_cases h1 : a = k
    · subst h1
      rw [if_pos rfl]
      by_cases h2 : a = k'
      · subst h2
        rw [if_pos rfl, Dict.get?_eq_none_iff]
        intro hm
        obtain ⟨v, hv⟩ := Dict.mem_keys.1 hm
        exact absurd (h'.1 _ hv) (lt_irrefl _)
      · rw [if_neg h2, Dict.get?_cons, if_neg h2]
    · rw [if_neg h1, Dict.get?_cons, Dict.get?_cons, ih h'.2]
      by_cases h2 : k = k'
      · subst h2
        rw [if_neg h1, if_pos rfl, if_pos rfl]
      · rw [if_neg h2, if_neg h2]

theorem get?_map_snd {υ ω : Type} (f : String → υ → ω) (d : Dict String υ) (k : String) :
    Dict.get? (d.map fun e => (e.1, f e.1 e.2)) k = (d.get? k).map (f k) := by
  induction d with
  | nil => rfl
  | cons p d ih =>
    obtain ⟨a, w⟩ := p
    simp only [List.map_cons, Dict.get?_cons, ih]
    split_ifs with h
    · rw [h]; rfl
    · rfl

theorem ordered_map_snd {υ ω : Type} (f : String → υ → ω) {d : Dict String υ} (h : Ordered d) :
    Ordered (d.map fun e => (e.1, f e.1 e.2)) := by
  unfold Ordered
  rw [List.pairwise_map]
  exact h

/-! ### Printing -/

variable {ν : Type}

theorem printList_eq (f : ν → Option ℚ) (l : List (Json ν)) : Json.printList f l = l.map (Json.print f) := by
  induction l with
  | nil => rfl
  | cons a l ih => simp only [Json.printList, ih, List.map_cons]

theorem printFields_eq (f : ν → Option ℚ) (d : Fields ν) :
    Json.printFields f d = d.map fun e => (e.1, Json.print f e.2) := by
  induction d with
  | nil => rfl
  | cons a l ih =>
    obtain ⟨k, j⟩ := a
    simp only [Json.printFields, Json.printEntry, ih, List.map_cons]

theorem print_obj (f : ν → Option ℚ) (d : Fields ν) : Json.print f (.obj d) = .obj (Json.printFields f d) := by
  simp only [Json.print]

theorem print_arr (f : ν → Option ℚ) (l : List (Json ν)) : Json.print f (.arr l) = .arr (l.map (Json.print f)) := by
  simp only [Json.print, printList_eq]

theorem print_ofFields (f : ν → Option ℚ) (d : Fields ν) : Json.print f (.ofFields d) = .ofFields (Json.printFields f d) := by
  cases d with
  | nil => simp [Json.ofFields, Json.print, Json.printFields]
  | cons a l => simp [Json.ofFields, Json.print, Json.printFields]

theorem print_ofList (f : ν → Option ℚ) (l : List (Json ν)) : Json.print f (.ofList l) = .ofList (l.map (Json.print f)) := by
  cases l with
  | nil => simp [Json.ofList, Json.print]
  | cons a l => simp [Json.ofList, Json.print, printList_eq]

theorem get?_printFields (f : ν → Option ℚ) (d : Fields ν) (k : String) :
    Dict.get? (Json.printFields f d) k = (d.get? k).map (Json.print f) := by
  rw [printFields_eq]
  exact get?_map_snd (fun _ j => Json.print f j) d k

/-! ### Order -/

/-- An object that is a map, of values that are. -/
def WfO (o : Fields ν) : Prop := Ordered o ∧ ∀ e ∈ o, Json.Wf e.2

theorem wfList_iff (l : List (Json ν)) : Json.WfList l ↔ ∀ j ∈ l, Json.Wf j := by
  induction l with
  | nil => simp [Json.WfList]
  | cons a l ih => simp [Json.WfList, ih]

theorem wfFields_iff (d : Fields ν) : Json.WfFields d ↔ ∀ e ∈ d, Json.Wf e.2 := by
  induction d with
  | nil => simp [Json.WfFields]
  | cons a l ih => obtain ⟨k, j⟩ := a; simp [Json.WfFields, Json.WfEntry, ih]

theorem wf_obj {d : Fields ν} : Json.Wf (.obj d) ↔ WfO d := by
  simp only [Json.Wf, wfFields_iff, WfO]

theorem wf_arr {l : List (Json ν)} : Json.Wf (.arr l) ↔ ∀ j ∈ l, Json.Wf j := by
  simp only [Json.Wf, wfList_iff]

theorem wfO_nil : WfO ([] : Fields ν) := ⟨.nil, by simp⟩

theorem WfO.set {o : Fields ν} (h : WfO o) {k : String} {v : Json ν} (hv : v.Wf) : WfO (mapSet o k v) := by
  refine ⟨ordered_mapSet h.1 k v, fun e he => ?_⟩
  rcases mem_mapSet he with rfl | he
  · exact hv
  · exact h.2 e he

theorem WfO.ite {o o' : Fields ν} {p : Prop} [Decidable p] (h : WfO o) (h' : WfO o') : WfO (if p then o else o') := by
  split_ifs <;> assumption

theorem WfO.pop {o : Fields ν} (h : WfO o) (k : String) : WfO (Dict.pop o k) :=
  ⟨h.1.pop k, fun e he => h.2 e (mem_pop he)⟩

theorem wf_ofFields {o : Fields ν} (h : WfO o) : Json.Wf (.ofFields o) := by
  unfold Json.ofFields
  split_ifs
  · trivial
  · exact wf_obj.2 h

theorem wf_ofList {l : List (Json ν)} (h : ∀ j ∈ l, Json.Wf j) : Json.Wf (.ofList l) := by
  unfold Json.ofList
  split_ifs
  · trivial
  · exact wf_arr.2 h

theorem wf_int (n : ℤ) : Json.Wf (.int n : Json ν) := trivial
theorem wf_str (s : String) : Json.Wf (.str s : Json ν) := trivial
theorem wf_num (x : ν) : Json.Wf (.num x : Json ν) := trivial
theorem wf_bool (b : Bool) : Json.Wf (.bool b : Json ν) := trivial

mutual
theorem wf_print (f : ν → Option ℚ) : ∀ j : Json ν, j.Wf → (j.print f).Wf
  | .null, _ => by simp [Json.print, Json.Wf]
  | .bool _, _ => by simp [Json.print, Json.Wf]
  | .int _, _ => by simp [Json.print, Json.Wf]
  | .num x, _ => by
    simp only [Json.print]
    split <;> trivial
  | .str _, _ => by simp [Json.print, Json.Wf]
  | .arr l, h => by
    simp only [Json.print, Json.Wf] at h ⊢
    exact wf_printList f l h
  | .obj d, h => by
    simp only [Json.print, Json.Wf] at h ⊢
    refine ⟨?_, wf_printFields f d h.2⟩
    rw [printFields_eq]
    exact ordered_map_snd (fun _ j => Json.print f j) h.1
theorem wf_printList (f : ν → Option ℚ) : ∀ l : List (Json ν), Json.WfList l → Json.WfList (Json.printList f l)
  | [], _ => by simp [Json.printList, Json.WfList]
  | j :: l, h => by
    simp only [Json.printList, Json.WfList] at h ⊢
    exact ⟨wf_print f j h.1, wf_printList f l h.2⟩
theorem wf_printFields (f : ν → Option ℚ) : ∀ d : List (String × Json ν), Json.WfFields d → Json.WfFields (Json.printFields f d)
  | [], _ => by simp [Json.printFields, Json.WfFields]
  | e :: d, h => by
    simp only [Json.printFields, Json.WfFields] at h ⊢
    exact ⟨wf_printEntry f e h.1, wf_printFields f d h.2⟩
theorem wf_printEntry (f : ν → Option ℚ) : ∀ e : String × Json ν, Json.WfEntry e → Json.WfEntry (Json.printEntry f e)
  | (k, j), h => by
    simp only [Json.printEntry, Json.WfEntry] at h ⊢
    exact wf_print f j h
end

theorem WfO.print {o : Fields ν} (h : WfO o) (f : ν → Option ℚ) : WfO (Json.printFields f o) := by
  have := wf_print f (.obj o) (wf_obj.2 h)
  rw [print_obj] at this
  exact wf_obj.1 this

/-! ### Reading entries -/

theorem numberOf_print (f : ν → Option ℚ) (o : Fields ν) (k : String) :
    numberOf (Json.printFields f o) k = (o.get? k).bind fun j => (j.print f).number? := by
  unfold numberOf
  rw [get?_printFields]
  cases o.get? k <;> rfl

theorem toInt_intCast (n : ℤ) : Model.toInt (n : ℚ) = n := by
  simp [Model.toInt]

theorem number?_int (n : ℤ) : (Json.int n).number? = some (n : ℚ) := rfl

theorem stringOf_print (f : ν → Option ℚ) (o : Fields ν) (k : String) :
    stringOf (Json.printFields f o) k = match o.get? k with | some (.str s) => some s | _ => none := by
  unfold stringOf
  rw [get?_printFields]
  cases o.get? k with
  | none => rfl
  | some j =>
    cases j with
    | num x =>
      simp only [Option.map_some, Json.print]
      cases f x <;> rfl
    | _ => rfl

end Gltf
end Sumo
