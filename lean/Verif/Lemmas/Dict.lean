import Verif.Model.Py

/-! Lemmas about the dictionary model. -/

set_option linter.unusedSectionVars false

namespace Sumo
namespace Dict
variable {κ υ : Type} [DecidableEq κ]

@[simp] theorem get?_nil (k : κ) : get? ([] : Dict κ υ) k = none := rfl

theorem get?_cons (k' : κ) (v : υ) (d : Dict κ υ) (k : κ) :
    get? ((k', v) :: d) k = if k' = k then some v else get? d k := rfl

theorem get?_set (d : Dict κ υ) (k : κ) (v : υ) (k' : κ) :
    (d.set k v).get? k' = if k = k' then some v else d.get? k' := by
  induction d with
  | nil => simp [set, get?_cons]
  | cons p d ih =>
    obtain ⟨a, b⟩ := p
    by_cases h : a = k
    · subst h; simp only [set, if_true, get?_cons]; split <;> rfl
    · simp only [set, h, if_false, get?_cons, ih]
      by_cases h2 : a = k'
      · subst h2; simp [Ne.symm h]
      · simp [h2]

@[simp] theorem get?_set_self (d : Dict κ υ) (k : κ) (v : υ) :
    (d.set k v).get? k = some v := by simp [get?_set]

theorem get?_set_ne (d : Dict κ υ) {k k' : κ} (v : υ) (h : k ≠ k') :
    (d.set k v).get? k' = d.get? k' := by simp [get?_set, h]

theorem has_iff (d : Dict κ υ) (k : κ) : d.has k = true ↔ ∃ v, d.get? k = some v := by
  simp [has, Option.isSome_iff_exists]

theorem has_set (d : Dict κ υ) (k : κ) (v : υ) (k' : κ) :
    (d.set k v).has k' = (decide (k = k') || d.has k') := by
  unfold has; rw [get?_set]; split <;> simp_all

theorem get?_eq_none_iff (d : Dict κ υ) (k : κ) : d.get? k = none ↔ k ∉ d.keys := by
  induction d with
  | nil => simp [keys]
  | cons p d ih =>
    obtain ⟨a, b⟩ := p
    simp only [get?_cons, keys, List.map_cons, List.mem_cons, not_or]
    by_cases h : a = k
    · simp [h]
    · simp only [h, if_false, ih, keys]
      constructor
      · intro h1; exact ⟨fun e => h e.symm, h1⟩
      · intro h1; exact h1.2

theorem has_iff_mem_keys (d : Dict κ υ) (k : κ) : d.has k = true ↔ k ∈ d.keys := by
  unfold has
  rw [Option.isSome_iff_ne_none, Ne, get?_eq_none_iff]; simp

theorem mem_of_get? {d : Dict κ υ} {k : κ} {v : υ} (h : d.get? k = some v) : (k, v) ∈ d := by
  induction d with
  | nil => simp at h
  | cons p d ih =>
    obtain ⟨a, b⟩ := p
    simp only [get?_cons] at h
    split at h
    · simp_all
    · exact List.mem_cons_of_mem _ (ih h)

theorem get?_of_mem {d : Dict κ υ} (hn : d.NodupKeys) {k : κ} {v : υ} (h : (k, v) ∈ d) :
    d.get? k = some v := by
  induction d with
  | nil => simp at h
  | cons p d ih =>
    obtain ⟨a, b⟩ := p
    simp only [NodupKeys, keys, List.map_cons, List.nodup_cons] at hn
    rcases List.mem_cons.1 h with h | h
    · cases h; simp [get?_cons]
    · have hne : a ≠ k := by
        intro e; subst e
        exact hn.1 (List.mem_map.2 ⟨(a, v), h, rfl⟩)
      simp [get?_cons, hne, ih hn.2 h]

theorem get?_eq_some_iff {d : Dict κ υ} (hn : d.NodupKeys) {k : κ} {v : υ} :
    d.get? k = some v ↔ (k, v) ∈ d := ⟨mem_of_get?, get?_of_mem hn⟩

theorem keys_set (d : Dict κ υ) (k : κ) (v : υ) :
    (d.set k v).keys = if k ∈ d.keys then d.keys else d.keys ++ [k] := by
  induction d with
  | nil => simp [set, keys]
  | cons p d ih =>
    obtain ⟨a, b⟩ := p
    simp only [keys] at ih
    by_cases h : a = k
    · subst h; simp [set, keys]
    · have : ¬ k = a := fun e => h e.symm
      simp only [set, h, if_false, keys, List.map_cons, List.mem_cons, this, false_or, ih]
      by_cases hk : k ∈ List.map Prod.fst d <;> simp [hk]

theorem mem_keys_set (d : Dict κ υ) (k : κ) (v : υ) (k' : κ) :
    k' ∈ (d.set k v).keys ↔ k' = k ∨ k' ∈ d.keys := by
  rw [keys_set]; split
  · constructor
    · exact Or.inr
    · rintro (rfl | h) <;> assumption
  · simp [or_comm]

theorem nodupKeys_nil : NodupKeys ([] : Dict κ υ) := by simp [NodupKeys, keys]

theorem nodupKeys_set {d : Dict κ υ} (h : d.NodupKeys) (k : κ) (v : υ) :
    (d.set k v).NodupKeys := by
  unfold NodupKeys at *
  rw [keys_set]; split
  · exact h
  · rename_i hk
    rw [List.nodup_append]
    refine ⟨h, by simp, ?_⟩
    intro a ha b hb
    simp at hb; subst hb
    intro e; subst e; exact hk ha

/-- Setting a new key appends. -/
theorem set_of_not_mem {d : Dict κ υ} {k : κ} (h : k ∉ d.keys) (v : υ) :
    d.set k v = d ++ [(k, v)] := by
  induction d with
  | nil => rfl
  | cons p d ih =>
    obtain ⟨a, b⟩ := p
    simp only [keys, List.map_cons, List.mem_cons, not_or] at h
    have : a ≠ k := fun e => h.1 e.symm
    simp only [set, this, if_false, List.cons_append]
    rw [ih h.2]

theorem mem_set {d : Dict κ υ} (hn : d.NodupKeys) (k : κ) (v : υ) (p : κ × υ) :
    p ∈ d.set k v ↔ p = (k, v) ∨ (p.1 ≠ k ∧ p ∈ d) := by
  obtain ⟨a, b⟩ := p
  rw [← get?_eq_some_iff (nodupKeys_set hn k v), get?_set, ← get?_eq_some_iff hn]
  by_cases h : k = a
  · subst h; simp; exact eq_comm
  · simp [h, Ne.symm h]

theorem pop_eq_filter {d : Dict κ υ} (hn : d.NodupKeys) (k : κ) :
    d.pop k = d.filter (fun p => decide (p.1 ≠ k)) := by
  induction d with
  | nil => rfl
  | cons p d ih =>
    obtain ⟨a, b⟩ := p
    simp only [NodupKeys, keys, List.map_cons, List.nodup_cons] at hn
    by_cases h : a = k
    · subst h
      simp only [pop, if_true, ne_eq, List.filter_cons, not_true, decide_false]
      simp only [Bool.false_eq_true, if_false]
      symm
      rw [List.filter_eq_self]
      intro q hq
      have : q.1 ≠ a := by
        intro e; apply hn.1; rw [← e]; exact List.mem_map.2 ⟨q, hq, rfl⟩
      simp [this]
    · simp only [pop, h, if_false, ih hn.2]
      simp [h]

theorem nodupKeys_filter {d : Dict κ υ} (hn : d.NodupKeys) (f : κ × υ → Bool) :
    NodupKeys (d.filter f) := by
  unfold NodupKeys keys at *
  exact List.Nodup.sublist (List.Sublist.map _ List.filter_sublist) hn

theorem nodupKeys_pop {d : Dict κ υ} (hn : d.NodupKeys) (k : κ) : (d.pop k).NodupKeys := by
  rw [pop_eq_filter hn]; exact nodupKeys_filter hn _

theorem mem_values {d : Dict κ υ} {v : υ} : v ∈ d.values ↔ ∃ k, (k, v) ∈ d := by
  simp [values]

theorem mem_keys {d : Dict κ υ} {k : κ} : k ∈ d.keys ↔ ∃ v, (k, v) ∈ d := by
  simp [keys]

theorem get_eq_ok {d : Dict κ υ} {k : κ} {v : υ} : d.get k = .ok v ↔ d.get? k = some v := by
  unfold get; split <;> simp_all

theorem get_eq_error {d : Dict κ υ} {k : κ} {e : PyErr} :
    d.get k = .error e ↔ d.get? k = none ∧ e = .keyError := by
  unfold get; cases h : d.get? k <;> simp [eq_comm]

/-- Filling an empty dict with items of distinct keys, in order, gives these items. -/
theorem foldl_set_eq {α : Type} (key : α → κ) (val : α → υ) (l : List α) (d : Dict κ υ)
    (hn : (l.map key).Nodup) (hd : ∀ a ∈ l, key a ∉ d.keys) :
    l.foldl (fun d a => d.set (key a) (val a)) d = d ++ l.map (fun a => (key a, val a)) := by
  induction l generalizing d with
  | nil => simp
  | cons a l ih =>
    simp only [List.map_cons, List.nodup_cons] at hn
    rw [List.foldl_cons, set_of_not_mem (hd a (by simp)), ih _ hn.2]
    · simp
    · intro b hb
      simp only [keys, List.map_append, List.map_cons, List.map_nil, List.mem_append,
        List.mem_singleton, not_or]
      refine ⟨hd b (by simp [hb]), ?_⟩
      intro e; exact hn.1 (e ▸ List.mem_map.2 ⟨b, hb, rfl⟩)

end Dict
end Sumo
