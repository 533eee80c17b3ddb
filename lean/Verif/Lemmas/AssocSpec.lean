import Verif.Spec.Assoc
import Verif.Lemmas.Dict
import Mathlib.Data.List.Induction

/-! The greedy association is unique; stable sorting lemmas. -/

set_option linter.unusedSectionVars false

namespace Sumo

section sorting
variable {α κ : Type} [LinearOrder κ]

/-- Relation established by a stable descending sort. -/
def SortRel (key : α → κ) (pos : α → Nat) (a b : α) : Prop :=
  key b < key a ∨ (key a = key b ∧ pos a < pos b)

theorem pairwise_orderedInsert_rev (key : α → κ) (pos : α → Nat) (a : α) (s : List α)
    (hpos : ∀ x ∈ s, pos a < pos x) (hs : s.Pairwise (SortRel key pos)) :
    (s.orderedInsert (fun a b => key b ≤ key a) a).Pairwise (SortRel key pos) := by
  induction s with
  | nil => simp
  | cons b s ih =>
    rw [List.pairwise_cons] at hs
    simp only [List.orderedInsert]
    split
    · rename_i hba
      rw [List.pairwise_cons]
      refine ⟨?_, List.pairwise_cons.2 hs⟩
      intro x hx
      have hxa : key x ≤ key a := by
        rcases List.mem_cons.1 hx with rfl | hx
        · exact hba
        · rcases hs.1 x hx with h | h
          · exact (le_of_lt h).trans hba
          · exact h.1 ▸ hba
      rcases lt_or_eq_of_le hxa with h | h
      · exact Or.inl h
      · exact Or.inr ⟨h.symm, hpos x hx⟩
    · rename_i hba
      rw [List.pairwise_cons]
      refine ⟨?_, ih (fun x hx => hpos x (List.mem_cons_of_mem _ hx)) hs.2⟩
      intro x hx
      rw [List.mem_orderedInsert] at hx
      rcases hx with rfl | hx
      · exact Or.inl (lt_of_not_ge hba)
      · exact hs.1 x hx

theorem pairwise_pySortedRev (key : α → κ) (pos : α → Nat) (l : List α)
    (hl : l.Pairwise (fun a b => pos a < pos b)) :
    (pySortedRev key l).Pairwise (SortRel key pos) := by
  unfold pySortedRev
  induction l with
  | nil => simp
  | cons a l ih =>
    rw [List.pairwise_cons] at hl
    rw [List.insertionSort_cons]
    apply pairwise_orderedInsert_rev
    · intro x hx; rw [List.mem_insertionSort] at hx; exact hl.1 x hx
    · exact ih hl.2

theorem mem_pySortedRev (key : α → κ) (l : List α) (x : α) : x ∈ pySortedRev key l ↔ x ∈ l := by
  unfold pySortedRev; exact List.mem_insertionSort _

theorem perm_pySortedRev (key : α → κ) (l : List α) : (pySortedRev key l).Perm l :=
  List.perm_insertionSort _ _

/-- The element a stable ascending sort puts last: the maximum, the latest one among ties. -/
def bestOf (key : α → κ) : List α → Option α
  | [] => none
  | a :: l =>
    match bestOf key l with
    | none => some a
    | some y => if key a ≤ key y then some y else some a

theorem getLast?_orderedInsert (key : α → κ) (a : α) (s : List α)
    (hs : s.Pairwise (fun a b => key a ≤ key b)) :
    (s.orderedInsert (fun a b => key a ≤ key b) a).getLast? =
      match s.getLast? with
      | none => some a
      | some y => if key a ≤ key y then some y else some a := by
  induction s with
  | nil => simp
  | cons b s ih =>
    rw [List.pairwise_cons] at hs
    simp only [List.orderedInsert]
    split
    · rename_i hab
      rw [List.getLast?_cons_cons]
      have : ∃ y, (b :: s).getLast? = some y ∧ key b ≤ key y := by
        cases hl : s.getLast? with
        | none =>
          rw [List.getLast?_eq_none_iff] at hl; subst hl
          exact ⟨b, by simp, le_refl _⟩
        | some y =>
          exact ⟨y, by rw [List.getLast?_cons, hl]; simp, hs.1 y (List.mem_of_getLast? hl)⟩
      obtain ⟨y, hy, hby⟩ := this
      rw [hy]; simp [hab.trans hby]
    · rename_i hab
      rw [List.getLast?_cons, ih hs.2, List.getLast?_cons]
      cases hl : s.getLast? with
      | none => simp [hab]
      | some y =>
        simp only [Option.getD_some]
        split <;> simp

theorem getLast?_pySorted (key : α → κ) (l : List α) :
    (pySorted key l).getLast? = bestOf key l := by
  induction l with
  | nil => rfl
  | cons a l ih =>
    unfold pySorted at *
    rw [List.insertionSort_cons, getLast?_orderedInsert, ih]
    · rfl
    · have htot : Std.Total (fun a b : α => key a ≤ key b) := ⟨fun a b => le_total _ _⟩
      have htr : IsTrans α (fun a b => key a ≤ key b) := ⟨fun a b c h1 h2 => le_trans h1 h2⟩
      exact List.pairwise_insertionSort _ _

theorem bestOf_none {key : α → κ} {l : List α} : bestOf key l = none ↔ l = [] := by
  cases l with
  | nil => simp [bestOf]
  | cons a l =>
    simp only [bestOf]
    cases bestOf key l with
    | none => simp
    | some y => simp only; split <;> simp

theorem bestOf_mem {key : α → κ} {l : List α} {x : α} (h : bestOf key l = some x) : x ∈ l := by
  induction l with
  | nil => simp [bestOf] at h
  | cons a l ih =>
    simp only [bestOf] at h
    cases hb : bestOf key l with
    | none => rw [hb] at h; simp at h; simp [h]
    | some y =>
      rw [hb] at h; simp only at h
      split at h
      · simp at h; subst h; exact List.mem_cons_of_mem _ (ih hb)
      · simp at h; simp [h]

theorem bestOf_spec {key : α → κ} {pos : α → Nat} {l : List α}
    (hl : l.Pairwise (fun a b => pos a < pos b)) {x : α} (h : bestOf key l = some x) :
    ∀ y ∈ l, y = x ∨ key y < key x ∨ (key y = key x ∧ pos y < pos x) := by
  induction l generalizing x with
  | nil => simp
  | cons a l ih =>
    rw [List.pairwise_cons] at hl
    simp only [bestOf] at h
    cases hb : bestOf key l with
    | none =>
      rw [hb] at h; simp at h
      rw [bestOf_none] at hb; subst hb
      intro y hy; simp at hy; exact Or.inl (hy.trans h)
    | some z =>
      rw [hb] at h; simp only at h
      split at h
      · rename_i haz
        simp at h; subst h
        intro y hy
        rcases List.mem_cons.1 hy with rfl | hy
        · rcases lt_or_eq_of_le haz with h | h
          · exact Or.inr (Or.inl h)
          · exact Or.inr (Or.inr ⟨h, hl.1 _ (bestOf_mem hb)⟩)
        · exact ih hl.2 hb y hy
      · rename_i haz
        simp at h; subst h
        have haz := lt_of_not_ge haz
        intro y hy
        rcases List.mem_cons.1 hy with rfl | hy
        · exact Or.inl rfl
        · rcases ih hl.2 hb y hy with rfl | h | h
          · exact Or.inr (Or.inl haz)
          · exact Or.inr (Or.inl (h.trans haz))
          · exact Or.inr (Or.inl (h.1 ▸ haz))

theorem bestOf_map {β : Type} (key : α → κ) (f : β → α) (l : List β) :
    bestOf key (l.map f) = (bestOf (fun b => key (f b)) l).map f := by
  induction l with
  | nil => rfl
  | cons a l ih =>
    simp only [List.map_cons, bestOf, ih]
    cases bestOf (fun b => key (f b)) l with
    | none => rfl
    | some y => simp only [Option.map_some]; split <;> rfl

end sorting

namespace AssocSpec
variable {ι σ τ P : Type} [DecidableEq ι] [LinearOrder σ] [LinearOrder τ]

/-- ids identify the elements of a scene -/
def DistinctIds (l : List (Obj ι σ P)) : Prop := (l.map Obj.id).Nodup

theorem eq_of_id_eq {l : List (Obj ι σ P)} (hl : DistinctIds l) {a b : Obj ι σ P}
    (ha : a ∈ l) (hb : b ∈ l) (h : a.id = b.id) : a = b :=
  List.inj_on_of_nodup_map hl ha hb h

theorem before_total {l : List (Obj ι σ P)} (hl : DistinctIds l) {a b : Obj ι σ P}
    (ha : a ∈ l) (hb : b ∈ l) (h : a ≠ b) : Before l a b ∨ Before l b a := by
  unfold Before
  rcases Nat.lt_trichotomy ((l.map Obj.id).idxOf a.id) ((l.map Obj.id).idxOf b.id) with h1 | h1 | h1
  · exact Or.inl h1
  · exfalso; apply h
    apply eq_of_id_eq hl ha hb
    exact (List.idxOf_inj (List.mem_map_of_mem ha)).1 h1
  · exact Or.inr h1

theorem before_asymm {l : List (Obj ι σ P)} {a b : Obj ι σ P} (h : Before l a b) :
    ¬ Before l b a := by unfold Before at *; omega

theorem outranks_total {l : List (Obj ι σ P)} (hl : DistinctIds l) {a b : Obj ι σ P}
    (ha : a ∈ l) (hb : b ∈ l) (h : a ≠ b) : Outranks l a b ∨ Outranks l b a := by
  unfold Outranks
  rcases lt_trichotomy a.score b.score with h1 | h1 | h1
  · exact Or.inr (Or.inl h1)
  · rcases before_total hl ha hb h with h2 | h2
    · exact Or.inl (Or.inr ⟨h1, h2⟩)
    · exact Or.inr (Or.inr ⟨h1.symm, h2⟩)
  · exact Or.inl (Or.inl h1)

theorem outranks_asymm {l : List (Obj ι σ P)} {a b : Obj ι σ P} (h : Outranks l a b) :
    ¬ Outranks l b a := by
  rintro (h2 | h2) <;> rcases h with h | h
  · exact lt_asymm h h2
  · exact absurd h.1 (ne_of_lt h2)
  · exact absurd h2.1 (ne_of_lt h)
  · exact before_asymm h.2 h2.2

theorem prefers_total {sim : Obj ι σ P → Obj ι σ P → τ} {l : List (Obj ι σ P)}
    (hl : DistinctIds l) (d : Obj ι σ P) {a b : Obj ι σ P}
    (ha : a ∈ l) (hb : b ∈ l) (h : a ≠ b) : Prefers sim l d a b ∨ Prefers sim l d b a := by
  unfold Prefers
  rcases lt_trichotomy (sim d a) (sim d b) with h1 | h1 | h1
  · exact Or.inr (Or.inl h1)
  · rcases before_total hl ha hb h with h2 | h2
    · exact Or.inr (Or.inr ⟨h1, h2⟩)
    · exact Or.inl (Or.inr ⟨h1.symm, h2⟩)
  · exact Or.inl (Or.inl h1)

theorem prefers_asymm {sim : Obj ι σ P → Obj ι σ P → τ} {l : List (Obj ι σ P)}
    {d a b : Obj ι σ P} (h : Prefers sim l d a b) : ¬ Prefers sim l d b a := by
  rintro (h2 | h2) <;> rcases h with h | h
  · exact lt_asymm h h2
  · exact absurd h.1.symm (ne_of_lt h2)
  · exact absurd h2.1.symm (ne_of_lt h)
  · exact before_asymm h.2 h2.2

theorem pairwise_before {l : List (Obj ι σ P)} (hl : DistinctIds l) :
    l.Pairwise (fun a b => (l.map Obj.id).idxOf a.id < (l.map Obj.id).idxOf b.id) := by
  rw [List.pairwise_iff_getElem]
  intro i j hi hj hij
  have h1 : (l.map Obj.id).idxOf (l[i].id) = i := by
    have := hl.idxOf_getElem i (by simpa using hi)
    simpa using this
  have h2 : (l.map Obj.id).idxOf (l[j].id) = j := by
    have := hl.idxOf_getElem j (by simpa using hj)
    simpa using this
  omega

theorem pairwise_outranks {l : List (Obj ι σ P)} (hl : DistinctIds l) :
    (pySortedRev (fun e : Obj ι σ P => e.score) l).Pairwise (Outranks l) :=
  pairwise_pySortedRev (fun e : Obj ι σ P => e.score) _ l (pairwise_before hl)

/-- If all detections outranking `d` are treated alike, a match of `d` in one greedy association is a match in
the other. -/
theorem greedy_step {sim : Obj ι σ P → Obj ι σ P → τ} {t : τ} {ds gs : List (Obj ι σ P)}
    (hds : DistinctIds ds) (hgs : DistinctIds gs) {M M' : Obj ι σ P → Obj ι σ P → Prop}
    (hM : IsGreedy sim t ds gs M) (hM' : IsGreedy sim t ds gs M') {d : Obj ι σ P} (hd : d ∈ ds)
    (ih : ∀ d' ∈ ds, Outranks ds d' d → ∀ g, M d' g ↔ M' d' g) {g : Obj ι σ P} (h : M d g) :
    M' d g := by
  by_contra hn
  have hg := (hM.mem _ _ h).2
  have hs := hM.similar _ _ h
  -- (d, g) does not block M'
  have h1 := hM'.stable d g
  unfold Blocking at h1
  push Not at h1
  by_cases hc : ∀ g', M' d g' → Prefers sim gs d g g'
  · obtain ⟨d', hd', hnr⟩ := h1 hd hg hs hn hc
    have hd's := (hM'.mem _ _ hd').1
    have hne : d' ≠ d := by rintro rfl; exact hn hd'
    have hr : Outranks ds d' d := (outranks_total hds hd's hd hne).resolve_right hnr
    have := (ih d' hd's hr g).2 hd'
    exact hne (hM.one_det _ _ _ this h)
  · push Not at hc
    obtain ⟨g', hg', hnp⟩ := hc
    have hg's := (hM'.mem _ _ hg').2
    have hne : g' ≠ g := by rintro rfl; exact hn hg'
    have hp : Prefers sim gs d g' g := (prefers_total hgs d hg's hg hne).resolve_right hnp
    have h2 := hM.stable d g'
    unfold Blocking at h2
    push Not at h2
    have hnM : ¬ M d g' := fun h' => hne (hM.one_gt _ _ _ h' h)
    obtain ⟨d', hd', hnr⟩ := h2 hd hg's (hM'.similar _ _ hg') hnM (by
      intro g'' hg''
      rw [hM.one_gt _ _ _ hg'' h]; exact hp)
    have hd's := (hM.mem _ _ hd').1
    have hne2 : d' ≠ d := by rintro rfl; exact hnM hd'
    have hr : Outranks ds d' d := (outranks_total hds hd's hd hne2).resolve_right hnr
    have := (ih d' hd's hr g').1 hd'
    exact hne2 (hM'.one_det _ _ _ this hg')

theorem greedy_unique {sim : Obj ι σ P → Obj ι σ P → τ} {t : τ} {ds gs : List (Obj ι σ P)}
    (hds : DistinctIds ds) (hgs : DistinctIds gs) {M M' : Obj ι σ P → Obj ι σ P → Prop}
    (hM : IsGreedy sim t ds gs M) (hM' : IsGreedy sim t ds gs M') (d g : Obj ι σ P) :
    M d g ↔ M' d g := by
  have key : ∀ pre post, pySortedRev (fun e : Obj ι σ P => e.score) ds = pre ++ post →
      ∀ d ∈ pre, ∀ g, M d g ↔ M' d g := by
    intro pre
    induction pre using List.reverseRecOn with
    | nil => simp
    | append_singleton pre x ih =>
      intro post hpost d hd
      rw [List.append_assoc] at hpost
      have ih' := ih _ hpost
      rcases List.mem_append.1 hd with hd | hd
      · exact ih' d hd
      · simp at hd; subst hd
        have hpw := pairwise_outranks hds
        rw [hpost] at hpw
        have hmem : ∀ y, y ∈ ds ↔ y ∈ pre ++ ([d] ++ post) := by
          intro y; rw [← hpost, mem_pySortedRev]
        have hdd : d ∈ ds := (hmem d).2 (by simp)
        have hih : ∀ d' ∈ ds, Outranks ds d' d → ∀ g, M d' g ↔ M' d' g := by
          intro d' hd' hr
          rcases List.mem_append.1 ((hmem d').1 hd') with h | h
          · exact ih' d' h
          · rcases List.mem_append.1 h with h | h
            · simp at h; subst h
              exact absurd hr (outranks_asymm hr)
            · rw [List.pairwise_append] at hpw
              have := hpw.2.1
              rw [List.pairwise_append] at this
              exact absurd hr (outranks_asymm (this.2.2 d (by simp) d' h))
        intro g
        exact ⟨greedy_step hds hgs hM hM' hdd hih,
          greedy_step hds hgs hM' hM hdd (fun d' h1 h2 g => (hih d' h1 h2 g).symm)⟩
  by_cases hd : d ∈ ds
  · exact key _ [] (List.append_nil _).symm d ((mem_pySortedRev _ _ _).2 hd) g
  · constructor
    · intro h; exact absurd (hM.mem _ _ h).1 hd
    · intro h; exact absurd (hM'.mem _ _ h).1 hd

end AssocSpec
end Sumo
