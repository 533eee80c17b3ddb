import Verif.Spec.Symmetry
import Mathlib.Data.List.Induction
import Mathlib.Tactic.NormNum

/-!
# Object symmetry (C59, C60)
-/

namespace Sumo
open SymmetryType (toText ofText?)
open SymSpec

/-- **C59** the constructor accepts exactly the triples that follow the documented rules (and keeps the three
fields), and raises `ValueError` for all others, including a missing symmetry. -/
theorem C59_accepts_documented (x y z : SymmetryType) :
    (Allowed x y z → ObjectSymmetry.mk? (some x) (some y) (some z) = .ok ⟨x, y, z⟩) ∧
    (¬ Allowed x y z → ObjectSymmetry.mk? (some x) (some y) (some z) = .error .valueError) := by
  cases x <;> cases y <;> cases z <;> decide +kernel

theorem mk?_none {x y z : Option SymmetryType} (h : x = none ∨ y = none ∨ z = none) :
    ObjectSymmetry.mk? x y z = .error .valueError := by
  have : ObjectSymmetry.isValid x y z = false := by
    unfold ObjectSymmetry.isValid
    rw [decide_eq_false_iff_not, List.mem_map]
    rintro ⟨t, -, ht⟩
    simp only [Prod.mk.injEq] at ht
    obtain ⟨h1, h2, h3⟩ := ht
    subst h1 h2 h3
    rcases h with h | h | h <;> exact absurd h (by simp)
  simp [ObjectSymmetry.mk?, this]

/-- **C59** `None` is never accepted as a symmetry. -/
theorem C59_none_rejected (x y z : Option SymmetryType) (h : x = none ∨ y = none ∨ z = none) :
    ObjectSymmetry.mk? x y z = .error .valueError := mk?_none h

/-- **C59** `==` is equality of the three fields. -/
theorem C59_eq_iff (a b : ObjectSymmetry) : a.eq b = true ↔ a = b := by
  cases a; cases b
  simp [ObjectSymmetry.eq, and_assoc]

/-- **C59** (finding) `!=` is not the negation of `==`: it exceeds any recursion limit, whatever its arguments. -/
theorem C59_ne_recursion (limit : ℕ) (a b : ObjectSymmetry) :
    ObjectSymmetry.ne limit a b = .error .recursionError := by
  induction limit with
  | zero => rfl
  | succ n ih => exact ih

/-- Both sides of C59 happen. -/
example : Allowed .twoFold .cylindrical .twoFold ∧ ¬ Allowed .cylindrical .cylindrical .none := by decide +kernel

/-- Names and types correspond one to one. -/
theorem ofText?_iff (t : String) (s : SymmetryType) : ofText? t = some s ↔ t = s.toText := by
  constructor
  · intro h
    unfold ofText? at h
    simp only [Dict.get?] at h
    split_ifs at h with h1 h2 h3 h4 h5 <;> simp_all <;> subst h <;> simp_all [toText]
  · rintro rfl
    cases s <;> decide +kernel

theorem mkcases (x y z : Option SymmetryType) : (∃ a b c, x = some a ∧ y = some b ∧ z = some c ∧
    Allowed a b c ∧ ObjectSymmetry.mk? x y z = .ok ⟨a, b, c⟩) ∨
    ((¬ ∃ a b c, x = some a ∧ y = some b ∧ z = some c ∧ Allowed a b c) ∧
      ObjectSymmetry.mk? x y z = .error .valueError) := by
  rcases x with _ | x
  · exact .inr ⟨by simp, mk?_none (.inl rfl)⟩
  rcases y with _ | y
  · exact .inr ⟨by simp, mk?_none (.inr (.inl rfl))⟩
  rcases z with _ | z
  · exact .inr ⟨by simp, mk?_none (.inr (.inr rfl))⟩
  by_cases h : Allowed x y z
  · exact .inl ⟨x, y, z, rfl, rfl, rfl, h, (C59_accepts_documented x y z).1 h⟩
  · refine .inr ⟨?_, (C59_accepts_documented x y z).2 h⟩
    rintro ⟨a, b, c, h1, h2, h3, h4⟩
    injection h1 with h1; injection h2 with h2; injection h3 with h3
    subst h1 h2 h3
    exact h h4

/-- **C59** `from_strings` succeeds exactly on three names of an allowed triple, and raises `ValueError` on
everything else. -/
theorem C59_from_strings (l : List String) (s : ObjectSymmetry) :
    (ObjectSymmetry.fromStrings l = .ok s ↔
      l = [s.x.toText, s.y.toText, s.z.toText] ∧ Allowed s.x s.y s.z) ∧
    ((∀ s', ObjectSymmetry.fromStrings l ≠ .ok s') → ObjectSymmetry.fromStrings l = .error .valueError) := by
  constructor
  · constructor
    · intro h
      unfold ObjectSymmetry.fromStrings at h
      by_cases hl : l.length ≠ 3
      · simp [hl] at h
      push Not at hl
      obtain ⟨a, b, c, rfl⟩ := List.length_eq_three.1 hl
      simp only [hl, ne_eq, not_true_eq_false, if_false] at h
      rcases ha : ofText? a with _ | x
      · have : ([a, b, c].filterMap ofText?).length < 3 := by
          rw [List.filterMap_cons_none ha]
          exact lt_of_le_of_lt (List.length_filterMap_le _ _) (by simp)
        simp [this] at h
      rcases hb : ofText? b with _ | y
      · have : ([a, b, c].filterMap ofText?).length < 3 := by
          rw [List.filterMap_cons_some ha, List.filterMap_cons_none hb]
          have := List.length_filterMap_le ofText? [c]
          simp at this ⊢; omega
        simp [this] at h
      rcases hc : ofText? c with _ | z
      · have : ([a, b, c].filterMap ofText?).length < 3 := by
          rw [List.filterMap_cons_some ha, List.filterMap_cons_some hb, List.filterMap_cons_none hc]
          simp
        simp [this] at h
      have e : [a, b, c].filterMap ofText? = [x, y, z] := by
        rw [List.filterMap_cons_some ha, List.filterMap_cons_some hb, List.filterMap_cons_some hc]; rfl
      rw [e] at h
      simp only [List.length_cons, List.length_nil, List.getElem?_cons_zero, List.getElem?_cons_succ] at h
      norm_num at h
      rcases mkcases (some x) (some y) (some z) with ⟨a', b', c', h1, h2, h3, hall, h4⟩ | ⟨-, h4⟩
      · rw [h4] at h
        injection h with h
        subst h
        injection h1 with h1; injection h2 with h2; injection h3 with h3
        subst h1 h2 h3
        exact ⟨by rw [(ofText?_iff _ _).1 ha, (ofText?_iff _ _).1 hb, (ofText?_iff _ _).1 hc], hall⟩
      · rw [h4] at h; exact absurd h (by simp)
    · rintro ⟨rfl, hall⟩
      have e : [s.x.toText, s.y.toText, s.z.toText].filterMap ofText? = [s.x, s.y, s.z] := by
        rw [List.filterMap_cons_some ((ofText?_iff _ _).2 rfl), List.filterMap_cons_some ((ofText?_iff _ _).2 rfl),
          List.filterMap_cons_some ((ofText?_iff _ _).2 rfl)]; rfl
      unfold ObjectSymmetry.fromStrings
      simp only [e]
      simpa using (C59_accepts_documented s.x s.y s.z).1 hall
  · intro hno
    unfold ObjectSymmetry.fromStrings at hno ⊢
    split_ifs at hno ⊢
    · rfl
    · dsimp only at hno ⊢
      by_cases h3 : (l.filterMap ofText?).length < 3
      · rw [if_pos h3]
      · rw [if_neg h3]
        simp only [if_neg h3] at hno
        rcases mkcases ((l.filterMap ofText?)[0]?) ((l.filterMap ofText?)[1]?) ((l.filterMap ofText?)[2]?) with
          ⟨a, b, c, -, -, -, -, h⟩ | ⟨-, h⟩
        · exact absurd h (hno _)
        · exact h

example : ObjectSymmetry.fromStrings ["none", "twoFold", "none"] = .ok ⟨.none, .twoFold, .none⟩ := by decide +kernel

/-- What the child loop collects. -/
theorem parseChildren_eq (t : String) (a : List (String × String)) (x : Option String) (cs : List Xml) :
    ObjectSymmetry.parseChildren cs =
      ((textOf (.node t a x cs) "x").bind ofText?, (textOf (.node t a x cs) "y").bind ofText?,
       (textOf (.node t a x cs) "z").bind ofText?) := by
  simp only [textOf, Xml.children]
  unfold ObjectSymmetry.parseChildren
  induction cs using List.reverseRecOn with
  | nil => rfl
  | append_singleton cs c ih =>
    rw [List.foldl_append, List.foldl_cons, List.foldl_nil, ih]
    by_cases hx : c.tag = "x"
    · simp [hx, List.filter_append]
    by_cases hy : c.tag = "y"
    · simp [hy, List.filter_append]
    by_cases hz : c.tag = "z"
    · simp [hz, List.filter_append]
    simp [hx, hy, hz, List.filter_append]

/-- **C60** every symmetry the constructor admits survives `from_xml(to_xml(s))`. -/
theorem C60_round_trip (x y z : SymmetryType) (s : ObjectSymmetry)
    (h : ObjectSymmetry.mk? (some x) (some y) (some z) = .ok s) :
    ObjectSymmetry.fromXml s.toXml = .ok (some s) := by
  have hs : Allowed x y z ∧ s = ⟨x, y, z⟩ := by
    by_cases ha : Allowed x y z
    · rw [(C59_accepts_documented x y z).1 ha] at h
      injection h with h
      exact ⟨ha, h.symm⟩
    · rw [(C59_accepts_documented x y z).2 ha] at h
      exact absurd h (by simp)
  obtain ⟨ha, rfl⟩ := hs
  clear h
  revert ha
  cases x <;> cases y <;> cases z <;> decide +kernel

/-- **C60** (partial) what `from_xml` does on every document: the wrong root tag raises `RuntimeError`; the result
is a symmetry exactly when the (last) `x`, `y` and `z` children name an admissible triple.  Missing: in all other
cases the claim wants an exception; the code returns `None`. -/
theorem C60_from_xml_partial (e : Xml) :
    (e.tag ≠ "symmetry" → ObjectSymmetry.fromXml e = .error .runtimeError) ∧
    (e.tag = "symmetry" → ∀ s, (ObjectSymmetry.fromXml e = .ok (some s) ↔
      Names (textOf e "x") s.x ∧ Names (textOf e "y") s.y ∧ Names (textOf e "z") s.z ∧ Allowed s.x s.y s.z)) ∧
    (e.tag = "symmetry" → (¬ ∃ s : ObjectSymmetry, Names (textOf e "x") s.x ∧ Names (textOf e "y") s.y ∧
      Names (textOf e "z") s.z ∧ Allowed s.x s.y s.z) → ObjectSymmetry.fromXml e = .ok none) := by
  obtain ⟨t, a, x, cs⟩ := e
  have hn : ∀ (o : Option String) (s : SymmetryType), o.bind ofText? = some s ↔ Names o s := by
    intro o s
    rcases o with _ | o
    · simp [Names]
    · simp [Names, ofText?_iff]
  refine ⟨fun h => by simp [ObjectSymmetry.fromXml, h], fun h s => ?_, fun h hno => ?_⟩
  · have h' : t = "symmetry" := h
    simp only [ObjectSymmetry.fromXml, h, ne_eq, not_true_eq_false, if_false, Xml.children, parseChildren_eq t a x]
    simp only [← hn]
    rcases mkcases ((textOf (.node t a x cs) "x").bind ofText?) ((textOf (.node t a x cs) "y").bind ofText?)
      ((textOf (.node t a x cs) "z").bind ofText?) with ⟨b, c, d, h1, h2, h3, h4, h5⟩ | ⟨h4, h5⟩
    · rw [h5, h1, h2, h3]
      obtain ⟨sx, sy, sz⟩ := s
      simp only [Except.ok.injEq, Option.some.injEq, ObjectSymmetry.mk.injEq]
      constructor
      · rintro ⟨rfl, rfl, rfl⟩; exact ⟨rfl, rfl, rfl, h4⟩
      · rintro ⟨rfl, rfl, rfl, -⟩; exact ⟨rfl, rfl, rfl⟩
    · rw [h5]
      simp only [Except.ok.injEq, reduceCtorEq, false_iff]
      rintro ⟨h1, h2, h3, h⟩
      exact h4 ⟨_, _, _, h1, h2, h3, h⟩
  · simp only [ObjectSymmetry.fromXml, h, ne_eq, not_true_eq_false, if_false, Xml.children, parseChildren_eq t a x]
    rcases mkcases ((textOf (.node t a x cs) "x").bind ofText?) ((textOf (.node t a x cs) "y").bind ofText?)
      ((textOf (.node t a x cs) "z").bind ofText?) with ⟨b, c, d, h1, h2, h3, h4, h5⟩ | ⟨h4, h5⟩
    · exact absurd ⟨⟨b, c, d⟩, (hn _ _).1 h1, (hn _ _).1 h2, (hn _ _).1 h3, h4⟩ hno
    · rw [h5]

/-- **C60** is false: an unknown symmetry name is not reported, `from_xml` returns `None`. -/
theorem C60_unknown_name_accepted :
    ObjectSymmetry.fromXml (.node "symmetry" [] none [.leaf "x" "nonsense", .leaf "y" "none", .leaf "z" "none"]) =
      .ok none := by decide +kernel

/-- The hypotheses of C60 are met. -/
example : ObjectSymmetry.mk? (some .twoFold) (some .cylindrical) (some .twoFold) =
    .ok ⟨.twoFold, .cylindrical, .twoFold⟩ := by decide +kernel

end Sumo
