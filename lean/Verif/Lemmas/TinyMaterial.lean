import Verif.Lemmas.TinyParse

/-! # Lemmas: materials written and read -/

namespace Sumo
namespace Gltf

/-! ### Parameters -/

/-- The parameter read back. -/
def backParameter (round : ℚ → ℚ) (p : GltfParameter) : GltfParameter :=
  if p.array ≠ [] then { hasNumber := false, str := "", num := [], array := p.array.map round }
  else if p.num ≠ [] then { hasNumber := false, str := "", num := p.num.map fun e =>
    (e.1, if e.1 = "index" then ((Model.toInt e.2 : ℤ) : ℚ) else round e.2) }
  else if p.str ≠ "" then { hasNumber := false, str := p.str, num := [] }
  else if p.hasNumber then { hasNumber := true, str := "", num := [], value := p.value.map round }
  else { hasNumber := false, str := "", num := [], bool := p.bool }

theorem numbersIn_reals {f : Number → Option ℚ} {round : ℚ → ℚ} (hf : ∀ q, f (.real q) = some (round q)) (l : List ℚ) :
    numbersIn ((l.map fun q => (.num (.real q) : Json Number)).map (Json.print f)) = (l.map round, true) := by
  induction l with
  | nil => rfl
  | cons a l ih => simp only [List.map_cons, numbersIn, Json.print, hf, Json.number?, ih]

theorem object_back {f : Number → Option ℚ} {round : ℚ → ℚ} (hf : ∀ q, f (.real q) = some (round q)) (d : Dict String ℚ) :
    (Json.printFields f (d.map fun e =>
      (e.1, if e.1 = "index" then (.int (Model.toInt e.2) : Json Number) else .num (.real e.2)))).filterMap
        (fun e => e.2.number?.map fun q => (e.1, q)) =
      d.map fun e => (e.1, if e.1 = "index" then ((Model.toInt e.2 : ℤ) : ℚ) else round e.2) := by
  induction d with
  | nil => rfl
  | cons p d ih =>
    obtain ⟨k, q⟩ := p
    simp only [List.map_cons, Json.printFields, Json.printEntry]
    rw [List.filterMap_cons_some (b := (k, if k = "index" then ((Model.toInt q : ℤ) : ℚ) else round q)), ih]
    split_ifs with hk
    · simp [Json.print, number?_int]
    · simp [Json.print, hf, Json.number?]

theorem ordered_map_pair {υ ω : Type} (f : String × υ → ω) {d : Dict String υ} (h : Ordered d) :
    Ordered (d.map fun e => (e.1, f e)) := by
  unfold Ordered
  rw [List.pairwise_map]
  exact h

theorem parse_parameter {f : Number → Option ℚ} {round : ℚ → ℚ} (hf : ∀ q, f (.real q) = some (round q)) (junk : Bool)
    {p : GltfParameter} (hp : OneKind p) :
    (writeParameter junk p).Wf ∧ parseParameter ((writeParameter junk p).print f) = some (backParameter round p) ∧
      SameParameter round p (backParameter round p) ∧ OneKind (backParameter round p) := by
  cases hp with
  | array l hl =>
    have e : l.isEmpty = false := by simpa using hl
    refine ⟨?_, ?_, ?_, ?_⟩
    · simp only [writeParameter, e]
      refine wf_arr.2 fun j hj => ?_
      obtain ⟨x, _, rfl⟩ := List.mem_map.1 hj
      trivial
    · simp only [writeParameter, e, backParameter, Bool.not_false, if_true]
      rw [print_arr]
      simp only [parseParameter, numbersIn_reals hf, if_true]
      simp [hl]
    · simp only [backParameter, ne_eq, hl, not_false_eq_true, if_true]
      exact .array l
    · simp only [backParameter, ne_eq, hl, not_false_eq_true, if_true]
      exact .array _ (by simpa using hl)
  | object d hd ho =>
    have e : d.isEmpty = false := by simpa using hd
    refine ⟨?_, ?_, ?_, ?_⟩
    · simp only [writeParameter, e]
      refine wf_obj.2 ⟨ordered_map_pair _ ho, fun j hj => ?_⟩
      obtain ⟨x, _, rfl⟩ := List.mem_map.1 hj
      dsimp only
      split_ifs <;> trivial
    · simp only [writeParameter, e, backParameter, List.isEmpty_nil, Bool.not_true, Bool.not_false, if_true]
      simp only [Bool.false_eq_true, if_false]
      rw [print_obj]
      simp only [parseParameter, object_back hf]
      simp [hd]
    · simp only [backParameter, ne_eq, hd, not_false_eq_true, if_true, not_true, if_false]
      exact .object d
    · simp only [backParameter, ne_eq, hd, not_false_eq_true, if_true, not_true, if_false]
      exact .object _ (by simpa using hd) (ordered_map_pair _ ho)
  | text s hs =>
    refine ⟨?_, ?_, ?_, ?_⟩
    · simp [writeParameter, hs, Json.Wf]
    · simp [writeParameter, hs, backParameter, Json.print, parseParameter]
    · simp only [backParameter, ne_eq, hs, not_false_eq_true, if_true, not_true, if_false]
      exact .text s
    · simp only [backParameter, ne_eq, hs, not_false_eq_true, if_true, not_true, if_false]
      exact .text s hs
  | number q =>
    refine ⟨?_, ?_, ?_, ?_⟩
    · simp [writeParameter, Json.Wf]
    · simp [writeParameter, backParameter, Json.print, parseParameter, hf]
    · simp only [backParameter, ne_eq, not_true, if_false, if_true]
      exact .number q
    · simp only [backParameter, ne_eq, not_true, if_false, if_true]
      exact .number _
  | flag b =>
    refine ⟨?_, ?_, ?_, ?_⟩
    · simp [writeParameter, Json.Wf]
    · simp [writeParameter, backParameter, Json.print, parseParameter]
    · simp only [backParameter, ne_eq, not_true, if_false, Bool.false_eq_true]
      exact .flag b
    · simp only [backParameter, ne_eq, not_true, if_false, Bool.false_eq_true]
      exact .flag b

/-! ### Parameter maps -/

theorem get?_writeParameters (junk : Bool) : ∀ (ps : Dict String GltfParameter) (o : Fields Number) (k : String),
    ps.NodupKeys → (writeParameters junk ps o).get? k = ((ps.get? k).map (writeParameter junk)).or (o.get? k) := by
  intro ps
  induction ps with
  | nil => intro o k _; rfl
  | cons e ps ih =>
    intro o k hn
    obtain ⟨a, p⟩ := e
    have hn' := List.nodup_cons.1 (show (a :: Dict.keys ps).Nodup from hn)
    show (writeParameters junk ps (mapSet o a (writeParameter junk p))).get? k = _
    rw [ih _ k hn'.2, get?_mapSet, Dict.get?_cons]
    by_cases h : a = k
    · subst h
      have : Dict.get? ps a = none := (Dict.get?_eq_none_iff _ _).2 hn'.1
      rw [if_pos rfl, if_pos rfl, this]
      rfl
    · rw [if_neg h, if_neg h]

theorem mem_writeParameters (junk : Bool) : ∀ (ps : Dict String GltfParameter) (o : Fields Number) (e : String × Json Number),
    e ∈ writeParameters junk ps o → e ∈ o ∨ ∃ p, (e.1, p) ∈ ps ∧ e.2 = writeParameter junk p := by
  intro ps
  induction ps with
  | nil => intro o e h; exact Or.inl h
  | cons x ps ih =>
    intro o e h
    obtain ⟨a, p⟩ := x
    rcases ih _ e h with h | ⟨q, h1, h2⟩
    · rcases mem_mapSet h with rfl | h
      · exact Or.inr ⟨p, List.mem_cons_self, rfl⟩
      · exact Or.inl h
    · exact Or.inr ⟨q, List.mem_cons_of_mem _ h1, h2⟩

theorem WfO.parameters (junk : Bool) : ∀ (ps : Dict String GltfParameter) (o : Fields Number), WfO o →
    (∀ e ∈ ps, (writeParameter junk e.2).Wf) → WfO (writeParameters junk ps o) := by
  intro ps
  induction ps with
  | nil => intro o h _; exact h
  | cons x ps ih =>
    intro o h hp
    exact ih _ (h.set (hp x List.mem_cons_self)) fun e he => hp e (List.mem_cons_of_mem _ he)

theorem get?_parseParameters {d : Fields ℚ} (h : ∀ e ∈ d, (parseParameter e.2).isSome) (k : String) :
    (parseParameters d).get? k = (d.get? k).bind parseParameter := by
  unfold parseParameters
  induction d with
  | nil => rfl
  | cons e d ih =>
    obtain ⟨a, j⟩ := e
    obtain ⟨p, hp⟩ := Option.isSome_iff_exists.1 (h (a, j) List.mem_cons_self)
    rw [List.filterMap_cons_some (b := (a, p)) (by rw [show parseParameter (a, j).2 = some p from hp]; rfl)]
    rw [Dict.get?_cons, Dict.get?_cons, ih fun e he => h e (List.mem_cons_of_mem _ he)]
    split_ifs with hk
    · exact hp.symm
    · rfl

theorem mem_parseParameters {d : Fields ℚ} {e : String × GltfParameter} (h : e ∈ parseParameters d) :
    ∃ j, (e.1, j) ∈ d ∧ parseParameter j = some e.2 := by
  unfold parseParameters at h
  obtain ⟨⟨k, j⟩, h1, h2⟩ := List.mem_filterMap.1 h
  obtain ⟨p, h3, rfl⟩ := Option.map_eq_some_iff.1 h2
  exact ⟨j, h1, h3⟩

theorem ordered_parseParameters {d : Fields ℚ} (h : Ordered d) : Ordered (parseParameters d) := by
  unfold parseParameters Ordered
  refine List.Pairwise.filterMap _ (fun a b hab c hc e he => ?_) h
  obtain ⟨p, _, rfl⟩ := Option.map_eq_some_iff.1 hc
  obtain ⟨q, _, rfl⟩ := Option.map_eq_some_iff.1 he
  exact hab

theorem get?_filter_key {υ : Type} (P : String → Bool) (d : Dict String υ) (k : String) :
    Dict.get? (d.filter fun e => P e.1) k = if P k then d.get? k else none := by
  induction d with
  | nil => simp
  | cons e d ih =>
    obtain ⟨a, v⟩ := e
    rw [List.filter_cons]
    by_cases ha : P a
    · rw [if_pos (by exact ha), Dict.get?_cons, Dict.get?_cons, ih]
      by_cases hk : a = k
      · subst hk; simp [ha]
      · simp [hk]
    · rw [if_neg (by exact ha), ih, Dict.get?_cons]
      by_cases hk : a = k
      · subst hk; simp [ha]
      · simp [hk]

/-! ### Materials -/

/-- The material read back. -/
theorem parse_material {f : Number → Option ℚ} {round : ℚ → ℚ} (hf : ∀ q, f (.real q) = some (round q)) (junk : Bool)
    {m : GltfMaterial} (hm : Storable m) :
    ∃ (o : Fields Number) (m' : GltfMaterial), writeMaterial junk m = .obj o ∧ WfO o ∧
      parseMaterial (Json.printFields f o) = .ok m' ∧ MaterialBack round m m' ∧ Storable m' ∧
      (∀ k, m'.values.get? k = (m.values.get? k).map (backParameter round)) := by
  have hpv : ∀ e ∈ m.values, _ := fun e he => parse_parameter hf junk (hm.values e he)
  have hpa : ∀ e ∈ m.additionalValues, _ := fun e he => parse_parameter hf junk (hm.additional e he)
  let v := writeParameters junk m.values []
  let o0 : Fields Number := if m.values.isEmpty then [] else mapSet [] "pbrMetallicRoughness" (.ofFields v)
  let o1 := writeParameters junk m.additionalValues o0
  let o := if m.name ≠ "" then mapSet o1 "name" (.str m.name) else o1
  have wv : WfO v := WfO.parameters junk _ _ wfO_nil fun e he => (hpv e he).1
  have w0 : WfO o0 := WfO.ite wfO_nil (wfO_nil.set (wf_ofFields wv))
  have w1 : WfO o1 := WfO.parameters junk _ _ w0 fun e he => (hpa e he).1
  have w : WfO o := WfO.ite (w1.set (wf_str _)) w1
  have gv : ∀ k, Dict.get? v k = (m.values.get? k).map (writeParameter junk) := fun k => by
    rw [get?_writeParameters junk _ _ k hm.orderedValues.nodup]; simp
  have g0 : ∀ k, Dict.get? o0 k = if k = "pbrMetallicRoughness" ∧ m.values ≠ [] then some (.ofFields v) else none := fun k => by
    simp only [o0]
    cases hval : m.values with
    | nil => simp
    | cons a l =>
      simp only [List.isEmpty_cons, Bool.false_eq_true, if_false, get?_mapSet]
      by_cases hk : k = "pbrMetallicRoughness"
      · simp [hk]
      · simp [hk, Ne.symm hk]
  have g1 : ∀ k, Dict.get? o1 k = ((m.additionalValues.get? k).map (writeParameter junk)).or (Dict.get? o0 k) := fun k =>
    get?_writeParameters junk _ _ k hm.orderedAdditional.nodup
  have g : ∀ k, Dict.get? o k = if k = "name" ∧ m.name ≠ "" then some (.str m.name) else Dict.get? o1 k := fun k => by
    simp only [o]
    by_cases hn : m.name = ""
    · simp [hn]
    · simp only [ne_eq, hn, not_false_eq_true, if_true, get?_mapSet, and_true, eq_comm]
  have ho : o ≠ [] := by
    intro h
    rcases hm.something with h1 | h1 | h1
    · have := g "name"
      rw [h] at this
      simp [h1] at this
    · have h2 : Dict.get? m.additionalValues "pbrMetallicRoughness" = none :=
        (Dict.get?_eq_none_iff _ _).2 fun hk => (hm.reserved _ hk).1 rfl
      have := g "pbrMetallicRoughness"
      rw [h, g1, g0, h2] at this
      simp [h1] at this
    · obtain ⟨⟨k, p⟩, he⟩ := List.exists_mem_of_ne_nil _ h1
      have h2 := Dict.get?_of_mem hm.orderedAdditional.nodup he
      have := g k
      rw [h, g1, h2] at this
      split_ifs at this <;> simp at this
  have hwm : writeMaterial junk m = .obj o := by
    show Json.ofFields o = _
    unfold Json.ofFields
    rw [if_neg (by simpa using ho)]
  -- the entries read
  let d := Json.printFields f o
  have gd : ∀ k, Dict.get? d k = (Dict.get? o k).map (Json.print f) := fun k => get?_printFields f o k
  have hname : (stringOf d "name").getD "" = m.name := by
    show (stringOf (Json.printFields f o) "name").getD "" = _
    rw [stringOf_print, g]
    by_cases hn : m.name = ""
    · have h2 : Dict.get? m.additionalValues "name" = none := (Dict.get?_eq_none_iff _ _).2 (hm.unnamed hn)
      have : Dict.get? o1 "name" = none := by rw [g1, g0, h2]; simp
      rw [if_neg (by simp [hn]), this]
      simp [hn]
    · simp [hn]
  have wd : WfO d := w.print f
  have hvals : ∀ e ∈ Json.printFields f v, (parseParameter e.2).isSome := by
    intro e he
    rw [printFields_eq] at he
    obtain ⟨x, hx, rfl⟩ := List.mem_map.1 he
    rcases mem_writeParameters junk _ _ _ hx with h | ⟨p, h1, h2⟩
    · simp at h
    · dsimp only
      rw [h2, (hpv _ h1).2.1]; rfl
  let vals : Dict String GltfParameter := parseParameters (Json.printFields f v)
  let P : String → Bool := fun k => decide (k ≠ "pbrMetallicRoughness" ∧ k ≠ "extensions" ∧ k ≠ "extras")
  let add : Dict String GltfParameter := parseParameters (d.filter fun e => P e.1)
  have hadd : ∀ e ∈ d.filter fun e => P e.1, ∃ q, parseParameter e.2 = some q ∧ OneKind q ∧
      ((e.1 = "name" ∧ m.name ≠ "") ∨ ∃ p, (e.1, p) ∈ m.additionalValues) := by
    intro e he
    obtain ⟨h1, h2⟩ := List.mem_filter.1 he
    have h1' : e ∈ Json.printFields f o := h1
    rw [printFields_eq] at h1'
    obtain ⟨x, hx, rfl⟩ := List.mem_map.1 h1'
    have hx' : (x = ("name", .str m.name) ∧ m.name ≠ "") ∨ x ∈ o1 := by
      simp only [o] at hx
      split_ifs at hx with hn
      · rcases mem_mapSet hx with h | h
        · exact Or.inl ⟨h, hn⟩
        · exact Or.inr h
      · exact Or.inr hx
    rcases hx' with ⟨rfl, hn⟩ | hx'
    · refine ⟨{ hasNumber := false, str := m.name, num := [] }, ?_, .text _ hn, Or.inl ⟨rfl, hn⟩⟩
      simp [Json.print, parseParameter]
    · rcases mem_writeParameters junk _ _ _ hx' with h | ⟨p, h3, h4⟩
      · exfalso
        have hk : x.1 = "pbrMetallicRoughness" := by
          simp only [o0] at h
          split_ifs at h
          · simp at h
          · rcases mem_mapSet h with h | h
            · rw [h]
            · simp at h
        simp [P, hk] at h2
      · refine ⟨backParameter round p, ?_, (hpa _ h3).2.2.2, Or.inr ⟨p, h3⟩⟩
        dsimp only
        rw [h4]
        exact (hpa _ h3).2.1
  have gvals : ∀ k, Dict.get? vals k = (m.values.get? k).map (backParameter round) := by
    intro k
    rw [show Dict.get? vals k = _ from get?_parseParameters hvals k, get?_printFields, gv]
    cases hk : m.values.get? k with
    | none => rfl
    | some p => exact (hpv (k, p) (Dict.mem_of_get? hk)).2.1
  have gadd : ∀ k, k ≠ "name" → Dict.get? add k = (m.additionalValues.get? k).map (backParameter round) := by
    intro k hkn
    rw [show Dict.get? add k = _ from get?_parseParameters
      (fun e he => by obtain ⟨q, hq, _⟩ := hadd e he; rw [hq]; rfl) k, get?_filter_key]
    by_cases hP : P k = true
    · rw [if_pos hP, gd, g, if_neg (fun h => hkn h.1), g1, g0]
      have : ¬ (k = "pbrMetallicRoughness" ∧ m.values ≠ []) := fun h => by simp [P, h.1] at hP
      rw [if_neg this]
      cases hk : m.additionalValues.get? k with
      | none => rfl
      | some p => exact (hpa (k, p) (Dict.mem_of_get? hk)).2.1
    · rw [if_neg hP]
      have : m.additionalValues.get? k = none := (Dict.get?_eq_none_iff _ _).2 fun hk => hP (by
        simp only [P, decide_eq_true_eq]; exact hm.reserved k hk)
      rw [this]
      rfl
  have gname : m.name ≠ "" → Dict.get? add "name" = some { hasNumber := false, str := m.name, num := [] } := by
    intro hn
    rw [show Dict.get? add "name" = _ from get?_parseParameters
      (fun e he => by obtain ⟨q, hq, _⟩ := hadd e he; rw [hq]; rfl) "name", get?_filter_key, if_pos (by decide), gd, g,
      if_pos ⟨rfl, hn⟩]
    simp [Json.print, parseParameter]
  have gnone : m.name = "" → Dict.get? add "name" = none := by
    intro hn
    have h2 : Dict.get? m.additionalValues "name" = none := (Dict.get?_eq_none_iff _ _).2 (hm.unnamed hn)
    rw [show Dict.get? add "name" = _ from get?_parseParameters
      (fun e he => by obtain ⟨q, hq, _⟩ := hadd e he; rw [hq]; rfl) "name", get?_filter_key, if_pos (by decide), gd, g,
      if_neg (by simp [hn]), g1, g0, h2]
    simp
  have hparse : parseMaterial d = .ok ⟨m.name, vals, add⟩ := by
    unfold parseMaterial
    have hv' : (match Dict.get? d "pbrMetallicRoughness" with | some (.obj d) => parseParameters d | _ => []) = vals := by
      have h2 : Dict.get? m.additionalValues "pbrMetallicRoughness" = none :=
        (Dict.get?_eq_none_iff _ _).2 fun hk => (hm.reserved _ hk).1 rfl
      rw [gd, g, if_neg (by simp), g1, g0, h2]
      by_cases hval : m.values = []
      · have : v = [] := by simp only [v, hval]; rfl
        rw [if_neg (by simp [hval])]
        simp only [vals, this]
        rfl
      · have hv0 : v ≠ [] := by
          intro h
          obtain ⟨⟨k, p⟩, he⟩ := List.exists_mem_of_ne_nil _ hval
          have h2 := Dict.get?_of_mem hm.orderedValues.nodup he
          have := gv k
          rw [h, h2] at this
          simp at this
        rw [if_pos ⟨rfl, hval⟩]
        show (match some ((Json.ofFields v).print f) with | some (.obj d) => parseParameters d | _ => []) = vals
        unfold Json.ofFields
        rw [if_neg (by simpa using hv0), print_obj]
    rw [hname]
    exact congrArg (fun x => (Except.ok (⟨m.name, x, add⟩ : GltfMaterial) : Except PyErr GltfMaterial)) hv'
  have both : ∀ {a b : Dict String GltfParameter} {k : String}, (∀ p, a.get? k = some p → SameParameter round p (backParameter round p)) →
      b.get? k = (a.get? k).map (backParameter round) → Both (SameParameter round) (a.get? k) (b.get? k) := by
    intro a b k h1 h2
    rw [h2]
    cases hk : a.get? k with
    | none => trivial
    | some p => exact h1 p hk
  refine ⟨o, ⟨m.name, vals, add⟩, hwm, w, hparse, ⟨rfl, fun k _ => ?_, fun k hk => ?_, ?_⟩, ⟨?_, ?_, ?_, ?_, ?_, ?_, ?_⟩, gvals⟩
  · exact both (fun p hp => (hpv (k, p) (Dict.mem_of_get? hp)).2.2.1) (gvals k)
  · exact both (fun p hp => (hpa (k, p) (Dict.mem_of_get? hp)).2.2.1) (gadd k (by simpa using hk))
  · split_ifs with hn
    · exact (gnone hn).trans ((Dict.get?_eq_none_iff _ _).2 (hm.unnamed hn)).symm
    · exact gname hn
  · rcases hm.something with h | h | h
    · exact Or.inl h
    · refine Or.inr (Or.inl fun hv => ?_)
      obtain ⟨⟨k, p⟩, he⟩ := List.exists_mem_of_ne_nil _ h
      have h2 := Dict.get?_of_mem hm.orderedValues.nodup he
      have := gvals k
      rw [show vals = [] from hv, h2] at this
      simp at this
    · by_cases hn : m.name = ""
      · refine Or.inr (Or.inr fun hv => ?_)
        obtain ⟨⟨k, p⟩, he⟩ := List.exists_mem_of_ne_nil _ h
        have h2 := Dict.get?_of_mem hm.orderedAdditional.nodup he
        have hk : k ≠ "name" := fun e => hm.unnamed hn (e ▸ Dict.mem_keys.2 ⟨p, he⟩)
        have := gadd k hk
        rw [show add = [] from hv, h2] at this
        simp at this
      · exact Or.inl hn
  · intro e he
    obtain ⟨j, h1, h2⟩ := mem_parseParameters he
    rw [printFields_eq] at h1
    obtain ⟨x, hx, hxe⟩ := List.mem_map.1 h1
    rcases mem_writeParameters junk _ _ _ hx with h | ⟨p, h3, h4⟩
    · simp at h
    · have := (hpv _ h3).2
      have hj : j = (writeParameter junk p).print f := by rw [← h4]; exact (Prod.mk.inj hxe).2.symm
      rw [hj, this.1] at h2
      rw [← Option.some.inj h2]
      exact this.2.2
  · intro e he
    obtain ⟨j, h1, h2⟩ := mem_parseParameters he
    obtain ⟨q, h3, h4, _⟩ := hadd _ h1
    rw [h2] at h3
    rw [Option.some.inj h3]
    exact h4
  · exact ordered_parseParameters (wv.print f).1
  · exact ordered_parseParameters (wd.1.filter _)
  · intro k hk
    obtain ⟨p, hp⟩ := Dict.mem_keys.1 hk
    obtain ⟨j, h1, h2⟩ := mem_parseParameters hp
    have := (List.mem_filter.1 h1).2
    simpa [P] using this
  · intro hn hk
    obtain ⟨p, hp⟩ := Dict.mem_keys.1 hk
    obtain ⟨j, h1, h2⟩ := mem_parseParameters hp
    obtain ⟨_, _, _, h | ⟨p', h⟩⟩ := hadd _ h1
    · exact h.2 hn
    · exact hm.unnamed hn (Dict.mem_keys.2 ⟨p', h⟩)

end Gltf
end Sumo
