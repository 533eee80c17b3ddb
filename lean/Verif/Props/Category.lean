import Verif.Spec.Category

/-! # Properties of category colours (C72, C90) -/

namespace Sumo

open ColoredCategory

/-- What is in memory after loading an entry. -/
def CategoryEntry.toRow (e : CategoryEntry) : CategoryRow :=
  ⟨some e.name, some e.evaluated, e.color.map Int.ofNat⟩

theorem parseColor_entry (color : List ℕ) (h : color ≠ []) :
    parseColor (some (String.ofList (List.intercalate [';'] (color.map decimal)))) = .ok (color.map Int.ofNat) := by
  unfold parseColor
  simp only [String.toList_ofList]
  rw [List.splitOn_intercalate]
  · rw [mapM_ok_iff]
    clear h
    induction color with
    | nil => simp
    | cons a l ih => exact .cons (pyInt_decimal a) ih
  · intro l hl
    obtain ⟨n, -, rfl⟩ := List.mem_map.1 hl
    exact semicolon_not_mem_decimal n
  · simpa using h

theorem parseRow_entry (e : CategoryEntry) (h : e.color ≠ []) : parseRow e.row = .ok e.toRow := by
  have h1 : (Dict.get e.row "category") = .ok (some e.name) := rfl
  have h2 : (Dict.get e.row "is_evaluated") = .ok (some e.evaluated) := rfl
  have h3 : (Dict.get e.row "color") = .ok (some (String.ofList (List.intercalate [';'] (e.color.map decimal)))) := rfl
  unfold parseRow
  simp only [h1, h2, h3, bind, Except.bind, parseColor_entry e.color h, pure, Except.pure, CategoryEntry.toRow]

theorem new_entries (entries : List CategoryEntry) (h : ∀ e ∈ entries, e.color ≠ []) :
    ColoredCategory.new (some (entries.map CategoryEntry.row)) =
      .ok ⟨entries.map CategoryEntry.toRow, reverseData (entries.map CategoryEntry.toRow), []⟩ := by
  have : (entries.map CategoryEntry.row).mapM parseRow = .ok (entries.map CategoryEntry.toRow) := by
    rw [mapM_ok_iff]
    induction entries with
    | nil => simp
    | cons e l ih => exact .cons (parseRow_entry e (h e (by simp))) (ih fun x hx => h x (by simp [hx]))
  simp only [ColoredCategory.new, this, bind, Except.bind, pure, Except.pure]

/-- **C72** is false: the id one past the last category raises `IndexError`, not the documented `KeyError`; and with two
categories of the same name the colour found by name is not the colour found by the first one's id. -/
theorem C72_false :
    (∃ s, ColoredCategory.new (some [CategoryEntry.row ⟨"0", "bed", "True", [1, 2, 3]⟩]) = .ok s ∧
      s.categoryIdToRgb 1 = .error .indexError) ∧
    ∃ s, ColoredCategory.new (some [CategoryEntry.row ⟨"0", "bed", "True", [1, 2, 3]⟩,
        CategoryEntry.row ⟨"1", "bed", "True", [4, 5, 6]⟩]) = .ok s ∧
      s.categoryNameToRgb (some "bed") = .ok [4, 5, 6] ∧ s.categoryIdToRgb 0 = .ok [1, 2, 3] := by
  refine ⟨⟨_, new_entries [⟨"0", "bed", "True", [1, 2, 3]⟩] (by decide), by decide⟩,
    ⟨_, new_entries [⟨"0", "bed", "True", [1, 2, 3]⟩, ⟨"1", "bed", "True", [4, 5, 6]⟩] (by decide), by decide, by decide⟩⟩

/-- **C72** (partial: ids up to, but without, the number of categories; names that occur once, or last).  For every table:
loading succeeds; each known id gives its entry's colour; a negative id or an id greater than the number of categories
raises `KeyError` (the id equal to the number of categories raises `IndexError`); a name gives the colour of the last entry
of that name, hence of its only entry; an unknown name raises `KeyError`. -/
theorem C72_lookup_partial (entries : List CategoryEntry) (h : ∀ e ∈ entries, e.color ≠ []) :
    ∃ s, ColoredCategory.new (some (entries.map CategoryEntry.row)) = .ok s ∧
      (∀ (i : ℕ) (e : CategoryEntry), entries[i]? = some e → s.categoryIdToRgb i = .ok (e.color.map Int.ofNat)) ∧
      (∀ id : ℤ, id < 0 ∨ id > entries.length → s.categoryIdToRgb id = .error .keyError) ∧
      s.categoryIdToRgb entries.length = .error .indexError ∧
      (∀ (i : ℕ) (e : CategoryEntry), entries[i]? = some e →
        (∀ (j : ℕ) (e' : CategoryEntry), i < j → entries[j]? = some e' → e'.name ≠ e.name) →
        s.categoryNameToRgb (some e.name) = .ok (e.color.map Int.ofNat) ∧
          s.categoryNameToRgb (some e.name) = s.categoryIdToRgb i) ∧
      (∀ name : String, (∀ e ∈ entries, e.name ≠ name) → s.categoryNameToRgb (some name) = .error .keyError) := by
  refine ⟨_, new_entries entries h, ?_, ?_, ?_, ?_, ?_⟩
  · intro i e he
    have hi : i < entries.length := (List.getElem?_eq_some_iff.1 he).1
    unfold categoryIdToRgb
    rw [if_neg (by simp; omega)]
    simp [he, CategoryEntry.toRow]
  · intro id hid
    unfold categoryIdToRgb
    rw [if_pos (by simp; omega)]
  · unfold categoryIdToRgb
    rw [if_neg (by simp)]
    simp
  · intro i e he hlast
    have hi : i < entries.length := (List.getElem?_eq_some_iff.1 he).1
    have hget : (reverseData (entries.map CategoryEntry.toRow)).get? (some e.name) = some (e.color.map Int.ofNat) := by
      rw [reverseData_get?]
      have hsplit : entries = entries.take i ++ e :: entries.drop (i + 1) := by
        have := (List.getElem?_eq_some_iff.1 he).2
        rw [← this]
        simp
      have hdrop : ∀ x ∈ entries.drop (i + 1), x.name ≠ e.name := by
        intro x hx
        obtain ⟨j, hj⟩ := List.mem_iff_getElem?.1 hx
        rw [List.getElem?_drop] at hj
        exact hlast (i + 1 + j) x (by omega) hj
      rw [hsplit]
      simp only [List.map_append, List.map_cons, List.filter_append]
      have e1 : List.filter (fun x => decide (x.category = some e.name)) (e.toRow :: (entries.drop (i + 1)).map
          CategoryEntry.toRow) = [e.toRow] := by
        rw [List.filter_cons, if_pos (by simp [CategoryEntry.toRow])]
        congr 1
        rw [List.filter_eq_nil_iff]
        intro x hx
        obtain ⟨y, hy, rfl⟩ := List.mem_map.1 hx
        simpa [CategoryEntry.toRow] using hdrop y hy
      rw [e1]
      simp [CategoryEntry.toRow]
    have hname : categoryNameToRgb ⟨entries.map CategoryEntry.toRow, reverseData (entries.map CategoryEntry.toRow), []⟩
        (some e.name) = .ok (e.color.map Int.ofNat) := by
      simp [categoryNameToRgb, Dict.has, Dict.get, hget]
    refine ⟨hname, hname.trans ?_⟩
    unfold categoryIdToRgb
    rw [if_neg (by simp; omega)]
    simp [he, CategoryEntry.toRow]
  · intro name hn
    have hget : (reverseData (entries.map CategoryEntry.toRow)).get? (some name) = none := by
      rw [reverseData_get?]
      have : List.filter (fun x => decide (x.category = some name)) (entries.map CategoryEntry.toRow) = [] := by
        rw [List.filter_eq_nil_iff]
        intro x hx
        obtain ⟨y, hy, rfl⟩ := List.mem_map.1 hx
        simpa [CategoryEntry.toRow] using hn y hy
      rw [this]
      rfl
    simp [categoryNameToRgb, Dict.has, hget]

/-- The hypotheses are met by a table of two categories. -/
example : ∃ s, ColoredCategory.new (some ([⟨"0", "bed", "True", [1, 2, 3]⟩, ⟨"1", "sofa", "True", [40, 50, 255]⟩].map
      CategoryEntry.row)) = .ok s ∧
    s.categoryIdToRgb 1 = .ok [40, 50, 255] ∧ s.categoryNameToRgb (some "bed") = .ok [1, 2, 3] ∧
    s.categoryIdToRgb 3 = .error .keyError := by
  refine ⟨_, new_entries _ (by decide), by decide, by decide, by decide⟩

theorem npIndex_nonneg {α : Type} (t : List α) (i : ℕ) :
    npIndex t (i : ℤ) = match t[i]? with | some x => .ok x | none => .error .indexError := by
  unfold npIndex
  have : ¬ ((i : ℤ) < 0) := by omega
  simp only [if_neg this, Int.toNat_natCast]
  cases t[i]? <;> rfl

theorem getLut_entries (entries : List CategoryEntry) (k : ℕ)
    (h3 : ∀ e ∈ entries, e.color.length = k ∧ ∀ v ∈ e.color, v < 256) (r : Dict (Option String) (List ℤ)) :
    ∃ s', getLut ⟨entries.map CategoryEntry.toRow, r, []⟩ = .ok (entries.map (·.color), s') ∧
      getLut s' = .ok (entries.map (·.color), s') ∧ s'.data = entries.map CategoryEntry.toRow ∧ s'.reverse = r := by
  have hcol : (entries.map CategoryEntry.toRow).map (fun y => y.color.map fun v => (v % 256).toNat)
      = entries.map (·.color) := by
    rw [List.map_map]
    apply List.map_congr_left
    intro e he
    simp only [Function.comp, CategoryEntry.toRow, List.map_map]
    conv_rhs => rw [← List.map_id e.color]
    apply List.map_congr_left
    intro v hv
    have := (h3 e he).2 v hv
    simp only [Function.comp, id]
    simp only [Int.ofNat_eq_natCast]
    omega
  cases entries with
  | nil => exact ⟨_, rfl, rfl, rfl, rfl⟩
  | cons e l =>
    refine ⟨⟨(e :: l).map CategoryEntry.toRow, r, (e :: l).map (·.color)⟩, ?_, ?_, rfl, rfl⟩
    · have hall : ((l.map CategoryEntry.toRow).all fun y => decide (y.color.length = e.toRow.color.length)) = true := by
        rw [List.all_eq_true]
        intro y hy
        obtain ⟨x, hx, rfl⟩ := List.mem_map.1 hy
        simp [CategoryEntry.toRow, (h3 x (by simp [hx])).1, (h3 e (by simp)).1]
      rw [List.map_cons] at hcol ⊢
      unfold getLut
      simp only [List.length_nil, if_true, if_pos hall, hcol]
    · simp [getLut]

/-- **C72.** Whole images: for a table of colours within 0..255, an image of known ids converts to the image of their
colours (same shape), before and after the lookup table is cached; an image with an id beyond the table raises
`IndexError`.  Negative ids silently count from the end of the table. -/
theorem C72_image (entries : List CategoryEntry) (h : ∀ e ∈ entries, e.color.length = 3 ∧ ∀ v ∈ e.color, v < 256) :
    ∃ s, ColoredCategory.new (some (entries.map CategoryEntry.row)) = .ok s ∧
      (∀ im : List (List ℕ), (∀ row ∈ im, ∀ i ∈ row, i < entries.length) →
        ∃ out s', s.convertToRgbIm (im.map (·.map Int.ofNat)) = .ok (out, s') ∧
          s'.convertToRgbIm (im.map (·.map Int.ofNat)) = .ok (out, s') ∧
          List.Forall₂ (List.Forall₂ fun i color => ∃ e, entries[i]? = some e ∧ color = e.color) im out) ∧
      (∀ im : List (List ℤ), (∃ row ∈ im, ∃ i ∈ row, (entries.length : ℤ) ≤ i) → s.convertToRgbIm im = .error .indexError) := by
  have hne : ∀ e ∈ entries, e.color ≠ [] := by
    intro e he h0
    have := (h e he).1
    simp [h0] at this
  refine ⟨_, new_entries entries hne, ?_, ?_⟩
  · intro im him
    obtain ⟨s', hl, hl', -, -⟩ := getLut_entries entries 3 h (reverseData (entries.map CategoryEntry.toRow))
    have hpix : ∀ i < entries.length, ∃ e, entries[i]? = some e ∧
        npIndex (entries.map (·.color)) (Int.ofNat i) = .ok e.color := by
      intro i hi
      refine ⟨entries[i], List.getElem?_eq_getElem hi, ?_⟩
      have := npIndex_nonneg (entries.map (·.color)) i
      simpa [hi] using this
    have hrow : ∀ row : List ℕ, (∀ i ∈ row, i < entries.length) → ∃ out,
        (row.map Int.ofNat).mapM (fun i => npIndex (entries.map (·.color)) i) = .ok out ∧
        List.Forall₂ (fun i color => ∃ e, entries[i]? = some e ∧ color = e.color) row out := by
      intro row
      induction row with
      | nil => intro _; exact ⟨[], rfl, .nil⟩
      | cons i row ih =>
        intro hr
        obtain ⟨out, h1, h2⟩ := ih fun x hx => hr x (by simp [hx])
        obtain ⟨e, he, hi⟩ := hpix i (hr i (by simp))
        refine ⟨e.color :: out, ?_, .cons ⟨e, he, rfl⟩ h2⟩
        rw [List.map_cons, List.mapM_cons, hi, h1]
        rfl
    have hall : ∃ out, (im.map (·.map Int.ofNat)).mapM
          (fun row => row.mapM fun i => npIndex (entries.map (·.color)) i) = .ok out ∧
        List.Forall₂ (List.Forall₂ fun i color => ∃ e, entries[i]? = some e ∧ color = e.color) im out := by
      induction im with
      | nil => exact ⟨[], rfl, .nil⟩
      | cons row im ih =>
        obtain ⟨out, h1, h2⟩ := ih fun x hx => him x (by simp [hx])
        obtain ⟨o, ho1, ho2⟩ := hrow row (him row (by simp))
        refine ⟨o :: out, ?_, .cons ho2 h2⟩
        rw [List.map_cons, List.mapM_cons, ho1, h1]
        rfl
    obtain ⟨out, h1, h2⟩ := hall
    refine ⟨out, s', ?_, ?_, h2⟩
    · simp only [convertToRgbIm, hl, bind, Except.bind, h1, pure, Except.pure]
    · simp only [convertToRgbIm, hl', bind, Except.bind, h1, pure, Except.pure]
  · intro im ⟨row, hrow, i, hi, hbig⟩
    obtain ⟨s', hl, -, -, -⟩ := getLut_entries entries 3 h (reverseData (entries.map CategoryEntry.toRow))
    have hidx : ∀ (j : ℤ) (e' : PyErr), npIndex (entries.map (·.color)) j = .error e' → e' = .indexError := by
      intro j e'
      unfold npIndex
      dsimp only
      generalize (if j < 0 then j + ((entries.map (·.color)).length : ℤ) else j) = k
      intro hj
      by_cases hk : k < 0
      · rw [if_pos hk] at hj
        simpa using hj.symm
      · rw [if_neg hk] at hj
        split at hj
        · cases hj
        · simpa using hj.symm
    have hbad : npIndex (entries.map (·.color)) i = .error .indexError := by
      obtain ⟨n, rfl⟩ := Int.eq_ofNat_of_zero_le (show 0 ≤ i by omega)
      rw [npIndex_nonneg]
      rw [List.getElem?_eq_none (by simp; omega)]
    have hrowerr : row.mapM (fun i => npIndex (entries.map (·.color)) i) = .error .indexError :=
      mapM_error_of_mem (fun a _ e' he' => hidx a e' he') ⟨i, hi, hbad⟩
    have hrowall : ∀ (r : List ℤ) (e' : PyErr), r.mapM (fun i => npIndex (entries.map (·.color)) i) = .error e' →
        e' = .indexError := by
      intro r
      induction r with
      | nil => intro e' he'; cases he'
      | cons a r ih =>
        intro e' he'
        rw [List.mapM_cons] at he'
        cases ha : npIndex (entries.map (·.color)) a with
        | error x =>
          rw [ha] at he'
          simp only [bind, Except.bind, Except.error.injEq] at he'
          rw [← he']
          exact hidx a x ha
        | ok x =>
          rw [ha] at he'
          cases hr : r.mapM (fun i => npIndex (entries.map (·.color)) i) with
          | error y =>
            rw [hr] at he'
            simp only [bind, Except.bind, Except.error.injEq] at he'
            rw [← he']
            exact ih y hr
          | ok y => rw [hr] at he'; cases he'
    have : im.mapM (fun row => row.mapM fun i => npIndex (entries.map (·.color)) i) = .error .indexError :=
      mapM_error_of_mem (fun a _ e' he' => hrowall a e' he') ⟨row, hrow, hrowerr⟩
    simp only [convertToRgbIm, hl, bind, Except.bind, this]

example : ∃ s, ColoredCategory.new (some ([⟨"0", "bed", "True", [1, 2, 3]⟩, ⟨"1", "sofa", "True", [40, 50, 255]⟩].map
      CategoryEntry.row)) = .ok s ∧
    (∃ s', s.convertToRgbIm [[0, 1], [1, -1]] = .ok ([[[1, 2, 3], [40, 50, 255]], [[40, 50, 255], [40, 50, 255]]], s')) ∧
    s.convertToRgbIm [[0, 2]] = .error .indexError := by
  refine ⟨_, new_entries _ (by decide), ⟨_, rfl⟩, by decide⟩

/-- **C72.** A missing file raises `IOError`. -/
theorem C72_missing_file : ColoredCategory.new none = .error .ioError := rfl

/-- **C90** is false: the table format shown in the class's documentation, `0,empty,False,(152, 245, 255)`, does not load.
The colour cell, quoted as `(152, 245, 255)` or cut at the comma as `(152`, raises `ValueError`. -/
theorem C90_false :
    ColoredCategory.new (some [[("id", some "0"), ("category", some "empty"), ("is_evaluated", some "False"),
      ("color", some "(152, 245, 255)")]]) = .error .valueError ∧
    ColoredCategory.new (some [[("id", some "0"), ("category", some "empty"), ("is_evaluated", some "False"),
      ("color", some "(152")]]) = .error .valueError := by
  decide

/-- **C90** (partial: semicolon separated colours).  Every table whose colours are decimal numbers separated by
semicolons loads, and the loaded colours are the numbers written. -/
theorem C90_semicolons_partial (entries : List CategoryEntry) (h : ∀ e ∈ entries, e.color ≠ []) :
    ∃ s, ColoredCategory.new (some (entries.map CategoryEntry.row)) = .ok s ∧
      s.data.map (·.color) = entries.map (·.color.map Int.ofNat) ∧
      s.data.map (·.category) = entries.map (fun e => some e.name) := by
  refine ⟨_, new_entries entries h, ?_, ?_⟩ <;>
  simp [Function.comp_def, CategoryEntry.toRow]

end Sumo
