import Verif.Model.Category
import Verif.Lemmas.Dict
import Mathlib.Data.List.Induction

/-! # Helper lemmas on category colours -/

namespace Sumo

theorem mapM_ok_length {α β : Type} {f : α → Except PyErr β} : ∀ {l : List α} {r : List β}, l.mapM f = .ok r →
    r.length = l.length := by
  intro l
  induction l with
  | nil => intro r h; simp [pure, Except.pure] at h; simp [← h]
  | cons a l ih =>
    intro r h
    rw [List.mapM_cons] at h
    cases ha : f a with
    | error e => simp [ha, bind, Except.bind] at h
    | ok b =>
      cases hl : l.mapM f with
      | error e => simp [ha, hl, bind, Except.bind] at h
      | ok bs =>
        simp [ha, hl, bind, Except.bind, pure, Except.pure] at h
        simp [← h, ih hl]

theorem mapM_ok_iff {α β : Type} {f : α → Except PyErr β} : ∀ {l : List α} {r : List β},
    l.mapM f = .ok r ↔ List.Forall₂ (fun a b => f a = .ok b) l r := by
  intro l
  induction l with
  | nil =>
    intro r
    simp [pure, Except.pure, eq_comm]
  | cons a l ih =>
    intro r
    rw [List.mapM_cons]
    cases ha : f a with
    | error e =>
      simp only [bind, Except.bind]
      constructor
      · intro h; cases h
      · intro h; cases h with | cons h _ => rw [ha] at h; cases h
    | ok b =>
      cases hl : l.mapM f with
      | error e =>
        simp only [bind, Except.bind]
        constructor
        · intro h; cases h
        · intro h
          cases h with
          | cons h1 h2 => rw [ih.2 h2] at hl; cases hl
      | ok bs =>
        simp only [bind, Except.bind, pure, Except.pure, Except.ok.injEq]
        constructor
        · intro h; subst h; exact .cons ha (ih.1 hl)
        · intro h
          cases h with
          | cons h1 h2 =>
            rw [ih.2 h2] at hl
            rw [ha] at h1
            cases hl; cases h1; rfl

theorem mapM_error_of_mem {α β : Type} {f : α → Except PyErr β} {e : PyErr} : ∀ {l : List α},
    (∀ a ∈ l, ∀ e', f a = .error e' → e' = e) → (∃ a ∈ l, f a = .error e) → l.mapM f = .error e := by
  intro l
  induction l with
  | nil => rintro - ⟨a, h, -⟩; simp at h
  | cons a l ih =>
    intro h1 h2
    rw [List.mapM_cons]
    cases ha : f a with
    | error e' =>
      have := h1 a (by simp) e' ha
      subst this
      rfl
    | ok b =>
      have : l.mapM f = .error e := by
        apply ih (fun x hx => h1 x (by simp [hx]))
        obtain ⟨x, hx, hxe⟩ := h2
        rcases List.mem_cons.1 hx with rfl | hx
        · rw [ha] at hxe; cases hxe
        · exact ⟨x, hx, hxe⟩
      simp [this, bind, Except.bind]

/-- The last row of a name determines what the reverse table says. -/
theorem reverseData_get? (data : List CategoryRow) (name : Option String) :
    (ColoredCategory.reverseData data).get? name = ((data.filter (·.category = name)).map (·.color)).getLast? := by
  unfold ColoredCategory.reverseData
  induction data using List.reverseRecOn with
  | nil => simp
  | append_singleton l x ih =>
    rw [List.foldl_append]
    simp only [List.foldl_cons, List.foldl_nil, List.filter_append, List.map_append]
    by_cases h : x.category = name
    · subst h
      simp [Dict.get?_set_self]
    · rw [Dict.get?_set_ne _ _ h]
      rw [ih]
      simp [h]

/-- Decimal digits of a number, most significant first (what a user writes in the table). -/
def decimal (n : ℕ) : List Char :=
  if n < 10 then [Char.ofNat (48 + n)] else decimal (n / 10) ++ [Char.ofNat (48 + n % 10)]

theorem digitChar_toNat : ∀ d < 10, (Char.ofNat (48 + d)).toNat = 48 + d := by decide

theorem digitChar_isDigit : ∀ d < 10, (Char.ofNat (48 + d)).isDigit = true := by decide

theorem digitChar_ne_semicolon : ∀ d < 10, Char.ofNat (48 + d) ≠ ';' := by decide

theorem digitChar_ne_minus : ∀ d < 10, Char.ofNat (48 + d) ≠ '-' := by decide

theorem digitChar_ne_plus : ∀ d < 10, Char.ofNat (48 + d) ≠ '+' := by decide

theorem digitChar_not_whitespace : ∀ d < 10, (Char.ofNat (48 + d)).isWhitespace = false := by decide

theorem mem_decimal (n : ℕ) : ∀ c ∈ decimal n, ∃ d < 10, c = Char.ofNat (48 + d) := by
  induction n using Nat.strong_induction_on with
  | _ n ih =>
    intro c hc
    rw [decimal] at hc
    split_ifs at hc with h
    · simp only [List.mem_singleton] at hc
      exact ⟨n, h, hc⟩
    · rcases List.mem_append.1 hc with hc | hc
      · exact ih (n / 10) (by omega) c hc
      · simp only [List.mem_singleton] at hc
        exact ⟨n % 10, Nat.mod_lt _ (by omega), hc⟩

theorem decimal_ne_nil (n : ℕ) : decimal n ≠ [] := by
  rw [decimal]
  split_ifs <;> simp

theorem foldl_decimal (n : ℕ) : (decimal n).foldl (fun m c => 10 * m + (c.toNat - '0'.toNat)) 0 = n := by
  induction n using Nat.strong_induction_on with
  | _ n ih =>
    rw [decimal]
    have h0 : '0'.toNat = 48 := rfl
    split_ifs with h
    · simp only [List.foldl_cons, List.foldl_nil, digitChar_toNat n h, h0]
      omega
    · rw [List.foldl_append, ih (n / 10) (by omega)]
      have hm : n % 10 < 10 := Nat.mod_lt _ (by omega)
      simp only [List.foldl_cons, List.foldl_nil, digitChar_toNat _ hm, h0]
      omega

theorem pyDigits_decimal (n : ℕ) : pyDigits (decimal n) = some n := by
  unfold pyDigits
  rw [if_pos, foldl_decimal]
  refine ⟨decimal_ne_nil n, ?_⟩
  rw [List.all_eq_true]
  intro c hc
  obtain ⟨d, hd, rfl⟩ := mem_decimal n c hc
  exact digitChar_isDigit d hd

theorem dropWhile_eq_self {α : Type} {p : α → Bool} {l : List α} (h : ∀ a ∈ l, p a = false) : l.dropWhile p = l := by
  cases l with
  | nil => rfl
  | cons a l => simp [h a (by simp)]

theorem pyStrip_decimal (n : ℕ) : pyStrip (decimal n) = decimal n := by
  have h : ∀ c ∈ decimal n, Char.isWhitespace c = false := by
    intro c hc
    obtain ⟨d, hd, rfl⟩ := mem_decimal n c hc
    exact digitChar_not_whitespace d hd
  unfold pyStrip
  rw [dropWhile_eq_self h, dropWhile_eq_self (by simpa using h), List.reverse_reverse]

theorem pyInt_decimal (n : ℕ) : pyInt (decimal n) = .ok n := by
  unfold pyInt
  rw [pyStrip_decimal]
  have key := pyDigits_decimal n
  cases hd : decimal n with
  | nil => exact absurd hd (decimal_ne_nil n)
  | cons c t =>
    have hc : c ≠ '-' ∧ c ≠ '+' := by
      obtain ⟨d, hd', rfl⟩ := mem_decimal n c (by simp [hd])
      constructor
      · exact digitChar_ne_minus d hd'
      · exact digitChar_ne_plus d hd'
    rw [hd] at key
    split
    · rename_i h; simp_all
    · rename_i h; simp_all
    · simp [key]

theorem semicolon_not_mem_decimal (n : ℕ) : ';' ∉ decimal n := by
  intro h
  obtain ⟨d, hd, he⟩ := mem_decimal n _ h
  exact digitChar_ne_semicolon d hd he.symm

end Sumo
