import Verif.Spec.Ply
import Mathlib.Data.Nat.Digits.Lemmas
import Mathlib.Tactic.Ring
import Mathlib.Tactic.IntervalCases

/-! # Lemmas about PLY files -/

namespace Sumo.Ply

open Spec

/-! ### Numbers -/

theorem toDigits_step (n : ℕ) (h : 10 ≤ n) : Nat.toDigits 10 n = Nat.toDigits 10 (n / 10) ++ [(n % 10).digitChar] :=
  Nat.toDigits_of_base_le (by omega) h

theorem digits_eq (n : ℕ) : Spec.digits n = (Nat.toDigits 10 n).map fun c => UInt8.ofNat c.toNat := by
  unfold Spec.digits txt
  rw [Nat.toString_eq_ofList_toDigits, String.toList_ofList]

theorem digitChar_byte (d : ℕ) (h : d < 10) : UInt8.ofNat (d.digitChar.toNat) = UInt8.ofNat (48 + d) := by
  interval_cases d <;> rfl

theorem digits_lt (n : ℕ) (h : n < 10) : Spec.digits n = [UInt8.ofNat (48 + n)] := by
  rw [digits_eq, Nat.toDigits_of_lt_base h, List.map_singleton, digitChar_byte n h]

theorem digits_ge (n : ℕ) (h : 10 ≤ n) : Spec.digits n = Spec.digits (n / 10) ++ [UInt8.ofNat (48 + n % 10)] := by
  rw [digits_eq, digits_eq, toDigits_step n h, List.map_append, List.map_singleton, digitChar_byte _ (Nat.mod_lt _ (by omega))]

theorem digit_isDigit (d : ℕ) (h : d < 10) : isDigit (UInt8.ofNat (48 + d)) = true := by
  interval_cases d <;> rfl

theorem digit_value (d : ℕ) (h : d < 10) : (UInt8.ofNat (48 + d)).toNat - 48 = d := by
  interval_cases d <;> rfl

theorem digits_isDigit (n : ℕ) : ∀ b ∈ Spec.digits n, isDigit b = true := by
  induction n using Nat.strong_induction_on with
  | _ n ih =>
    intro b hb
    by_cases h : n < 10
    · rw [digits_lt n h, List.mem_singleton] at hb
      rw [hb]; exact digit_isDigit n h
    · rw [digits_ge n (by omega), List.mem_append, List.mem_singleton] at hb
      rcases hb with hb | hb
      · exact ih (n / 10) (by omega) b hb
      · rw [hb]; exact digit_isDigit _ (Nat.mod_lt _ (by omega))

theorem digits_ne_nil (n : ℕ) : Spec.digits n ≠ [] := by
  by_cases h : n < 10
  · rw [digits_lt n h]; simp
  · rw [digits_ge n (by omega)]; simp

theorem digits_foldl (n : ℕ) : (Spec.digits n).foldl (fun n b => 10 * n + (b.toNat - 48)) 0 = n := by
  induction n using Nat.strong_induction_on with
  | _ n ih =>
    by_cases h : n < 10
    · rw [digits_lt n h, List.foldl_cons, List.foldl_nil, digit_value n h]; omega
    · rw [digits_ge n (by omega), List.foldl_append, ih (n / 10) (by omega), List.foldl_cons, List.foldl_nil,
        digit_value _ (Nat.mod_lt _ (by omega))]
      omega

theorem digitsValue_digits (n : ℕ) : digitsValue (Spec.digits n) = n := by
  unfold digitsValue
  have : ∀ l : Bytes, (∀ b ∈ l, isDigit b = true) → l.takeWhile isDigit = l := by
    intro l
    induction l with
    | nil => intro _; rfl
    | cons a l ih =>
      intro h
      rw [List.takeWhile_cons, h a List.mem_cons_self, if_pos rfl, ih (fun x hx => h x (List.mem_cons_of_mem _ hx))]
  rw [this _ (digits_isDigit n), digits_foldl]

theorem parseSize_digits (n : ℕ) (h : n < 2 ^ 64) : parseSize (Spec.digits n) = n := by
  have hd := digits_isDigit n
  have hv := digitsValue_digits n
  cases hl : Spec.digits n with
  | nil => exact absurd hl (digits_ne_nil n)
  | cons b r =>
    have hb := hd b (by rw [hl]; exact List.mem_cons_self)
    have h45 : b ≠ 45 := by rintro rfl; exact absurd hb (by decide)
    have h43 : b ≠ 43 := by rintro rfl; exact absurd hb (by decide)
    rw [hl] at hv
    have : parseSize (b :: r) = min (digitsValue (b :: r)) (2 ^ 64 - 1) := by
      unfold parseSize
      split
      · rename_i heq; exact absurd (List.cons.inj heq).1 h45
      · rename_i heq; exact absurd (List.cons.inj heq).1 h43
      · rfl
    rw [this, hv]
    omega

theorem decimal_eq_digits (n : ℕ) : decimal n = Spec.digits n := by
  induction n using Nat.strong_induction_on with
  | _ n ih =>
    by_cases h0 : n = 0
    · subst h0; rfl
    · by_cases h : n < 10
      · rw [digits_lt n h, decimal, if_neg h0, Nat.digits_of_lt 10 n h0 h]; rfl
      · have hd : n / 10 ≠ 0 := by omega
        have := ih (n / 10) (by omega)
        rw [decimal, if_neg hd] at this
        rw [digits_ge n (by omega), decimal, if_neg h0, Nat.digits_def' (by omega) (by omega), List.reverse_cons,
          List.map_append, this]
        rfl

theorem leNat_numberBytes : ∀ (w n : ℕ), n < 256 ^ w → leNat (numberBytes w n) = n
  | 0, n, h => by
    have : n = 0 := by simpa using h
    subst this; rfl
  | w + 1, n, h => by
    have h1 : n / 256 < 256 ^ w := by
      rw [pow_succ] at h
      exact Nat.div_lt_of_lt_mul (by rwa [mul_comm] at h)
    have ih := leNat_numberBytes w (n / 256) h1
    unfold leNat at ih ⊢
    rw [numberBytes, List.foldr_cons, ih, UInt8.toNat_ofNat']
    omega

theorem length_numberBytes : ∀ (w n : ℕ), (numberBytes w n).length = w
  | 0, _ => rfl
  | w + 1, n => by rw [numberBytes, List.length_cons, length_numberBytes w]

/-! ### Words and lines -/

theorem not_isSpace_of_word {w : Bytes} (h : Word w) : ∀ b ∈ w, isSpace b = false := by
  intro b hb
  obtain ⟨h1, h2⟩ := h.2 b hb
  unfold isSpace
  simp only [Bool.or_eq_false_iff, decide_eq_false_iff_not, h1, not_false_iff, true_and, Bool.and_eq_false_iff]
  by_cases h9 : 9 ≤ b
  · exact Or.inr fun h13 => h2 ⟨h9, h13⟩
  · exact Or.inl h9

theorem tokensFrom_word : ∀ (w cur r : Bytes), (∀ b ∈ w, isSpace b = false) → cur ++ w ≠ [] →
    tokensFrom cur (w ++ 32 :: r) = (cur ++ w) :: tokensFrom [] r
  | [], cur, r, _, hne => by
    rw [List.append_nil] at hne
    show tokensFrom cur (32 :: r) = _
    rw [tokensFrom, if_pos (by decide), if_neg hne, List.append_nil]
  | b :: w, cur, r, h, _ => by
    show tokensFrom cur (b :: (w ++ 32 :: r)) = _
    rw [tokensFrom, h b List.mem_cons_self, if_neg (by simp),
      tokensFrom_word w (cur ++ [b]) r (fun x hx => h x (List.mem_cons_of_mem _ hx)) (by simp)]
    simp

theorem tokensFrom_end : ∀ (w cur : Bytes), (∀ b ∈ w, isSpace b = false) → cur ++ w ≠ [] → tokensFrom cur w = [cur ++ w]
  | [], cur, _, hne => by
    rw [List.append_nil] at hne
    rw [tokensFrom, if_neg hne, List.append_nil]
  | b :: w, cur, h, _ => by
    rw [tokensFrom, h b List.mem_cons_self, if_neg (by simp),
      tokensFrom_end w (cur ++ [b]) (fun x hx => h x (List.mem_cons_of_mem _ hx)) (by simp)]
    simp

theorem tokens_word {w : Bytes} (h : Word w) (r : Bytes) : tokens (w ++ 32 :: r) = w :: tokens r := by
  unfold tokens
  rw [tokensFrom_word w [] r (not_isSpace_of_word h) h.1]; rfl

theorem tokens_end {w : Bytes} (h : Word w) : tokens w = [w] := by
  unfold tokens
  rw [tokensFrom_end w [] (not_isSpace_of_word h) h.1]; rfl

theorem word_no_newline {w : Bytes} (h : Word w) : 10 ∉ w := fun hm => absurd (h.2 10 hm).2 (by decide)

theorem word_digits (n : ℕ) : Word (Spec.digits n) := by
  refine ⟨digits_ne_nil n, fun b hb => ?_⟩
  have := digits_isDigit n b hb
  unfold isDigit at this
  simp only [Bool.and_eq_true, decide_eq_true_eq] at this
  constructor
  · rintro rfl; exact absurd this.1 (by decide)
  · rintro ⟨_, h13⟩
    have h48 := this.1
    rw [UInt8.le_iff_toNat_le] at h48 h13
    have h1 : (48 : UInt8).toNat = 48 := rfl
    have h2 : (13 : UInt8).toNat = 13 := rfl
    omega

instance (w : Bytes) : Decidable (Word w) := by unfold Word; infer_instance

theorem word_typeName {t : PlyType} {n : Bytes} (h : n ∈ typeNames t) : Word n := by
  cases t <;> simp only [typeNames, List.mem_cons, List.not_mem_nil, or_false] at h <;>
    rcases h with rfl | rfl <;> decide

theorem typeFromString_name {t : PlyType} {n : Bytes} (h : n ∈ typeNames t) : typeFromString n = t := by
  cases t <;> simp only [typeNames, List.mem_cons, List.not_mem_nil, or_false] at h <;>
    rcases h with rfl | rfl <;> rfl

theorem typeName_ne_list {t : PlyType} {n : Bytes} (h : n ∈ typeNames t) : n ≠ txt "list" := by
  cases t <;> simp only [typeNames, List.mem_cons, List.not_mem_nil, or_false] at h <;>
    rcases h with rfl | rfl <;> decide

theorem width_stride (t : PlyType) : Spec.width t = t.stride := by cases t <;> rfl

/-! ### The header -/

theorem parseHeader_line (h : Header) (rest : Bytes) : ∀ (line acc : Bytes), 10 ∉ line →
    parseHeader h acc (line ++ 10 :: rest) =
      match headerLine h (acc ++ line) with
      | .error e => .error e
      | .ok none => .ok (h, rest, false)
      | .ok (some h') => parseHeader h' [] rest
  | [], acc, _ => by
    rw [List.append_nil]
    show parseHeader h acc (10 :: rest) = _
    rw [parseHeader, if_pos rfl]
    cases headerLine h acc with
    | error e => rfl
    | ok o => cases o <;> rfl
  | b :: line, acc, hn => by
    show parseHeader h acc (b :: (line ++ 10 :: rest)) = _
    have hb : b ≠ 10 := fun e => hn (by rw [e]; exact List.mem_cons_self)
    rw [parseHeader, if_neg hb, parseHeader_line h rest line (acc ++ [b]) (fun hm => hn (List.mem_cons_of_mem _ hm))]
    simp

theorem parseHeader_next {h h' : Header} {line : Bytes} (rest : Bytes) (hn : 10 ∉ line)
    (hl : headerLine h line = .ok (some h')) : parseHeader h [] (line ++ 10 :: rest) = parseHeader h' [] rest := by
  rw [parseHeader_line h rest line [] hn, List.nil_append, hl]

theorem txt_append (a b : String) : txt (a ++ b) = txt a ++ txt b := by
  unfold txt; rw [String.toList_append, List.map_append]

/-- The property a column describes. -/
def toProperty (c : Column) : Property := ⟨c.name, c.type, c.list.map (·.1)⟩

/-- The element a table describes. -/
def toElement (t : Table) : Element := ⟨t.name, t.rows.length, t.columns.map toProperty⟩

theorem headerLine_comment (h : Header) (c : Bool × Bytes) : headerLine h (commentLine c) = .ok (some h) := by
  obtain ⟨o, c⟩ := c
  cases o with
  | false =>
    have ht : tokens (commentLine (false, c)) = txt "comment" :: tokens c := by
      have : commentLine (false, c) = txt "comment" ++ 32 :: c := rfl
      rw [this, tokens_word (by decide)]
    unfold headerLine
    rw [ht]
    simp only
    rw [if_neg (by decide), if_pos trivial]
  | true =>
    have ht : tokens (commentLine (true, c)) = txt "obj_info" :: tokens c := by
      have : commentLine (true, c) = txt "obj_info" ++ 32 :: c := rfl
      rw [this, tokens_word (by decide)]
    unfold headerLine
    rw [ht]
    simp only
    rw [if_neg (by decide), if_neg (by decide), if_neg (by decide), if_neg (by decide), if_neg (by decide), if_pos trivial]

theorem headerLine_column (h : Header) (hne : h.elements ≠ []) (c : Column) (hc : c.WF) :
    headerLine h (columnLine c) = .ok (some { h with elements := addToLast (toProperty c) h.elements }) := by
  have key : ∀ ts, tokens (columnLine c) = txt "property" :: ts → parseProperty ts = toProperty c →
      headerLine h (columnLine c) = .ok (some { h with elements := addToLast (toProperty c) h.elements }) := by
    intro ts ht hp
    unfold headerLine
    rw [ht]
    simp only
    rw [if_neg (by decide), if_neg (by decide), if_neg (by decide), if_neg (by decide), if_pos trivial, if_neg hne, hp]
  cases hl : c.list with
  | none =>
    refine key [c.typeName, c.name] ?_ ?_
    · have : columnLine c = txt "property" ++ 32 :: (c.typeName ++ 32 :: c.name) := by
        unfold columnLine
        rw [hl]
        show txt "property " ++ c.typeName ++ txt " " ++ c.name = _
        have e1 : txt "property " = txt "property" ++ [32] := rfl
        have e2 : txt " " = [32] := rfl
        rw [e1, e2]; simp
      rw [this, tokens_word (by decide), tokens_word (word_typeName hc.typeName), tokens_end hc.name]
    · unfold parseProperty toProperty
      rw [hl]
      show (if c.typeName = txt "list" then _ else (⟨c.name, typeFromString c.typeName, none⟩ : Property)) = _
      rw [if_neg (typeName_ne_list hc.typeName), typeFromString_name hc.typeName]; rfl
  | some q =>
    obtain ⟨t, n⟩ := q
    obtain ⟨hn, _⟩ := hc.list t n hl
    refine key [txt "list", n, c.typeName, c.name] ?_ ?_
    · have : columnLine c = txt "property" ++ 32 :: (txt "list" ++ 32 :: (n ++ 32 :: (c.typeName ++ 32 :: c.name))) := by
        unfold columnLine
        rw [hl]
        show txt "property list " ++ n ++ txt " " ++ c.typeName ++ txt " " ++ c.name = _
        have e1 : txt "property list " = txt "property" ++ 32 :: (txt "list" ++ [32]) := rfl
        have e2 : txt " " = [32] := rfl
        rw [e1, e2]; simp
      rw [this, tokens_word (by decide), tokens_word (by decide), tokens_word (word_typeName hn),
        tokens_word (word_typeName hc.typeName), tokens_end hc.name]
    · unfold parseProperty toProperty
      rw [hl]
      show (if txt "list" = txt "list" then (⟨c.name, typeFromString c.typeName, some (typeFromString n)⟩ : Property)
        else _) = _
      rw [if_pos rfl, typeFromString_name hc.typeName, typeFromString_name hn]; rfl

theorem headerLine_element (h : Header) (t : Table) (ht : t.WF) :
    headerLine h (txt "element " ++ t.name ++ txt " " ++ Spec.digits t.rows.length) =
      .ok (some { h with elements := h.elements ++ [⟨t.name, t.rows.length, []⟩] }) := by
  have htok : tokens (txt "element " ++ t.name ++ txt " " ++ Spec.digits t.rows.length) =
      [txt "element", t.name, Spec.digits t.rows.length] := by
    have : txt "element " ++ t.name ++ txt " " ++ Spec.digits t.rows.length =
        txt "element" ++ 32 :: (t.name ++ 32 :: Spec.digits t.rows.length) := by
      have e1 : txt "element " = txt "element" ++ [32] := rfl
      have e2 : txt " " = [32] := rfl
      rw [e1, e2]; simp
    rw [this, tokens_word (by decide), tokens_word ht.name, tokens_end (word_digits _)]
  unfold headerLine
  rw [htok]
  simp only
  rw [if_neg (by decide), if_neg (by decide), if_neg (by decide), if_pos trivial, parseElement,
    parseSize_digits _ ht.size]

theorem columnLine_no_newline (c : Column) (hc : c.WF) : 10 ∉ columnLine c := by
  unfold columnLine
  have h1 := word_no_newline hc.name
  have h2 := word_no_newline (word_typeName hc.typeName)
  cases hl : c.list with
  | none =>
    simp only [List.mem_append, not_or]
    exact ⟨⟨⟨by decide, h2⟩, by decide⟩, h1⟩
  | some q =>
    have h3 := word_no_newline (word_typeName (hc.list q.1 q.2 hl).1)
    simp only [List.mem_append, not_or]
    exact ⟨⟨⟨⟨⟨by decide, h3⟩, by decide⟩, h2⟩, by decide⟩, h1⟩

theorem addToLast_append (p : Property) (e : Element) : ∀ (es : List Element),
    addToLast p (es ++ [e]) = es ++ [⟨e.name, e.size, e.properties ++ [p]⟩]
  | [] => rfl
  | [a] => rfl
  | a :: b :: es => by
    have := addToLast_append p e (b :: es)
    show addToLast p (a :: (b :: (es ++ [e]))) = _
    rw [addToLast]
    · rw [show b :: (es ++ [e]) = (b :: es) ++ [e] from rfl, this]; rfl
    · simp

theorem parseHeader_columns (be bin : Bool) (rest : Bytes) (es : List Element) (e : Bytes) (n : ℕ) :
    ∀ (cs : List Column) (ps : List Property), (∀ c ∈ cs, c.WF) →
    parseHeader ⟨bin, be, es ++ [⟨e, n, ps⟩]⟩ [] ((cs.map columnLine).flatMap (· ++ [10]) ++ rest) =
      parseHeader ⟨bin, be, es ++ [⟨e, n, ps ++ cs.map toProperty⟩]⟩ [] rest
  | [], ps, _ => by simp
  | c :: cs, ps, h => by
    have hc := h c List.mem_cons_self
    have : ((c :: cs).map columnLine).flatMap (· ++ [10]) ++ rest =
        columnLine c ++ 10 :: ((cs.map columnLine).flatMap (· ++ [10]) ++ rest) := by simp
    rw [this, parseHeader_next _ (columnLine_no_newline c hc)
      (headerLine_column _ (by simp) c hc)]
    show parseHeader ⟨bin, be, addToLast (toProperty c) (es ++ [⟨e, n, ps⟩])⟩ [] _ = _
    rw [addToLast_append, parseHeader_columns be bin rest es e n cs _ (fun x hx => h x (List.mem_cons_of_mem _ hx))]
    simp

theorem parseHeader_tables (be bin : Bool) (rest : Bytes) : ∀ (ts : List Table) (es : List Element), (∀ t ∈ ts, t.WF) →
    parseHeader ⟨bin, be, es⟩ [] ((ts.flatMap tableLines).flatMap (· ++ [10]) ++ rest) =
      parseHeader ⟨bin, be, es ++ ts.map toElement⟩ [] rest
  | [], es, _ => by simp
  | t :: ts, es, h => by
    have ht := h t List.mem_cons_self
    have e1 : ((t :: ts).flatMap tableLines).flatMap (· ++ [10]) ++ rest =
        (txt "element " ++ t.name ++ txt " " ++ Spec.digits t.rows.length) ++ 10 ::
          ((t.columns.map columnLine).flatMap (· ++ [10]) ++ ((ts.flatMap tableLines).flatMap (· ++ [10]) ++ rest)) := by
      simp [tableLines]
    have hn : 10 ∉ (txt "element " ++ t.name ++ txt " " ++ Spec.digits t.rows.length) := by
      simp only [List.mem_append, not_or]
      exact ⟨⟨⟨by decide, word_no_newline ht.name⟩, by decide⟩, word_no_newline (word_digits _)⟩
    rw [e1, parseHeader_next _ hn (headerLine_element _ t ht)]
    show parseHeader ⟨bin, be, es ++ [⟨t.name, t.rows.length, []⟩]⟩ [] _ = _
    rw [parseHeader_columns be bin _ es t.name t.rows.length t.columns [] ht.columns, List.nil_append,
      parseHeader_tables be bin rest ts _ (fun x hx => h x (List.mem_cons_of_mem _ hx))]
    simp [toElement]

theorem parseHeader_comments (h : Header) (rest : Bytes) : ∀ (cs : List (Bool × Bytes)), (∀ c ∈ cs, 10 ∉ c.2) →
    parseHeader h [] ((cs.map commentLine).flatMap (· ++ [10]) ++ rest) = parseHeader h [] rest
  | [], _ => by simp
  | c :: cs, hc => by
    have : ((c :: cs).map commentLine).flatMap (· ++ [10]) ++ rest =
        commentLine c ++ 10 :: ((cs.map commentLine).flatMap (· ++ [10]) ++ rest) := by simp
    rw [this, parseHeader_next _ _ (headerLine_comment h c),
      parseHeader_comments h rest cs (fun x hx => hc x (List.mem_cons_of_mem _ hx))]
    unfold commentLine
    simp only [List.mem_append, not_or]
    exact ⟨by split_ifs <;> decide, hc c List.mem_cons_self⟩

/-- Reading the header of a well formed file. -/
theorem parseHeader_content (f : Content) (hf : f.WF) (rest : Bytes) :
    parseHeader ⟨false, false, []⟩ [] ((headerLines f).flatMap (· ++ [10]) ++ rest) =
      .ok (⟨true, f.bigEndian, f.tables.map toElement⟩, rest, false) := by
  have e : (headerLines f).flatMap (· ++ [10]) ++ rest =
      txt "ply" ++ 10 :: ((if f.bigEndian then txt "format binary_big_endian 1.0" else
        txt "format binary_little_endian 1.0") ++ 10 :: ((f.comments.map commentLine).flatMap (· ++ [10]) ++
        ((f.tables.flatMap tableLines).flatMap (· ++ [10]) ++ (txt "end_header" ++ 10 :: rest)))) := by
    unfold headerLines
    simp only [List.flatMap_append, List.flatMap_cons, List.flatMap_nil, List.append_assoc, List.append_nil,
      List.cons_append, List.nil_append]
  rw [e, parseHeader_next (h' := ⟨false, false, []⟩) _ (by decide) rfl,
    parseHeader_next (h' := ⟨true, f.bigEndian, []⟩) _ (by split_ifs <;> decide) (by cases f.bigEndian <;> rfl),
    parseHeader_comments _ _ _ hf.comments, parseHeader_tables _ _ _ _ _ hf.tables,
    parseHeader_line _ _ _ _ (by decide)]
  rfl

/-! ### The data -/

theorem stream_read {v : Bytes} {n : ℕ} (hv : v.length = n) (r sc : Bytes) :
    Stream.read n ⟨v ++ r, false, sc⟩ = ⟨r, false, v ++ sc.drop n⟩ := by
  subst hv
  simp [Stream.read]

theorem value_length (be : Bool) (v : Bytes) : (value be v).length = v.length := by
  unfold value; split_ifs <;> simp

theorem value_value (be : Bool) (v : Bytes) : (if be then (value be v).reverse else value be v) = v := by
  unfold value; cases be <;> simp

theorem readPropertyBinary_value (be : Bool) {t : PlyType} (ht : t ≠ .invalid) {v : Bytes} (hv : v.length = width t)
    (r sc : Bytes) : ∃ sc', readPropertyBinary be t ⟨value be v ++ r, false, sc⟩ = .ok (v, ⟨r, false, sc'⟩) := by
  have hl : (value be v).length = t.stride := by rw [value_length, hv, width_stride]
  refine ⟨value be v ++ sc.drop t.stride, ?_⟩
  unfold readPropertyBinary
  simp only [stream_read hl, if_neg ht]
  rw [← hl, List.take_left, value_value]

theorem skipItems_values (be : Bool) (n : ℕ) (r : Bytes) : ∀ (vs : List Bytes) (sc : Bytes), (∀ v ∈ vs, v.length = n) →
    ∃ sc', skipItems n vs.length ⟨vs.flatMap (value be) ++ r, false, sc⟩ = ⟨r, false, sc'⟩
  | [], sc, _ => ⟨sc, rfl⟩
  | v :: vs, sc, h => by
    have hl : (value be v).length = n := by rw [value_length, h v List.mem_cons_self]
    obtain ⟨sc', h'⟩ := skipItems_values be n r vs (value be v ++ sc.drop n) (fun x hx => h x (List.mem_cons_of_mem _ hx))
    refine ⟨sc', ?_⟩
    rw [List.flatMap_cons, List.append_assoc, List.length_cons, skipItems, stream_read hl, h']

theorem type_ne_invalid {c : Column} (hc : c.WF) : c.type ≠ .invalid := fun h => by
  have := hc.typeName
  rw [h] at this
  simp [typeNames] at this

theorem integral_ne_invalid {t : PlyType} (h : Integral t) : t ≠ .invalid := by
  rintro rfl; exact h

theorem skip_cell (be : Bool) (c : Column) (hc : c.WF) (x : Cell) (hx : Fits c x) (r sc : Bytes) :
    ∃ sc', skipPropertyBinary be (toProperty c) ⟨cell be c x ++ r, false, sc⟩ =
      .ok ((x.map List.length).sum, ⟨r, false, sc'⟩) := by
  have hsum : ∀ l : List Bytes, (∀ v ∈ l, v.length = width c.type) → (l.map List.length).sum = l.length * c.type.stride := by
    intro l
    induction l with
    | nil => intro _; simp
    | cons v l ih =>
      intro h
      rw [List.map_cons, List.sum_cons, ih (fun y hy => h y (List.mem_cons_of_mem _ hy)), h v List.mem_cons_self,
        width_stride, List.length_cons]
      ring
  unfold skipPropertyBinary toProperty cell
  unfold Fits at hx
  cases hl : c.list with
  | none =>
    rw [hl] at hx
    obtain ⟨h1, h2⟩ := hx
    have h2' : x.length = 1 := h2
    obtain ⟨v, rfl⟩ := List.length_eq_one_iff.1 h2'
    have hv : (value be v).length = c.type.stride := by
      rw [value_length, h1 v List.mem_cons_self, width_stride]
    refine ⟨value be v ++ sc.drop c.type.stride, ?_⟩
    simp only [Option.map_none, List.flatMap_cons, List.flatMap_nil, List.append_nil, stream_read hv]
    rw [hsum _ h1, List.length_singleton, one_mul]
  | some q =>
    obtain ⟨t, n⟩ := q
    rw [hl] at hx
    obtain ⟨h1, h2⟩ := hx
    have h2' : x.length < 256 ^ width t := h2
    obtain ⟨sc1, h3⟩ := readPropertyBinary_value be (integral_ne_invalid (hc.list t n hl).2)
      (v := numberBytes (width t) x.length) (length_numberBytes _ _) (x.flatMap (value be) ++ r) sc
    obtain ⟨sc2, h4⟩ := skipItems_values be c.type.stride r x sc1 (fun v hv => by rw [h1 v hv, width_stride])
    refine ⟨sc2, ?_⟩
    simp only [Option.map_some, List.append_assoc, h3, leNat_numberBytes _ _ h2', h4, hsum x h1]

theorem times_readInto (be : Bool) {t : PlyType} (ht : t ≠ .invalid) (r : Bytes) : ∀ (vs : List Bytes) (sc : Bytes)
    (tot : ℕ) (out : Bytes), (∀ v ∈ vs, v.length = width t) →
    ∃ sc', times vs.length (readInto (binaryReader be) t) ⟨⟨vs.flatMap (value be) ++ r, false, sc⟩, tot, out⟩ =
      .ok ⟨⟨r, false, sc'⟩, tot, out ++ vs.flatten⟩
  | [], sc, tot, out, _ => ⟨sc, by simp [times]⟩
  | v :: vs, sc, tot, out, h => by
    obtain ⟨sc1, h1⟩ := readPropertyBinary_value be ht (h v List.mem_cons_self) (vs.flatMap (value be) ++ r) sc
    obtain ⟨sc2, h2⟩ := times_readInto be ht r vs sc1 tot (out ++ v) (fun x hx => h x (List.mem_cons_of_mem _ hx))
    refine ⟨sc2, ?_⟩
    have h1' : readInto (binaryReader be) t ⟨⟨(v :: vs).flatMap (value be) ++ r, false, sc⟩, tot, out⟩ =
        .ok ⟨⟨vs.flatMap (value be) ++ r, false, sc1⟩, tot, out ++ v⟩ := by
      rw [List.flatMap_cons, List.append_assoc]
      simp only [readInto, binaryReader, h1]
    rw [List.length_cons, times, h1']
    simp only [h2]
    simp

theorem first_cell (be : Bool) (keys : List UInt32) (e : Bytes) (c : Column) (hc : c.WF) (x : Cell) (hx : Fits c x)
    (r sc : Bytes) (tot : ℕ) (out : Bytes) :
    ∃ sc', parseProp (binaryReader be) keys true e (toProperty c) ⟨⟨cell be c x ++ r, false, sc⟩, tot, out⟩ =
      .ok ⟨⟨r, false, sc'⟩, tot + (if hashFnv1a (e ++ c.name) ∈ keys then x.flatten.length else 0), out⟩ := by
  obtain ⟨sc', h⟩ := skip_cell be c hc x hx r sc
  refine ⟨sc', ?_⟩
  unfold parseProp
  by_cases hk : hashFnv1a (e ++ c.name) ∈ keys
  · rw [if_pos (show hashFnv1a (e ++ (toProperty c).name) ∈ keys from hk), if_pos hk]
    simp only [binaryReader, h, if_true, List.length_flatten]
  · rw [if_neg (show ¬ hashFnv1a (e ++ (toProperty c).name) ∈ keys from hk), if_neg hk]
    simp only [binaryReader, h, Nat.add_zero]

theorem second_cell (be : Bool) (keys : List UInt32) (e : Bytes) (c : Column) (hc : c.WF) (x : Cell) (hx : Fits c x)
    (r sc : Bytes) (tot : ℕ) (out : Bytes) :
    ∃ sc', parseProp (binaryReader be) keys false e (toProperty c) ⟨⟨cell be c x ++ r, false, sc⟩, tot, out⟩ =
      .ok ⟨⟨r, false, sc'⟩, tot, out ++ (if hashFnv1a (e ++ c.name) ∈ keys then x.flatten else [])⟩ := by
  by_cases hk : hashFnv1a (e ++ c.name) ∈ keys
  · unfold Fits at hx
    cases hl : c.list with
    | none =>
      rw [hl] at hx
      obtain ⟨sc', h'⟩ := times_readInto be (type_ne_invalid hc) r x sc tot out hx.1
      refine ⟨sc', ?_⟩
      have h1 : x.length = 1 := hx.2
      rw [h1, times] at h'
      unfold parseProp
      rw [if_pos (show hashFnv1a (e ++ (toProperty c).name) ∈ keys from hk), if_pos hk]
      simp only [toProperty, hl, cell, Option.map_none, Bool.false_eq_true, if_false]
      revert h'
      cases readInto (binaryReader be) c.type ⟨⟨x.flatMap (value be) ++ r, false, sc⟩, tot, out⟩ with
      | error e => intro h'; exact absurd h' (by simp)
      | ok s => intro h'; exact h'
    | some q =>
      obtain ⟨t, n⟩ := q
      rw [hl] at hx
      have h2' : x.length < 256 ^ width t := hx.2
      obtain ⟨sc1, h3⟩ := readPropertyBinary_value be (integral_ne_invalid (hc.list t n hl).2)
        (v := numberBytes (width t) x.length) (length_numberBytes _ _) (x.flatMap (value be) ++ r) sc
      obtain ⟨sc', h'⟩ := times_readInto be (type_ne_invalid hc) r x sc1 tot out hx.1
      refine ⟨sc', ?_⟩
      unfold parseProp
      rw [if_pos (show hashFnv1a (e ++ (toProperty c).name) ∈ keys from hk), if_pos hk]
      have h3' : (binaryReader be).read t ⟨value be (numberBytes (width t) x.length) ++ (x.flatMap (value be) ++ r), false, sc⟩ =
          .ok (numberBytes (width t) x.length, ⟨x.flatMap (value be) ++ r, false, sc1⟩) := h3
      simp only [toProperty, hl, cell, Option.map_some, List.append_assoc, h3', leNat_numberBytes _ _ h2', h',
        Bool.false_eq_true, if_false]
  · obtain ⟨sc', h⟩ := skip_cell be c hc x hx r sc
    refine ⟨sc', ?_⟩
    unfold parseProp
    rw [if_neg (show ¬ hashFnv1a (e ++ (toProperty c).name) ∈ keys from hk), if_neg hk]
    simp only [binaryReader, h, List.append_nil]

/-- The bytes of the requested cells of a row. -/
def wanted (keys : List UInt32) (e : Bytes) (cs : List Column) (xs : List Cell) : Bytes :=
  ((cs.zip xs).map fun p => if hashFnv1a (e ++ p.1.name) ∈ keys then p.2.flatten else []).flatten

theorem row_cons (be : Bool) (c : Column) (cs : List Column) (x : Cell) (xs : List Cell) :
    row be (c :: cs) (x :: xs) = cell be c x ++ row be cs xs := by
  simp [row]

theorem first_row (be : Bool) (keys : List UInt32) (e : Bytes) (r : Bytes) : ∀ (cs : List Column) (xs : List Cell),
    (∀ c ∈ cs, c.WF) → List.Forall₂ Fits cs xs → ∀ (sc : Bytes) (tot : ℕ) (out : Bytes),
    ∃ sc', forEach (parseProp (binaryReader be) keys true e) (cs.map toProperty) ⟨⟨row be cs xs ++ r, false, sc⟩, tot, out⟩ =
      .ok ⟨⟨r, false, sc'⟩, tot + (wanted keys e cs xs).length, out⟩
  | [], _, _, h, sc, tot, out => by
    cases h
    exact ⟨sc, by simp [forEach, row, wanted]⟩
  | c :: cs, _, hc, h, sc, tot, out => by
    cases h with
    | @cons _ x _ xs hx hxs =>
      obtain ⟨sc1, h1⟩ := first_cell be keys e c (hc c List.mem_cons_self) x hx (row be cs xs ++ r) sc tot out
      obtain ⟨sc2, h2⟩ := first_row be keys e r cs xs (fun y hy => hc y (List.mem_cons_of_mem _ hy)) hxs sc1
        (tot + (if hashFnv1a (e ++ c.name) ∈ keys then x.flatten.length else 0)) out
      refine ⟨sc2, ?_⟩
      rw [row_cons, List.append_assoc, List.map_cons, forEach, h1]
      simp only [h2]
      congr 2
      rw [wanted, wanted, List.zip_cons_cons, List.map_cons, List.flatten_cons, List.length_append, Nat.add_assoc]
      congr 2
      split_ifs <;> rfl

theorem second_row (be : Bool) (keys : List UInt32) (e : Bytes) (r : Bytes) : ∀ (cs : List Column) (xs : List Cell),
    (∀ c ∈ cs, c.WF) → List.Forall₂ Fits cs xs → ∀ (sc : Bytes) (tot : ℕ) (out : Bytes),
    ∃ sc', forEach (parseProp (binaryReader be) keys false e) (cs.map toProperty) ⟨⟨row be cs xs ++ r, false, sc⟩, tot, out⟩ =
      .ok ⟨⟨r, false, sc'⟩, tot, out ++ wanted keys e cs xs⟩
  | [], _, _, h, sc, tot, out => by
    cases h
    exact ⟨sc, by simp [forEach, row, wanted]⟩
  | c :: cs, _, hc, h, sc, tot, out => by
    cases h with
    | @cons _ x _ xs hx hxs =>
      obtain ⟨sc1, h1⟩ := second_cell be keys e c (hc c List.mem_cons_self) x hx (row be cs xs ++ r) sc tot out
      obtain ⟨sc2, h2⟩ := second_row be keys e r cs xs (fun y hy => hc y (List.mem_cons_of_mem _ hy)) hxs sc1 tot
        (out ++ (if hashFnv1a (e ++ c.name) ∈ keys then x.flatten else []))
      refine ⟨sc2, ?_⟩
      rw [row_cons, List.append_assoc, List.map_cons, forEach, h1]
      simp only [h2]
      rw [wanted, wanted, List.zip_cons_cons, List.map_cons, List.flatten_cons, List.append_assoc]

theorem first_rows (be : Bool) (keys : List UInt32) (e : Bytes) (cs : List Column) (hc : ∀ c ∈ cs, c.WF) (r : Bytes) :
    ∀ (rows : List (List Cell)), (∀ xs ∈ rows, List.Forall₂ Fits cs xs) → ∀ (sc : Bytes) (tot : ℕ) (out : Bytes),
    ∃ sc', times rows.length (forEach (parseProp (binaryReader be) keys true e) (cs.map toProperty))
        ⟨⟨rows.flatMap (row be cs) ++ r, false, sc⟩, tot, out⟩ =
      .ok ⟨⟨r, false, sc'⟩, tot + (rows.flatMap (wanted keys e cs)).length, out⟩
  | [], _, sc, tot, out => ⟨sc, by simp [times]⟩
  | xs :: rows, h, sc, tot, out => by
    obtain ⟨sc1, h1⟩ := first_row be keys e (rows.flatMap (row be cs) ++ r) cs xs hc (h xs List.mem_cons_self) sc tot out
    obtain ⟨sc2, h2⟩ := first_rows be keys e cs hc r rows (fun y hy => h y (List.mem_cons_of_mem _ hy)) sc1
      (tot + (wanted keys e cs xs).length) out
    refine ⟨sc2, ?_⟩
    rw [List.flatMap_cons, List.append_assoc, List.length_cons, times, h1]
    simp only [h2]
    rw [List.flatMap_cons, List.length_append, Nat.add_assoc]

theorem second_rows (be : Bool) (keys : List UInt32) (e : Bytes) (cs : List Column) (hc : ∀ c ∈ cs, c.WF) (r : Bytes) :
    ∀ (rows : List (List Cell)), (∀ xs ∈ rows, List.Forall₂ Fits cs xs) → ∀ (sc : Bytes) (tot : ℕ) (out : Bytes),
    ∃ sc', times rows.length (forEach (parseProp (binaryReader be) keys false e) (cs.map toProperty))
        ⟨⟨rows.flatMap (row be cs) ++ r, false, sc⟩, tot, out⟩ =
      .ok ⟨⟨r, false, sc'⟩, tot, out ++ rows.flatMap (wanted keys e cs)⟩
  | [], _, sc, tot, out => ⟨sc, by simp [times]⟩
  | xs :: rows, h, sc, tot, out => by
    obtain ⟨sc1, h1⟩ := second_row be keys e (rows.flatMap (row be cs) ++ r) cs xs hc (h xs List.mem_cons_self) sc tot out
    obtain ⟨sc2, h2⟩ := second_rows be keys e cs hc r rows (fun y hy => h y (List.mem_cons_of_mem _ hy)) sc1 tot
      (out ++ wanted keys e cs xs)
    refine ⟨sc2, ?_⟩
    rw [List.flatMap_cons, List.append_assoc, List.length_cons, times, h1]
    simp only [h2]
    rw [List.flatMap_cons, List.append_assoc]

/-- The bytes of the requested cells of the tables. -/
def wantedAll (keys : List UInt32) (ts : List Table) : Bytes :=
  ts.flatMap fun t => t.rows.flatMap (wanted keys t.name t.columns)

theorem first_tables (be : Bool) (keys : List UInt32) (r : Bytes) : ∀ (ts : List Table), (∀ t ∈ ts, t.WF) →
    ∀ (sc : Bytes) (tot : ℕ) (out : Bytes),
    ∃ sc', parseData (binaryReader be) keys true (ts.map toElement)
        ⟨⟨(ts.flatMap fun t => t.rows.flatMap (row be t.columns)) ++ r, false, sc⟩, tot, out⟩ =
      .ok ⟨⟨r, false, sc'⟩, tot + (wantedAll keys ts).length, out⟩
  | [], _, sc, tot, out => ⟨sc, by simp [parseData, forEach, wantedAll]⟩
  | t :: ts, h, sc, tot, out => by
    have ht := h t List.mem_cons_self
    obtain ⟨sc1, h1⟩ := first_rows be keys t.name t.columns ht.columns
      ((ts.flatMap fun t => t.rows.flatMap (row be t.columns)) ++ r) t.rows ht.rows sc tot out
    obtain ⟨sc2, h2⟩ := first_tables be keys r ts (fun y hy => h y (List.mem_cons_of_mem _ hy)) sc1
      (tot + (t.rows.flatMap (wanted keys t.name t.columns)).length) out
    refine ⟨sc2, ?_⟩
    unfold parseData at h2 ⊢
    rw [List.flatMap_cons, List.append_assoc, List.map_cons, forEach]
    simp only [toElement, h1]
    simp only [h2]
    rw [wantedAll, wantedAll, List.flatMap_cons, List.length_append, Nat.add_assoc]

theorem second_tables (be : Bool) (keys : List UInt32) (r : Bytes) : ∀ (ts : List Table), (∀ t ∈ ts, t.WF) →
    ∀ (sc : Bytes) (tot : ℕ) (out : Bytes),
    ∃ sc', parseData (binaryReader be) keys false (ts.map toElement)
        ⟨⟨(ts.flatMap fun t => t.rows.flatMap (row be t.columns)) ++ r, false, sc⟩, tot, out⟩ =
      .ok ⟨⟨r, false, sc'⟩, tot, out ++ wantedAll keys ts⟩
  | [], _, sc, tot, out => ⟨sc, by simp [parseData, forEach, wantedAll]⟩
  | t :: ts, h, sc, tot, out => by
    have ht := h t List.mem_cons_self
    obtain ⟨sc1, h1⟩ := second_rows be keys t.name t.columns ht.columns
      ((ts.flatMap fun t => t.rows.flatMap (row be t.columns)) ++ r) t.rows ht.rows sc tot out
    obtain ⟨sc2, h2⟩ := second_tables be keys r ts (fun y hy => h y (List.mem_cons_of_mem _ hy)) sc1 tot
      (out ++ t.rows.flatMap (wanted keys t.name t.columns))
    refine ⟨sc2, ?_⟩
    unfold parseData at h2 ⊢
    rw [List.flatMap_cons, List.append_assoc, List.map_cons, forEach]
    simp only [toElement, h1]
    simp only [h2]
    rw [wantedAll, wantedAll, List.flatMap_cons, List.append_assoc]

/-- Both passes over the tables of a well formed file give the requested cells. -/
theorem read_tables (be : Bool) (keys : List UInt32) (ts : List Table) (hts : ∀ t ∈ ts, t.WF) (r sc : Bytes) :
    read (binaryReader be) keys (ts.map toElement)
        ⟨(ts.flatMap fun t => t.rows.flatMap (row be t.columns)) ++ r, false, sc⟩ = .ok (wantedAll keys ts) := by
  obtain ⟨sc1, h1⟩ := first_tables be keys r ts hts sc 0 []
  obtain ⟨sc2, h2⟩ := second_tables be keys r ts hts sc1 (wantedAll keys ts).length []
  unfold read
  simp only [h1, Nat.zero_add, Bool.false_eq_true, if_false, h2, List.nil_append, if_true]

/-! ### The points -/

theorem chunks4_append {v : Bytes} (hv : v.length = 4) (r : Bytes) : chunks4 (v ++ r) = v :: chunks4 r := by
  match v, hv with
  | [a, b, c, d], _ => rfl

/-- The keys of the coordinates. -/
def xyzKeys : List UInt32 := xyz.map fun n => hashFnv1a (txt "vertex" ++ n)

theorem flatten_filter {α : Type} (q : α → Prop) [DecidablePred q] (g : α → Bytes) : ∀ l : List α,
    (l.map fun p => if q p then g p else []).flatten = ((l.filter fun p => q p).map g).flatten
  | [] => rfl
  | a :: l => by
    rw [List.map_cons, List.flatten_cons, flatten_filter q g l, List.filter_cons]
    by_cases h : q a <;> simp [h]

theorem find_filter {α : Type} (q s : α → Prop) [DecidablePred q] [DecidablePred s] (h : ∀ a, s a → q a) : ∀ l : List α,
    l.find? (fun a => decide (s a)) = (l.filter fun a => decide (q a)).find? (fun a => decide (s a))
  | [] => rfl
  | a :: l => by
    by_cases hs : s a
    · have hq := h a hs
      simp [hs, hq]
    · by_cases hq : q a
      · simp only [List.find?_cons, hs, decide_false, List.filter_cons, hq, decide_true, if_true]
        exact find_filter q s h l
      · simp only [List.find?_cons, hs, decide_false, List.filter_cons, hq, Bool.false_eq_true, if_false]
        exact find_filter q s h l

theorem wanted_nil (keys : List UInt32) (e : Bytes) (cs : List Column) (xs : List Cell)
    (h : ∀ c ∈ cs, hashFnv1a (e ++ c.name) ∉ keys) : wanted keys e cs xs = [] := by
  unfold wanted
  rw [List.flatten_eq_nil_iff]
  intro l hl
  obtain ⟨p, hp, rfl⟩ := List.mem_map.1 hl
  rw [if_neg (h p.1 (List.of_mem_zip hp).1)]

theorem forall₂_zip {α β : Type} {R : α → β → Prop} : ∀ {l : List α} {m : List β}, List.Forall₂ R l m →
    ∀ p ∈ l.zip m, R p.1 p.2
  | _, _, .nil, p, hp => by simp at hp
  | _, _, .cons h t, p, hp => by
    rw [List.zip_cons_cons, List.mem_cons] at hp
    rcases hp with rfl | hp
    · exact h
    · exact forall₂_zip t p hp

/-- The requested cells of a row of a table of points are its coordinates. -/
theorem wanted_point {K : Type} (C : SingleCodec K) (t : Table) (ht : PointTable t)
    (hcol : ∀ c ∈ t.columns, hashFnv1a (t.name ++ c.name) ∈ xyzKeys → c.name ∈ xyz)
    (r : List Cell) (hr : List.Forall₂ Fits t.columns r) :
    ∃ x y z : Bytes, x.length = 4 ∧ y.length = 4 ∧ z.length = 4 ∧ wanted xyzKeys t.name t.columns r = x ++ y ++ z ∧
      IsPoint C t r ⟨C.dec x, C.dec y, C.dec z⟩ := by
  have hzip : (t.columns.zip r).map Prod.fst = t.columns := by
    rw [List.map_fst_zip]
    exact le_of_eq hr.length_eq
  have hq : ∀ p ∈ t.columns.zip r, (hashFnv1a (t.name ++ p.1.name) ∈ xyzKeys ↔ p.1.name ∈ xyz) := by
    intro p hp
    have hm := (List.of_mem_zip hp).1
    refine ⟨hcol p.1 hm, fun hx => ?_⟩
    rw [ht.name]
    exact List.mem_map.2 ⟨_, hx, rfl⟩
  have hw : wanted xyzKeys t.name t.columns r =
      (((t.columns.zip r).filter fun p => p.1.name ∈ xyz).map fun p => p.2.flatten).flatten := by
    unfold wanted
    rw [← flatten_filter (fun p : Column × Cell => p.1.name ∈ xyz) (fun p => p.2.flatten)]
    congr 1
    apply List.map_congr_left
    intro p hp
    by_cases h : p.1.name ∈ xyz
    · rw [if_pos h, if_pos ((hq p hp).2 h)]
    · rw [if_neg h, if_neg (fun h' => h ((hq p hp).1 h'))]
  have hnames : ((t.columns.zip r).filter fun p => p.1.name ∈ xyz).map (fun p => p.1.name) = xyz := by
    have h := ht.order
    rw [← hzip, List.filter_map, List.map_map] at h
    exact h
  generalize hL : ((t.columns.zip r).filter fun p => p.1.name ∈ xyz) = L at hw hnames
  have h3 : L.length = 3 := by
    have := congrArg List.length hnames
    rw [List.length_map] at this
    exact this
  match L, h3 with
  | [p1, p2, p3], _ =>
    have hn : p1.1.name = txt "x" ∧ p2.1.name = txt "y" ∧ p3.1.name = txt "z" := by
      have : [p1.1.name, p2.1.name, p3.1.name] = [txt "x", txt "y", txt "z"] := hnames
      simpa using this
    have hmem : ∀ p ∈ [p1, p2, p3], ∃ v : Bytes, v.length = 4 ∧ p.2 = [v] := by
      intro p hp
      rw [← hL, List.mem_filter] at hp
      obtain ⟨hp1, hp2⟩ := hp
      obtain ⟨hf1, hf2⟩ := ht.floats p.1 (List.of_mem_zip hp1).1 (by simpa using hp2)
      have hfit := forall₂_zip hr p hp1
      unfold Fits at hfit
      rw [hf1, hf2] at hfit
      obtain ⟨hv, hl⟩ := hfit
      obtain ⟨v, hv'⟩ := List.length_eq_one_iff.1 (show p.2.length = 1 from hl)
      exact ⟨v, hv v (by rw [hv']; exact List.mem_cons_self), hv'⟩
    obtain ⟨x, hx, hx'⟩ := hmem p1 (by simp)
    obtain ⟨y, hy, hy'⟩ := hmem p2 (by simp)
    obtain ⟨z, hz, hz'⟩ := hmem p3 (by simp)
    have hfield : ∀ n, n ∈ xyz → field t r n = ([p1, p2, p3].find? fun p => decide (p.1.name = n)).map (·.2) := by
      intro n hn'
      unfold field
      rw [find_filter (fun p : Column × Cell => p.1.name ∈ xyz) (fun p => p.1.name = n) (fun a ha => by rw [ha]; exact hn'),
        hL]
    refine ⟨x, y, z, hx, hy, hz, ?_, x, y, z, ?_, ?_, ?_, rfl⟩
    · rw [hw]; simp [hx', hy', hz']
    · rw [hfield _ (by decide), List.find?_cons]
      simp [hn.1, hx']
    · rw [hfield _ (by decide)]
      have h1 : txt "x" ≠ txt "y" := by decide
      simp [hn.1, hn.2.1, h1, hy']
    · rw [hfield _ (by decide)]
      have h1 : txt "x" ≠ txt "z" := by decide
      have h2 : txt "y" ≠ txt "z" := by decide
      simp [hn.1, hn.2.1, hn.2.2, h1, h2, hz']

theorem points_of_rows {K : Type} (C : SingleCodec K) (t : Table) (ht : PointTable t)
    (hcol : ∀ c ∈ t.columns, hashFnv1a (t.name ++ c.name) ∈ xyzKeys → c.name ∈ xyz) : ∀ (rows : List (List Cell)),
    (∀ r ∈ rows, List.Forall₂ Fits t.columns r) →
    (rows.flatMap (wanted xyzKeys t.name t.columns)).length = 12 * rows.length ∧
    (chunks4 (rows.flatMap (wanted xyzKeys t.name t.columns))).length = 3 * rows.length ∧
    List.Forall₂ (IsPoint C t) rows (columns C (chunks4 (rows.flatMap (wanted xyzKeys t.name t.columns))))
  | [], _ => ⟨rfl, rfl, .nil⟩
  | r :: rows, h => by
    obtain ⟨x, y, z, hx, hy, hz, hw, hp⟩ := wanted_point C t ht hcol r (h r List.mem_cons_self)
    obtain ⟨h1, h2, h3⟩ := points_of_rows C t ht hcol rows (fun s hs => h s (List.mem_cons_of_mem _ hs))
    have hc : chunks4 ((r :: rows).flatMap (wanted xyzKeys t.name t.columns)) =
        x :: y :: z :: chunks4 (rows.flatMap (wanted xyzKeys t.name t.columns)) := by
      rw [List.flatMap_cons, hw, List.append_assoc, List.append_assoc, chunks4_append hx, chunks4_append hy,
        chunks4_append hz]
    refine ⟨?_, ?_, ?_⟩
    · rw [List.flatMap_cons, List.length_append, h1, hw, List.length_append, List.length_append, hx, hy, hz,
        List.length_cons]
      omega
    · rw [hc]; simp only [List.length_cons, h2]; omega
    · rw [hc, columns]; exact .cons hp h3

/-- What `readPoints` does with a well formed file. -/
theorem readPoints_wanted (ascii : Reader) (scratch : Bytes) (f : Content) (hf : f.WF) (count : ℕ) (keys : List UInt32)
    (hreq : requestProperties (f.tables.map toElement) (txt "vertex") [txt "x", txt "y", txt "z"] = .ok (count, keys))
    (trailing : Bytes) :
    readPoints ascii scratch (some (bytes f ++ trailing)) =
      if 12 * count < (wantedAll keys f.tables).length then .error .undefined
      else .ok (chunks4 (wantedAll keys f.tables ++ List.replicate (12 * count - (wantedAll keys f.tables).length) 0)) := by
  unfold readPoints
  simp only
  unfold bytes
  rw [List.append_assoc, parseHeader_content f hf]
  simp only [hreq, if_true, read_tables f.bigEndian keys f.tables hf.tables trailing scratch]

/-- What `readPoints` does with a well formed file with one table of points. -/
theorem readPoints_content {K : Type} (C : SingleCodec K) (ascii : Reader) (scratch : Bytes) (f : Content) (hf : f.WF)
    (pre post : List Table) (t : Table) (hts : f.tables = pre ++ t :: post) (ht : PointTable t)
    (huniq : ∀ s ∈ pre ++ post, s.name ≠ txt "vertex") (hcoll : NoCollision hashFnv1a f.tables) (trailing : Bytes) :
    ∃ floats, readPoints ascii scratch (some (bytes f ++ trailing)) = .ok floats ∧ floats.length = 3 * t.rows.length ∧
      List.Forall₂ (IsPoint C t) t.rows (columns C floats) := by
  have htm : t ∈ f.tables := by rw [hts]; simp
  have hcol : ∀ c ∈ t.columns, hashFnv1a (t.name ++ c.name) ∈ xyzKeys → c.name ∈ xyz :=
    fun c hc hk => (hcoll t htm c hc hk).2
  obtain ⟨h1, h2, h3⟩ := points_of_rows C t ht hcol t.rows (hf.tables t htm).rows
  refine ⟨_, ?_, h2, h3⟩
  have hnil : ∀ s ∈ pre ++ post, s.rows.flatMap (wanted xyzKeys s.name s.columns) = [] := by
    intro s hs
    rw [List.flatMap_eq_nil_iff]
    intro r _
    apply wanted_nil
    intro c hc hk
    refine huniq s hs (hcoll s ?_ c hc hk).1
    rw [hts]
    rcases List.mem_append.1 hs with h | h <;> simp [h]
  have hwanted : wantedAll xyzKeys f.tables = t.rows.flatMap (wanted xyzKeys t.name t.columns) := by
    unfold wantedAll
    rw [hts, List.flatMap_append, List.flatMap_cons]
    rw [List.flatMap_eq_nil_iff.2 (fun s hs => hnil s (List.mem_append_left _ hs)),
      List.flatMap_eq_nil_iff.2 (fun s hs => hnil s (List.mem_append_right _ hs))]
    simp
  have hreq : requestProperties (f.tables.map toElement) (txt "vertex") [txt "x", txt "y", txt "z"] =
      .ok (t.rows.length, xyzKeys) := by
    have hfind : (f.tables.map toElement).find? (fun e => e.name == txt "vertex") = some (toElement t) := by
      rw [hts, List.map_append, List.map_cons, List.find?_append]
      have : (pre.map toElement).find? (fun e => e.name == txt "vertex") = none := by
        rw [List.find?_eq_none]
        intro e he
        obtain ⟨s, hs, rfl⟩ := List.mem_map.1 he
        have := huniq s (List.mem_append_left _ hs)
        simpa [toElement] using this
      rw [this, List.find?_cons]
      simp [toElement, ht.name]
    have hall : [txt "x", txt "y", txt "z"].all (fun k => (toElement t).properties.any fun p => p.name == k) = true := by
      rw [List.all_eq_true]
      intro k hk
      rw [List.any_eq_true]
      have : k ∈ (t.columns.filter fun c => c.name ∈ xyz).map (·.name) := by rw [ht.order]; exact hk
      obtain ⟨c, hc, rfl⟩ := List.mem_map.1 this
      exact ⟨toProperty c, List.mem_map.2 ⟨c, (List.mem_filter.1 hc).1, rfl⟩, by simp [toProperty]⟩
    unfold requestProperties
    rw [if_neg (by rw [hts]; simp), hfind]
    simp only [hall, if_true]
    have : (toElement t).name = txt "vertex" := ht.name
    rw [this]
    rfl
  rw [readPoints_wanted ascii scratch f hf _ _ hreq, hwanted, if_neg (by omega), h1]
  simp

end Sumo.Ply
