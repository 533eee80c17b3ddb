import Verif.Spec.TinyGltf
import Verif.Lemmas.TinySave

/-! # A writer and a loader that belong together -/

namespace Sumo
namespace Gltf

/-! ### Texts -/

/-- The binary digits of a number, the lowest one first. -/
def natBits : ℕ → ℕ → List UInt8
  | 0, _ => []
  | f + 1, n => if n = 0 then [] else (if n % 2 = 1 then 1 else 2) :: natBits f (n / 2)

/-- The text of a number. -/
def natText (n : ℕ) : List UInt8 := natBits n n ++ [0]

/-- Reads the text of a number. -/
def readNat : List UInt8 → ℕ × List UInt8
  | [] => (0, [])
  | b :: r => if b = 0 then (0, r) else let (n, r') := readNat r; (2 * n + if b = 1 then 1 else 0, r')

theorem readNat_bits (f n : ℕ) (h : n ≤ f) (r : List UInt8) : readNat (natBits f n ++ 0 :: r) = (n, r) := by
  induction f generalizing n with
  | zero =>
    obtain rfl : n = 0 := by omega
    simp [natBits, readNat]
  | succ f ih =>
    unfold natBits
    split_ifs with h0 h1
    · subst h0
      simp [readNat]
    · rw [List.cons_append]
      unfold readNat
      rw [if_neg (by decide), ih (n / 2) (by omega)]
      simp only [if_true, Prod.mk.injEq, and_true]
      omega
    · rw [List.cons_append]
      unfold readNat
      rw [if_neg (by decide), ih (n / 2) (by omega)]
      simp only [show ¬ ((2 : UInt8) = 1) by decide, if_false, Prod.mk.injEq, and_true]
      omega

theorem readNat_text (n : ℕ) (r : List UInt8) : readNat (natText n ++ r) = (n, r) := by
  unfold natText
  rw [List.append_assoc]
  exact readNat_bits n n le_rfl r

theorem natText_length (n : ℕ) : 1 ≤ (natText n).length := by simp [natText]

/-- The text of an integer. -/
def intText (n : ℤ) : List UInt8 := natText (if n < 0 then 1 else 0) ++ natText n.natAbs

/-- Reads the text of an integer. -/
def readInt (b : List UInt8) : ℤ × List UInt8 :=
  let (s, b) := readNat b
  let (n, b) := readNat b
  (if s = 1 then -(n : ℤ) else n, b)

theorem readInt_text (n : ℤ) (r : List UInt8) : readInt (intText n ++ r) = (n, r) := by
  unfold readInt intText
  rw [List.append_assoc, readNat_text]
  dsimp only
  rw [readNat_text]
  dsimp only
  by_cases h : n < 0
  · rw [if_pos h, if_pos rfl, Prod.mk.injEq]
    exact ⟨by omega, rfl⟩
  · rw [if_neg h, if_neg (by decide), Prod.mk.injEq]
    exact ⟨by omega, rfl⟩

/-- The text of a list of characters. -/
def charsText : List Char → List UInt8
  | [] => []
  | c :: l => natText c.toNat ++ charsText l

/-- Reads a given number of characters. -/
def readChars : ℕ → List UInt8 → List Char × List UInt8
  | 0, b => ([], b)
  | n + 1, b =>
    let (c, b) := readNat b
    let (l, b) := readChars n b
    (Char.ofNat c :: l, b)

theorem readChars_text (l : List Char) (r : List UInt8) : readChars l.length (charsText l ++ r) = (l, r) := by
  induction l with
  | nil => rfl
  | cons c l ih =>
    rw [List.length_cons]
    unfold readChars charsText
    rw [List.append_assoc, readNat_text]
    dsimp only
    rw [ih]
    simp

/-- The text of a string. -/
def strText (s : String) : List UInt8 := natText s.toList.length ++ charsText s.toList

/-- Reads the text of a string. -/
def readStr (b : List UInt8) : String × List UInt8 :=
  let (n, b) := readNat b
  let (l, b) := readChars n b
  (String.ofList l, b)

theorem readStr_text (s : String) (r : List UInt8) : readStr (strText s ++ r) = (s, r) := by
  unfold readStr strText
  rw [List.append_assoc, readNat_text]
  dsimp only
  rw [readChars_text]
  simp

mutual
/-- A document in prefix notation. -/
def docText : Json ℚ → List UInt8
  | .null => natText 0
  | .bool b => natText (if b then 2 else 1)
  | .int n => natText 3 ++ intText n
  | .num q => natText 4 ++ (intText q.num ++ natText q.den)
  | .str s => natText 5 ++ strText s
  | .arr l => natText 6 ++ (natText l.length ++ docTextList l)
  | .obj d => natText 7 ++ (natText d.length ++ docTextFields d)
/-- See `docText`. -/
def docTextList : List (Json ℚ) → List UInt8
  | [] => []
  | j :: l => docText j ++ docTextList l
/-- See `docText`. -/
def docTextFields : List (String × Json ℚ) → List UInt8
  | [] => []
  | e :: d => docTextEntry e ++ docTextFields d
/-- See `docText`. -/
def docTextEntry : String × Json ℚ → List UInt8
  | (k, j) => strText k ++ docText j
end

mutual
/-- Reads a document. -/
def readDoc : ℕ → List UInt8 → Option (Json ℚ × List UInt8)
  | 0, _ => none
  | f + 1, b =>
    let (k, b) := readNat b
    if k = 0 then some (.null, b) else if k = 1 then some (.bool false, b) else if k = 2 then some (.bool true, b)
    else if k = 3 then let (n, b) := readInt b; some (.int n, b)
    else if k = 4 then let (n, b) := readInt b; let (d, b) := readNat b; some (.num (mkRat n d), b)
    else if k = 5 then let (s, b) := readStr b; some (.str s, b)
    else if k = 6 then let (n, b) := readNat b; (readDocs f n b).map fun x => (.arr x.1, x.2)
    else if k = 7 then let (n, b) := readNat b; (readEntries f n b).map fun x => (.obj x.1, x.2)
    else none
/-- See `readDoc`. -/
def readDocs : ℕ → ℕ → List UInt8 → Option (List (Json ℚ) × List UInt8)
  | 0, 0, b => some ([], b)
  | 0, _ + 1, _ => none
  | _ + 1, 0, b => some ([], b)
  | f + 1, n + 1, b => (readDoc f b).bind fun x => (readDocs f n x.2).map fun y => (x.1 :: y.1, y.2)
/-- See `readDoc`. -/
def readEntries : ℕ → ℕ → List UInt8 → Option (List (String × Json ℚ) × List UInt8)
  | 0, 0, b => some ([], b)
  | 0, _ + 1, _ => none
  | _ + 1, 0, b => some ([], b)
  | f + 1, n + 1, b =>
    (readDoc f (readStr b).2).bind fun x => (readEntries f n x.2).map fun y => (((readStr b).1, x.1) :: y.1, y.2)
end

theorem docText_length (j : Json ℚ) : 1 ≤ (docText j).length := by
  cases j <;> simp only [docText, List.length_append] <;> first | exact natText_length _ | skip
  · have := natText_length 3; omega
  · have := natText_length 4; omega
  · have := natText_length 5; omega
  · have := natText_length 6; omega
  · have := natText_length 7; omega

mutual
theorem readDoc_text : ∀ (j : Json ℚ) (f : ℕ) (r : List UInt8), 2 * (docText j).length ≤ f + 1 →
    readDoc f (docText j ++ r) = some (j, r)
  | j, 0, r, h => by
    have := docText_length j
    omega
  | .null, f + 1, r, h => by
    simp only [readDoc, docText, readNat_text, if_true]
  | .bool b, f + 1, r, h => by
    cases b <;> simp [readDoc, docText, readNat_text]
  | .int n, f + 1, r, h => by
    simp [readDoc, docText, readNat_text, readInt_text]
  | .num q, f + 1, r, h => by
    simp [readDoc, docText, readNat_text, readInt_text, Rat.mkRat_self]
  | .str s, f + 1, r, h => by
    simp [readDoc, docText, readNat_text, readStr_text]
  | .arr l, f + 1, r, h => by
    have h1 := natText_length 6
    have h2 := natText_length l.length
    have := readDocs_text l f r (by simp only [docText, List.length_append] at h; omega)
    simp [readDoc, docText, readNat_text, this]
  | .obj d, f + 1, r, h => by
    have h1 := natText_length 7
    have h2 := natText_length d.length
    have := readEntries_text d f r (by simp only [docText, List.length_append] at h; omega)
    simp [readDoc, docText, readNat_text, this]
theorem readDocs_text : ∀ (l : List (Json ℚ)) (f : ℕ) (r : List UInt8), 2 * (docTextList l).length ≤ f →
    readDocs f l.length (docTextList l ++ r) = some (l, r)
  | [], f, r, h => by cases f <;> simp [readDocs, docTextList]
  | j :: l, 0, r, h => by
    have := docText_length j
    simp only [docTextList, List.length_append] at h
    omega
  | j :: l, f + 1, r, h => by
    have h1 := docText_length j
    simp only [docTextList, List.length_append] at h
    rw [List.length_cons]
    unfold readDocs docTextList
    rw [List.append_assoc, readDoc_text j f _ (by omega)]
    simp only [Option.bind_some]
    rw [readDocs_text l f r (by omega)]
    rfl
theorem readEntries_text : ∀ (d : List (String × Json ℚ)) (f : ℕ) (r : List UInt8), 2 * (docTextFields d).length ≤ f →
    readEntries f d.length (docTextFields d ++ r) = some (d, r)
  | [], f, r, h => by cases f <;> simp [readEntries, docTextFields]
  | (k, j) :: d, 0, r, h => by
    have := docText_length j
    simp only [docTextFields, docTextEntry, List.length_append] at h
    omega
  | (k, j) :: d, f + 1, r, h => by
    have h1 := docText_length j
    simp only [docTextFields, docTextEntry, List.length_append] at h
    rw [List.length_cons]
    unfold readEntries docTextFields docTextEntry
    rw [List.append_assoc, List.append_assoc, readStr_text]
    dsimp only
    rw [readDoc_text j f _ (by omega)]
    simp only [Option.bind_some]
    rw [readEntries_text d f r (by omega)]
    rfl
end

/-- A text for every document; four bytes more so that it is long enough. -/
def exText (j : Json ℚ) : List UInt8 := [0, 0, 0, 0] ++ docText j

/-- The document of a text. -/
def exParse (text : List UInt8) : Option (Json ℚ) := (readDoc (2 * text.length) (text.drop 4)).map Prod.fst

theorem exParse_text (j : Json ℚ) (r : List UInt8) : exParse (exText j ++ r) = some j := by
  unfold exParse exText
  rw [List.append_assoc, show (([0, 0, 0, 0] : List UInt8) ++ (docText j ++ r)).drop 4 = docText j ++ r from rfl, readDoc_text]
  · rfl
  · simp only [List.length_append]
    omega

/-! ### Pictures -/

/-- The bytes of a picture: width, height and data. -/
def exPng (x : Mat3b) : List UInt8 := List.replicate x.cols 1 ++ 0 :: (List.replicate x.rows 1 ++ 0 :: x.data)

/-- Width, height and data of a picture. -/
def exDecode (b : List UInt8) : Option (ℕ × ℕ × ℕ × List UInt8) :=
  let w := (b.takeWhile (· == 1)).length
  let b := b.drop (w + 1)
  let h := (b.takeWhile (· == 1)).length
  some (w, h, 3, (swapRB ((b.drop (h + 1)).take (3 * (h * w)))))

theorem takeWhile_ones (n : ℕ) (r : List UInt8) : (List.replicate n (1 : UInt8) ++ 0 :: r).takeWhile (· == 1) = List.replicate n 1 := by
  induction n with
  | zero => rfl
  | succ n ih =>
    rw [List.replicate_succ, List.cons_append, List.takeWhile_cons_of_pos (by decide), ih]

theorem drop_ones (n : ℕ) (r : List UInt8) : (List.replicate n (1 : UInt8) ++ 0 :: r).drop (n + 1) = r := by
  rw [← List.drop_drop, List.drop_left' (by simp)]
  rfl

theorem exDecode_png {x : Mat3b} (h : SoundImage x) (r : List UInt8) :
    exDecode (exPng x ++ r) = some (x.cols, x.rows, 3, swapRB x.data) := by
  unfold exDecode exPng
  simp only [List.append_assoc, List.cons_append]
  rw [takeWhile_ones, List.length_replicate, drop_ones, takeWhile_ones, List.length_replicate, drop_ones]
  unfold SoundImage at h
  rw [← h, List.take_left]

/-! ### Together -/

/-- A writer that does as required. -/
def exWriter : Writer where
  dump j := exText (j.print Number.value)
  loads := exParse
  dumps := exText
  imwrite _ x := some (exPng x)
  mime _ := some "image/png"
  junk := false

/-- A loader that does as required. -/
def exLoader : Loader where
  parse := exParse
  decode := exDecode
  file _ := none
  dataUri _ := none
  uninit := (0, 0, 0)

theorem exFaithful : Faithful exWriter exLoader Number.value id where
  finite _ := rfl
  again _ := rfl
  loads _ _ := exParse_text _ _
  parse _ _ := exParse_text _ _
  parsePython _ _ _ := exParse_text _ _
  dumpLength _ _ := by simp [exWriter, exText]
  dumpsLength _ _ := by simp [exWriter, exText]
  png _ x hs _ := ⟨exPng x, rfl, by simp [exPng], _, swapRB_reversed _ ⟨_, hs⟩, fun n => exDecode_png hs _⟩

end Gltf
end Sumo
