import Verif.Lemmas.Ply

/-!
# What `write_ply` writes
-/

namespace Sumo.Ply

open Spec

variable {K : Type}

/-- The element that `write_ply` describes, without and with colours. -/
def plainElement (n : ℕ) : Element :=
  ⟨txt "vertex", n, [⟨txt "x", .float32, none⟩, ⟨txt "y", .float32, none⟩, ⟨txt "z", .float32, none⟩]⟩

def coloredElement (n : ℕ) : Element :=
  ⟨txt "vertex", n, [⟨txt "x", .float32, none⟩, ⟨txt "y", .float32, none⟩, ⟨txt "z", .float32, none⟩,
    ⟨txt "red", .uint8, none⟩, ⟨txt "green", .uint8, none⟩, ⟨txt "blue", .uint8, none⟩]⟩

def plainTable : List (UInt32 × ℕ) :=
  [(hashFnv1a (txt "vertexx"), 0), (hashFnv1a (txt "vertexy"), 0), (hashFnv1a (txt "vertexz"), 0)]

def coloredTable : List (UInt32 × ℕ) :=
  plainTable ++ [(hashFnv1a (txt "vertexred"), 1), (hashFnv1a (txt "vertexgreen"), 1), (hashFnv1a (txt "vertexblue"), 1)]

theorem addProperties_plain (n : ℕ) (data : Bytes) :
    addProperties ⟨[], [], []⟩ (txt "vertex") [txt "x", txt "y", txt "z"] .float32 n data =
      ⟨[plainElement n], plainTable, [data]⟩ := rfl

theorem addProperties_colored (n m : ℕ) (data colors : Bytes) :
    addProperties ⟨[plainElement n], plainTable, [data]⟩ (txt "vertex") [txt "red", txt "green", txt "blue"] .uint8 m
      colors = ⟨[coloredElement n], coloredTable, [data, colors]⟩ := rfl

theorem writeProp_step {ud : List (UInt32 × ℕ)} {e : Bytes} {p : Property} {i : ℕ}
    (hl : ud.lookup (hashFnv1a (e ++ p.name)) = some i) {bufs : List Bytes} {v r : Bytes} (hb : bufs[i]? = some (v ++ r))
    (hv : v.length = p.type.stride) (out : Bytes) :
    writeProp ud e p (bufs, out) = .ok (bufs.set i r, out ++ v) := by
  unfold writeProp
  rw [hl]
  simp only [hb]
  rw [if_neg (by rw [List.length_append]; omega), ← hv, List.drop_left, List.take_left]

theorem writeRow_plain {x y z : Bytes} (hx : x.length = 4) (hy : y.length = 4) (hz : z.length = 4) (n : ℕ)
    (r out : Bytes) :
    writeRow plainTable (txt "vertex") (plainElement n).properties ([x ++ (y ++ (z ++ r))], out) =
      .ok ([r], out ++ (x ++ y ++ z)) := by
  show writeRow plainTable (txt "vertex") [_, _, _] _ = _
  rw [writeRow, writeProp_step (i := 0) rfl rfl hx]
  simp only
  rw [writeRow, writeProp_step (i := 0) rfl rfl hy]
  simp only
  rw [writeRow, writeProp_step (i := 0) rfl rfl hz]
  simp [writeRow]

theorem writeRow_colored {x y z : Bytes} (hx : x.length = 4) (hy : y.length = 4) (hz : z.length = 4) (a b c : UInt8)
    (n : ℕ) (r s out : Bytes) :
    writeRow coloredTable (txt "vertex") (coloredElement n).properties ([x ++ (y ++ (z ++ r)), a :: b :: c :: s], out) =
      .ok ([r, s], out ++ (x ++ y ++ z ++ [a, b, c])) := by
  show writeRow coloredTable (txt "vertex") [_, _, _, _, _, _] _ = _
  rw [writeRow, writeProp_step (i := 0) rfl rfl hx]
  simp only
  rw [writeRow, writeProp_step (i := 0) rfl rfl hy]
  simp only
  rw [writeRow, writeProp_step (i := 0) rfl rfl hz]
  simp only
  rw [writeRow, writeProp_step (i := 1) (v := [a]) rfl rfl rfl]
  simp only
  rw [writeRow, writeProp_step (i := 1) (v := [b]) rfl rfl rfl]
  simp only
  rw [writeRow, writeProp_step (i := 1) (v := [c]) rfl rfl rfl]
  simp [writeRow]

theorem writeRows_plain (C : SingleCodec K) (h4 : ∀ x, (C.enc x).length = 4) (n : ℕ) : ∀ (ps : List (Vec3 K)) (out : Bytes),
    writeRows plainTable (plainElement n) ps.length ([pointBytes C ps], out) = .ok ([[]], out ++ pointBytes C ps)
  | [], out => by simp [writeRows, pointBytes]
  | p :: ps, out => by
    have e : pointBytes C (p :: ps) = C.enc p.x ++ (C.enc p.y ++ (C.enc p.z ++ pointBytes C ps)) := by
      simp [pointBytes]
    rw [List.length_cons, writeRows, e]
    show (match writeRow plainTable (txt "vertex") (plainElement n).properties _ with | .error e => _ | .ok s' => _) = _
    rw [writeRow_plain (h4 _) (h4 _) (h4 _)]
    simp only
    rw [writeRows_plain C h4 n ps]
    simp

theorem writeRows_colored (C : SingleCodec K) (h4 : ∀ x, (C.enc x).length = 4) (n : ℕ) : ∀ (l : List (Vec3 K × Color))
    (out : Bytes),
    writeRows coloredTable (coloredElement n) l.length
        ([pointBytes C (l.map Prod.fst), colorBytes (l.map Prod.snd)], out) =
      .ok ([[], []], out ++ l.flatMap fun q => C.enc q.1.x ++ C.enc q.1.y ++ C.enc q.1.z ++
        [UInt8.ofNat q.2.r, UInt8.ofNat q.2.g, UInt8.ofNat q.2.b])
  | [], out => by simp [writeRows, pointBytes, colorBytes]
  | q :: l, out => by
    have e1 : pointBytes C ((q :: l).map Prod.fst) =
        C.enc q.1.x ++ (C.enc q.1.y ++ (C.enc q.1.z ++ pointBytes C (l.map Prod.fst))) := by simp [pointBytes]
    have e2 : colorBytes ((q :: l).map Prod.snd) =
        UInt8.ofNat q.2.r :: UInt8.ofNat q.2.g :: UInt8.ofNat q.2.b :: colorBytes (l.map Prod.snd) := by simp [colorBytes]
    rw [List.length_cons, writeRows, e1, e2]
    show (match writeRow coloredTable (txt "vertex") (coloredElement n).properties _ with | .error e => _ | .ok s' => _) = _
    rw [writeRow_colored (h4 _) (h4 _) (h4 _)]
    simp only
    rw [writeRows_colored C h4 n l]
    simp

theorem writePoints_eq (C : SingleCodec K) (h4 : ∀ x, (C.enc x).length = 4) (ps : List (Vec3 K)) :
    writePoints C ps = .ok (bytes (cloudContent C ps none)) := by
  unfold writePoints writeBinary
  rw [addProperties_plain]
  simp only [writeElements]
  show (match (match writeRows plainTable (plainElement ps.length) ps.length ([pointBytes C ps], _) with
    | .error e => Except.error e | .ok s' => writeElements plainTable [] s') with | .error e => _ | .ok s => _) = _
  rw [writeRows_plain C h4]
  simp only [writeElements]
  congr 1
  have hhead : writeHeader [plainElement ps.length] = (headerLines (cloudContent C ps none)).flatMap (· ++ [10]) := by
    unfold writeHeader headerLines
    simp only [List.flatMap_cons, List.flatMap_nil, plainElement, decimal_eq_digits]
    simp [cloudContent, cloudTable, tableLines, propertyLine, columnLine, PlyType.str]
  unfold bytes
  rw [hhead]
  congr 1
  simp only [cloudContent, cloudTable, List.flatMap_cons, List.flatMap_nil, List.append_nil, List.flatMap_map]
  unfold pointBytes
  congr 1
  funext p
  simp [row, cell, value]

theorem writePointsAndColors_eq (C : SingleCodec K) (h4 : ∀ x, (C.enc x).length = 4) (l : List (Vec3 K × Color)) :
    writePointsAndColors C (l.map Prod.fst) (l.map Prod.snd) =
      .ok (bytes (cloudContent C (l.map Prod.fst) (some (l.map Prod.snd)))) := by
  unfold writePointsAndColors writeBinary
  rw [addProperties_plain, addProperties_colored]
  simp only [writeElements]
  show (match (match writeRows coloredTable (coloredElement (l.map Prod.fst).length) (l.map Prod.fst).length
      ([pointBytes C (l.map Prod.fst), colorBytes (l.map Prod.snd)], _) with
    | .error e => Except.error e | .ok s' => writeElements coloredTable [] s') with | .error e => _ | .ok s => _) = _
  rw [show (l.map Prod.fst).length = l.length from List.length_map _, writeRows_colored C h4]
  simp only [writeElements]
  congr 1
  have hz : (l.map Prod.fst).zip (l.map Prod.snd) = l := by
    rw [← List.unzip_fst, ← List.unzip_snd, List.zip_unzip]
  have hhead : writeHeader [coloredElement l.length] =
      (headerLines (cloudContent C (l.map Prod.fst) (some (l.map Prod.snd)))).flatMap (· ++ [10]) := by
    unfold writeHeader headerLines
    simp only [List.flatMap_cons, List.flatMap_nil, coloredElement, decimal_eq_digits]
    simp [cloudContent, cloudTable, tableLines, propertyLine, columnLine, PlyType.str]
  unfold bytes
  rw [hhead]
  congr 1
  simp only [cloudContent, cloudTable, hz, List.flatMap_cons, List.flatMap_nil, List.append_nil, List.flatMap_map]
  congr 1
  funext q
  simp [row, cell, value]

/-! ### Clouds with fewer colours than points -/

theorem writeRow_no_color {x y z : Bytes} (hx : x.length = 4) (hy : y.length = 4) (hz : z.length = 4) (n : ℕ)
    (r out : Bytes) :
    writeRow coloredTable (txt "vertex") (coloredElement n).properties ([x ++ (y ++ (z ++ r)), []], out) =
      .error .undefined := by
  show writeRow coloredTable (txt "vertex") [_, _, _, _, _, _] _ = _
  rw [writeRow, writeProp_step (i := 0) rfl rfl hx]
  simp only
  rw [writeRow, writeProp_step (i := 0) rfl rfl hy]
  simp only
  rw [writeRow, writeProp_step (i := 0) rfl rfl hz]
  rfl

theorem writeRows_any (C : SingleCodec K) (h4 : ∀ x, (C.enc x).length = 4) (n : ℕ) : ∀ (ps : List (Vec3 K))
    (cs : List Color) (out : Bytes),
    (cs.length < ps.length → writeRows coloredTable (coloredElement n) ps.length
        ([pointBytes C ps, colorBytes cs], out) = .error .undefined) ∧
    (ps.length ≤ cs.length → ∃ s, writeRows coloredTable (coloredElement n) ps.length
        ([pointBytes C ps, colorBytes cs], out) = .ok s)
  | [], cs, out => ⟨fun h => by simp at h, fun _ => ⟨_, rfl⟩⟩
  | p :: ps, cs, out => by
    have e1 : pointBytes C (p :: ps) = C.enc p.x ++ (C.enc p.y ++ (C.enc p.z ++ pointBytes C ps)) := by simp [pointBytes]
    have e2 : writeRows coloredTable (coloredElement n) (p :: ps).length ([pointBytes C (p :: ps), colorBytes cs], out) =
        match writeRow coloredTable (txt "vertex") (coloredElement n).properties
          ([C.enc p.x ++ (C.enc p.y ++ (C.enc p.z ++ pointBytes C ps)), colorBytes cs], out) with
        | .error e => .error e
        | .ok s' => writeRows coloredTable (coloredElement n) ps.length s' := by
      rw [List.length_cons, writeRows, e1]
      rfl
    rw [e2]
    cases cs with
    | nil =>
      have : colorBytes [] = [] := rfl
      rw [this, writeRow_no_color (h4 _) (h4 _) (h4 _)]
      exact ⟨fun _ => rfl, fun h => by simp at h⟩
    | cons c cs =>
      have e3 : colorBytes (c :: cs) =
          UInt8.ofNat c.r :: UInt8.ofNat c.g :: UInt8.ofNat c.b :: colorBytes cs := by simp [colorBytes]
      rw [e3, writeRow_colored (h4 _) (h4 _) (h4 _)]
      obtain ⟨i1, i2⟩ := writeRows_any C h4 n ps cs
        (out ++ (C.enc p.x ++ C.enc p.y ++ C.enc p.z ++ [UInt8.ofNat c.r, UInt8.ofNat c.g, UInt8.ofNat c.b]))
      simp only [List.length_cons, Nat.add_lt_add_iff_right, Nat.add_le_add_iff_right]
      exact ⟨i1, i2⟩

/-! ### Incomplete files -/

theorem skipItems_fail : ∀ (k : ℕ) (s : Stream), (skipItems 4 k s).fail = (s.fail || decide (s.rest.length < 4 * k))
  | 0, s => by simp [skipItems]
  | k + 1, s => by
    rw [skipItems, skipItems_fail k]
    unfold Stream.read
    by_cases hf : s.fail = true
    · simp [hf]
    · simp only [hf, Bool.false_eq_true, if_false, Bool.false_or, List.length_drop]
      by_cases h : s.rest.length < 4
      · simp [h]
        omega
      · have h1 : (s.rest.length < 4 * (k + 1)) ↔ (s.rest.length - 4 < 4 * k) := by omega
        simp [h, h1]

theorem skipItems_scratch : ∀ (k : ℕ) (s : Stream), 4 ≤ s.scratch.length → 4 ≤ (skipItems 4 k s).scratch.length
  | 0, s, h => h
  | k + 1, s, h => by
    rw [skipItems]
    apply skipItems_scratch k
    unfold Stream.read
    split_ifs
    · exact h
    · simp only [List.length_append, List.length_drop, List.length_take]
      omega

theorem skipItems_add (a : ℕ) : ∀ (k : ℕ) (s : Stream), skipItems 4 (k + a) s = skipItems 4 a (skipItems 4 k s)
  | 0, s => by simp [skipItems]
  | k + 1, s => by
    rw [show k + 1 + a = (k + a) + 1 by omega, skipItems, skipItems, skipItems_add a k]

theorem first_plain (be : Bool) (m : ℕ) : ∀ (n : ℕ) (s : Stream) (tot : ℕ) (out : Bytes),
    times n (forEach (parseProp (binaryReader be) xyzKeys true (txt "vertex")) (plainElement m).properties) ⟨s, tot, out⟩ =
      .ok ⟨skipItems 4 (3 * n) s, tot + 12 * n, out⟩
  | 0, s, tot, out => rfl
  | n + 1, s, tot, out => by
    have h1 : forEach (parseProp (binaryReader be) xyzKeys true (txt "vertex")) (plainElement m).properties ⟨s, tot, out⟩ =
        .ok ⟨skipItems 4 3 s, tot + 4 + 4 + 4, out⟩ := rfl
    rw [times, h1]
    simp only
    rw [first_plain be m n, show 3 * (n + 1) = 3 + 3 * n by omega, skipItems_add (3 * n) 3 s,
      show tot + 4 + 4 + 4 + 12 * n = tot + 12 * (n + 1) by omega]

theorem second_plain_failed (m : ℕ) (r sc : Bytes) (hsc : 4 ≤ sc.length) : ∀ (n : ℕ) (tot : ℕ) (out : Bytes),
    times n (forEach (parseProp (binaryReader false) xyzKeys false (txt "vertex")) (plainElement m).properties)
        ⟨⟨r, true, sc⟩, tot, out⟩ =
      .ok ⟨⟨r, true, sc⟩, tot, out ++ (List.replicate (3 * n) (sc.take 4)).flatten⟩
  | 0, tot, out => by simp [times]
  | n + 1, tot, out => by
    have h1 : forEach (parseProp (binaryReader false) xyzKeys false (txt "vertex")) (plainElement m).properties
        ⟨⟨r, true, sc⟩, tot, out⟩ = .ok ⟨⟨r, true, sc⟩, tot, out ++ sc.take 4 ++ sc.take 4 ++ sc.take 4⟩ := rfl
    rw [times, h1]
    simp only
    rw [second_plain_failed m r sc hsc n, show 3 * (n + 1) = (((3 * n) + 1) + 1) + 1 by omega, List.replicate_succ,
      List.replicate_succ, List.replicate_succ]
    simp

/-- Reading data that end too early: every coordinate is what the scratch memory happens to hold. -/
theorem read_truncated (n : ℕ) (rest scratch : Bytes) (hs : 4 ≤ scratch.length) (hr : rest.length < 12 * n) :
    ∃ v : Bytes, v.length = 4 ∧ read (binaryReader false) xyzKeys [plainElement n] ⟨rest, false, scratch⟩ =
      .ok (List.replicate (3 * n) v).flatten := by
  have hf : (skipItems 4 (3 * n) ⟨rest, false, scratch⟩).fail = true := by
    rw [skipItems_fail]
    simp only [Bool.false_or, decide_eq_true_eq]
    omega
  have hsc := skipItems_scratch (3 * n) ⟨rest, false, scratch⟩ hs
  generalize hst : skipItems 4 (3 * n) ⟨rest, false, scratch⟩ = st at hf hsc
  obtain ⟨r, fl, sc⟩ := st
  simp only at hf hsc
  subst hf
  refine ⟨sc.take 4, by rw [List.length_take]; omega, ?_⟩
  have h1 : parseData (binaryReader false) xyzKeys true [plainElement n] ⟨⟨rest, false, scratch⟩, 0, []⟩ =
      .ok ⟨⟨r, true, sc⟩, 12 * n, []⟩ := by
    unfold parseData
    rw [forEach]
    have := first_plain false n n ⟨rest, false, scratch⟩ 0 []
    rw [hst, Nat.zero_add] at this
    show (match times n (forEach (parseProp (binaryReader false) xyzKeys true (txt "vertex")) (plainElement n).properties) _ with
      | .error e => _ | .ok s' => _) = _
    rw [this]
    rfl
  have h2 : parseData (binaryReader false) xyzKeys false [plainElement n] ⟨⟨r, true, sc⟩, 12 * n, []⟩ =
      .ok ⟨⟨r, true, sc⟩, 12 * n, (List.replicate (3 * n) (sc.take 4)).flatten⟩ := by
    unfold parseData
    rw [forEach]
    have := second_plain_failed n r sc hsc n (12 * n) []
    rw [List.nil_append] at this
    show (match times n (forEach (parseProp (binaryReader false) xyzKeys false (txt "vertex")) (plainElement n).properties) _ with
      | .error e => _ | .ok s' => _) = _
    rw [this]
    rfl
  unfold read
  rw [h1]
  simp only [if_true, h2]
  rw [if_pos]
  rw [List.length_flatten, List.map_replicate, List.length_take, Nat.min_eq_left hsc, List.sum_replicate]
  simp only [smul_eq_mul]
  omega

theorem length_chunks4 : ∀ l : Bytes, (chunks4 l).length = l.length / 4
  | [] => rfl
  | [_] => by simp [chunks4]
  | [_, _] => by simp [chunks4]
  | [_, _, _] => by simp [chunks4]
  | a :: b :: c :: d :: r => by
    rw [chunks4, List.length_cons, length_chunks4 r]
    simp only [List.length_cons]
    omega

theorem chunks4_replicate {v : Bytes} (hv : v.length = 4) : ∀ n, chunks4 (List.replicate n v).flatten = List.replicate n v
  | 0 => rfl
  | n + 1 => by rw [List.replicate_succ, List.flatten_cons, chunks4_append hv, chunks4_replicate hv n]

theorem columns_replicate (C : SingleCodec K) (v : Bytes) : ∀ n, columns C (List.replicate (3 * n) v) =
    List.replicate n ⟨C.dec v, C.dec v, C.dec v⟩
  | 0 => rfl
  | n + 1 => by
    rw [show 3 * (n + 1) = (((3 * n) + 1) + 1) + 1 by omega, List.replicate_succ, List.replicate_succ,
      List.replicate_succ, columns, columns_replicate C v n, List.replicate_succ]

end Sumo.Ply
