import Verif.Lemmas.PlyWrite
import Verif.Spec.PointCloud

/-!
# PLY files: C101, C102, C103
-/

namespace Sumo.Ply

open Spec

variable {K : Type}

/-! ### C101: `write_ply` and `load_ply` -/

/-- **C101** (what is written).  `write_ply` of a consistent cloud writes a PLY file whose `vertex` table has, in order, the
coordinates of the points as `float` (and nothing is lost: their colours as `uchar`). -/
theorem C101_written (C : SingleCodec K) (narrow : K → K) (hC : SingleCodec.Lawful C narrow) (c : PointCloud K)
    (hc : ConsistentCloud c) :
    writePly C c true = .ok (bytes (cloudContent C c.points (if c.colors = [] then none else some c.colors))) := by
  unfold writePly PointCloud.colored
  rw [if_pos rfl]
  by_cases h : c.colors = []
  · rw [if_pos h, h]
    simp only [List.isEmpty_nil, Bool.not_true, Bool.false_eq_true, if_false, writePoints_eq C hC.length]
    rfl
  · rw [if_neg h]
    have hlen := hc.resolve_left h
    have hl := writePointsAndColors_eq C hC.length (c.points.zip c.colors)
    rw [List.map_fst_zip (le_of_eq hlen.symm), List.map_snd_zip (le_of_eq hlen)] at hl
    have he : (!c.colors.isEmpty) = true := by simpa using h
    rw [he, if_pos rfl, hl]
    rfl

/-- The columns a cloud's table can have. -/
def cloudColumns : List Column :=
  [⟨txt "x", .float32, txt "float", none⟩, ⟨txt "y", .float32, txt "float", none⟩, ⟨txt "z", .float32, txt "float", none⟩,
    ⟨txt "red", .uint8, txt "uchar", none⟩, ⟨txt "green", .uint8, txt "uchar", none⟩, ⟨txt "blue", .uint8, txt "uchar", none⟩]

theorem mem_cloudTable_columns (C : SingleCodec K) (ps : List (Vec3 K)) (cs : Option (List Color)) (col : Column)
    (h : col ∈ (cloudTable C ps cs).columns) : col ∈ cloudColumns := by
  cases cs with
  | none => exact List.mem_append_left (cloudColumns.drop 3) h
  | some l => exact h

theorem cloudContent_wf (C : SingleCodec K) (h4 : ∀ x, (C.enc x).length = 4) (ps : List (Vec3 K))
    (cs : Option (List Color)) (hn : ps.length < 2 ^ 64) : (cloudContent C ps cs).WF := by
  refine ⟨by simp [cloudContent, cloudTable], ?_⟩
  intro t ht
  obtain rfl := List.mem_singleton.1 ht
  refine ⟨by show Word (txt "vertex"); decide, ?_, ?_, ?_⟩
  · intro c hc
    have hc' := mem_cloudTable_columns C _ cs c hc
    unfold cloudColumns at hc'
    simp only [List.mem_cons, List.not_mem_nil, or_false] at hc'
    rcases hc' with rfl | rfl | rfl | rfl | rfl | rfl <;> exact ⟨by decide, by decide, by rintro t n ⟨⟩⟩
  · intro r hr
    cases cs with
    | none =>
      obtain ⟨p, _, rfl⟩ := List.mem_map.1 hr
      refine .cons ⟨?_, rfl⟩ (.cons ⟨?_, rfl⟩ (.cons ⟨?_, rfl⟩ .nil)) <;>
        (intro v hv; obtain rfl := List.mem_singleton.1 hv; exact h4 _)
    | some l =>
      obtain ⟨p, _, rfl⟩ := List.mem_map.1 hr
      refine .cons ⟨?_, rfl⟩ (.cons ⟨?_, rfl⟩ (.cons ⟨?_, rfl⟩ (.cons ⟨?_, rfl⟩ (.cons ⟨?_, rfl⟩ (.cons ⟨?_, rfl⟩ .nil))))) <;>
        (intro v hv; obtain rfl := List.mem_singleton.1 hv; first | exact h4 _ | rfl)
  · cases cs with
    | none => simpa [cloudTable] using hn
    | some l =>
      simp only [cloudTable, List.length_map, List.length_zip]
      omega

/-- **C101** (round trip).  Loading the file that `write_ply` wrote for a non-empty consistent cloud gives the points in
order, narrowed to single precision, whatever memory the reader started with.

Missing from C101: the colours are not read back (`C101_false`) and the empty cloud cannot be loaded
(`C101_empty_false`). -/
theorem C101_round_trip_partial (C : SingleCodec K) (narrow : K → K) (hC : SingleCodec.Lawful C narrow) (ascii : Reader)
    (scratch : Bytes) (c : PointCloud K) (hc : ConsistentCloud c) (hne : c.points ≠ []) (hn : c.points.length < 2 ^ 64) :
    ∃ file, writePly C c true = .ok file ∧
      loadPly C ascii scratch (some file) =
        .ok ⟨c.points.map fun p => ⟨narrow p.x, narrow p.y, narrow p.z⟩, []⟩ := by
  refine ⟨_, C101_written C narrow hC c hc, ?_⟩
  generalize hcs : (if c.colors = [] then none else some c.colors) = cs
  have hlen : ∀ l, cs = some l → l.length = c.points.length := by
    intro l hl
    by_cases h : c.colors = []
    · rw [if_pos h] at hcs; rw [← hcs] at hl; simp at hl
    · rw [if_neg h] at hcs; rw [← hcs] at hl
      rw [← Option.some.inj hl]
      exact hc.resolve_left h
  have hpt : PointTable (cloudTable C c.points cs) := by
    refine ⟨rfl, by cases cs <;> rfl, ?_⟩
    intro col hcol hx
    have hc' := mem_cloudTable_columns C _ cs col hcol
    unfold cloudColumns at hc'
    simp only [List.mem_cons, List.not_mem_nil, or_false] at hc'
    rcases hc' with rfl | rfl | rfl | rfl | rfl | rfl <;> first | exact ⟨rfl, rfl⟩ | exact absurd hx (by decide)
  have hcoll : NoCollision hashFnv1a (cloudContent C c.points cs).tables := by
    intro t ht col hcol hk
    obtain rfl := List.mem_singleton.1 ht
    have hc' := mem_cloudTable_columns C _ cs col hcol
    unfold cloudColumns at hc'
    simp only [List.mem_cons, List.not_mem_nil, or_false] at hc'
    rcases hc' with rfl | rfl | rfl | rfl | rfl | rfl <;>
      first | exact ⟨rfl, by decide⟩ | exact absurd hk (by show ¬ hashFnv1a (txt "vertex" ++ _) ∈ _; decide)
  obtain ⟨floats, h1, h2, h3⟩ := readPoints_content C ascii scratch (cloudContent C c.points cs)
    (cloudContent_wf C hC.length c.points cs hn) [] [] (cloudTable C c.points cs) rfl hpt (by simp) hcoll []
  rw [List.append_nil] at h1
  have hrows : (cloudTable C c.points cs).rows.length = c.points.length := by
    cases cs with
    | none => simp [cloudTable]
    | some l => simp [cloudTable, hlen l rfl]
  have hpos : 0 < c.points.length := List.length_pos_of_ne_nil hne
  have hcol : columns C floats = c.points.map fun p => ⟨narrow p.x, narrow p.y, narrow p.z⟩ := by
    have key : ∀ (rows : List (List Cell)) (ps : List (Vec3 K)) (qs : List (Vec3 K)),
        List.Forall₂ (fun (r : List Cell) (p : Vec3 K) => ∃ tl, r = [C.enc p.x] :: [C.enc p.y] :: [C.enc p.z] :: tl) rows ps →
        List.Forall₂ (IsPoint C (cloudTable C c.points cs)) rows qs →
        qs = ps.map fun p => ⟨narrow p.x, narrow p.y, narrow p.z⟩ := by
      intro rows
      induction rows with
      | nil => intro ps qs hp hq; cases hp; cases hq; rfl
      | cons r rows ih =>
        intro ps qs hp hq
        cases hp with
        | @cons _ p _ ps hp hps =>
          cases hq with
          | @cons _ q _ qs hq hqs =>
            rw [List.map_cons, ih ps qs hps hqs]
            obtain ⟨tl, rfl⟩ := hp
            obtain ⟨x, y, z, hx, hy, hz, rfl⟩ := hq
            have hx' : some [C.enc p.x] = some [x] := hx
            have hy' : some [C.enc p.y] = some [y] := hy
            have hz' : some [C.enc p.z] = some [z] := hz
            simp only [Option.some.injEq, List.cons.injEq, and_true] at hx' hy' hz'
            rw [← hx', ← hy', ← hz', hC.dec, hC.dec, hC.dec]
    refine key _ _ _ ?_ h3
    cases cs with
    | none =>
      show List.Forall₂ _ (c.points.map _) _
      rw [List.forall₂_map_left_iff, List.forall₂_same]
      exact fun p _ => ⟨[], rfl⟩
    | some l =>
      have hz : c.points = (c.points.zip l).map Prod.fst := by
        rw [List.map_fst_zip (le_of_eq (hlen l rfl).symm)]
      show List.Forall₂ _ ((c.points.zip l).map _) c.points
      conv => rhs; rw [hz]
      rw [List.forall₂_map_left_iff, List.forall₂_map_right_iff, List.forall₂_same]
      exact fun p _ => ⟨_, rfl⟩
  unfold loadPly
  rw [h1]
  simp only [unguarded]
  rw [h2, hrows, if_neg (by omega), hcol]
  rfl

/-- **C101 is false of the code**: a coloured cloud that is written and loaded again has lost its colours. -/
theorem C101_false (C : SingleCodec K) (narrow : K → K) (hC : SingleCodec.Lawful C narrow) (ascii : Reader)
    (scratch : Bytes) (p : Vec3 K) :
    ∃ file r, writePly C ⟨[p], [⟨10, 20, 30⟩]⟩ true = .ok file ∧ loadPly C ascii scratch (some file) = .ok r ∧
      r.colors = [] := by
  obtain ⟨file, h1, h2⟩ := C101_round_trip_partial C narrow hC ascii scratch ⟨[p], [⟨10, 20, 30⟩]⟩ (Or.inr rfl) (by simp)
    (by show 1 < 2 ^ 64; norm_num)
  exact ⟨file, _, h1, h2, rfl⟩

/-- **C101 is false of the code**: the empty cloud can be written, but loading the file fails an assertion. -/
theorem C101_empty_false (C : SingleCodec K) (ascii : Reader) (scratch : Bytes) :
    ∃ file, writePly C (⟨[], []⟩ : PointCloud K) true = .ok file ∧
      loadPly C ascii scratch (some file) = .error .assertionError := ⟨_, rfl, by with_unfolding_all rfl⟩

/-! ### C102: any binary PLY file with coordinates -/

/-- **C102** (the part that holds).  `load_ply` reads any well formed binary PLY file, of either byte order, with any other
tables and columns (lists too) and anything after its data, if one table is called `vertex` and has `float` columns `x`,
`y`, `z` in this order: point `i` is the coordinates of row `i`.

Missing from C102: columns of another number type or order (`C102_order_false`, `C102_double_false`), and columns whose
32 bit keys collide (`NoCollision`). -/
theorem C102_reads_partial (C : SingleCodec K) (ascii : Reader) (scratch : Bytes) (f : Content) (hf : f.WF)
    (pre post : List Table) (t : Table) (hts : f.tables = pre ++ t :: post) (ht : PointTable t) (hrows : t.rows ≠ [])
    (huniq : ∀ s ∈ pre ++ post, s.name ≠ txt "vertex") (hcoll : NoCollision hashFnv1a f.tables) (trailing : Bytes) :
    ∃ points, loadPly C ascii scratch (some (bytes f ++ trailing)) = .ok ⟨points, []⟩ ∧
      List.Forall₂ (IsPoint C t) t.rows points := by
  obtain ⟨floats, h1, h2, h3⟩ := readPoints_content C ascii scratch f hf pre post t hts ht huniq hcoll trailing
  refine ⟨columns C floats, ?_, h3⟩
  have hpos : 0 < t.rows.length := List.length_pos_of_ne_nil hrows
  unfold loadPly
  rw [h1]
  simp only [unguarded]
  rw [h2, if_neg (by omega)]
  rfl

/-- A table with one row of three columns of a type. -/
def exTable (t : PlyType) (tn : Bytes) (n1 n2 n3 : Bytes) (a b c : Bytes) : Table :=
  ⟨txt "vertex", [⟨n1, t, tn, none⟩, ⟨n2, t, tn, none⟩, ⟨n3, t, tn, none⟩], [[[a], [b], [c]]]⟩

theorem exTable_wf (t : PlyType) (tn : Bytes) (n1 n2 n3 : Bytes) (a b c : Bytes) (ht : tn ∈ typeNames t) (h1 : Word n1)
    (h2 : Word n2) (h3 : Word n3) (ha : a.length = width t) (hb : b.length = width t) (hc : c.length = width t) :
    (⟨false, [], [exTable t tn n1 n2 n3 a b c]⟩ : Content).WF := by
  refine ⟨by simp, ?_⟩
  intro s hs
  obtain rfl := List.mem_singleton.1 hs
  refine ⟨by show Word (txt "vertex"); decide, ?_, ?_, by show 1 < 2 ^ 64; norm_num⟩
  · intro col hcol
    simp only [exTable, List.mem_cons, List.not_mem_nil, or_false] at hcol
    rcases hcol with rfl | rfl | rfl
    · exact ⟨h1, ht, by rintro t n ⟨⟩⟩
    · exact ⟨h2, ht, by rintro t n ⟨⟩⟩
    · exact ⟨h3, ht, by rintro t n ⟨⟩⟩
  · intro r hr
    obtain rfl := List.mem_singleton.1 hr
    refine .cons ⟨?_, rfl⟩ (.cons ⟨?_, rfl⟩ (.cons ⟨?_, rfl⟩ .nil)) <;>
      (intro v hv; obtain rfl := List.mem_singleton.1 hv; assumption)

/-- **C102 is false of the code**: a file whose columns are in the order `z`, `y`, `x` is well formed, but `load_ply` takes
the first column for `x`. -/
theorem C102_order_false (C : SingleCodec K) (ascii : Reader) (scratch : Bytes) :
    ∃ t : Table, (⟨false, [], [t]⟩ : Content).WF ∧
      t.rows = [[[[1, 0, 0, 0]], [[2, 0, 0, 0]], [[3, 0, 0, 0]]]] ∧
      IsPoint C t [[[1, 0, 0, 0]], [[2, 0, 0, 0]], [[3, 0, 0, 0]]]
        ⟨C.dec [3, 0, 0, 0], C.dec [2, 0, 0, 0], C.dec [1, 0, 0, 0]⟩ ∧
      loadPly C ascii scratch (some (bytes ⟨false, [], [t]⟩)) =
        .ok ⟨[⟨C.dec [1, 0, 0, 0], C.dec [2, 0, 0, 0], C.dec [3, 0, 0, 0]⟩], []⟩ := by
  have hwf := exTable_wf .float32 (txt "float") (txt "z") (txt "y") (txt "x") [1, 0, 0, 0] [2, 0, 0, 0] [3, 0, 0, 0]
    (by decide) (by decide) (by decide) (by decide) rfl rfl rfl
  refine ⟨_, hwf, rfl, ⟨_, _, _, rfl, rfl, rfl, rfl⟩, ?_⟩
  have h := readPoints_wanted ascii scratch _ hwf 1 xyzKeys rfl []
  rw [List.append_nil] at h
  unfold loadPly
  rw [h]
  rfl

/-- **C102 is false of the code**: loading a well formed file with `double` coordinates writes outside the memory of the
points. -/
theorem C102_double_false (C : SingleCodec K) (ascii : Reader) (scratch : Bytes) :
    ∃ t : Table, (⟨false, [], [t]⟩ : Content).WF ∧ t.name = txt "vertex" ∧ t.columns.map (·.name) = xyz ∧
      loadPly C ascii scratch (some (bytes ⟨false, [], [t]⟩)) = .error .undefined := by
  have hwf := exTable_wf .float64 (txt "double") (txt "x") (txt "y") (txt "z") [1, 0, 0, 0, 0, 0, 0, 0]
    [2, 0, 0, 0, 0, 0, 0, 0] [3, 0, 0, 0, 0, 0, 0, 0] (by decide) (by decide) (by decide) (by decide) rfl rfl rfl
  refine ⟨_, hwf, rfl, rfl, ?_⟩
  have h := readPoints_wanted ascii scratch _ hwf 1 xyzKeys rfl []
  rw [List.append_nil] at h
  unfold loadPly
  rw [h]
  rfl

/-! ### C103: files that cannot be read -/

/-- **C103** (the part that holds).  If `load_ply` raises an exception, it is the `AssertionError` for a file without
points: every other failure is the end of the process, or undefined.

Missing from C103: those failures are not reported as exceptions (`C103_missing_false`, `C103_no_vertex_false`), and an
incomplete file is not noticed at all (`C103_truncated_false`). -/
theorem C103_partial (C : SingleCodec K) (ascii : Reader) (scratch : Bytes) (file : Option Bytes) (e : PyErr)
    (h : loadPly C ascii scratch file = .error e) :
    (e = .assertionError ∧ readPoints ascii scratch file = .ok []) ∨
    (e = .terminated ∧ ∃ e', e' ≠ .undefined ∧ readPoints ascii scratch file = .error e') ∨
    (e = .undefined ∧ readPoints ascii scratch file = .error .undefined) := by
  unfold loadPly at h
  cases hr : readPoints ascii scratch file with
  | error e' =>
    right
    rw [hr] at h
    by_cases hu : e' = .undefined
    · subst hu
      right
      simp only [unguarded, Except.error.injEq] at h
      exact ⟨h.symm, rfl⟩
    · left
      have : unguarded (Except.error e' : Except PyErr (List Bytes)) = .error .terminated := by
        cases e' <;> first | rfl | exact absurd rfl hu
      rw [this] at h
      simp only [Except.error.injEq] at h
      exact ⟨h.symm, e', hu, rfl⟩
  | ok floats =>
    left
    rw [hr] at h
    simp only [unguarded] at h
    by_cases h0 : floats.length / 3 = 0
    · rw [if_pos h0] at h
      refine ⟨(Except.error.inj h).symm, ?_⟩
      have hmod : floats.length % 3 = 0 := by
        unfold readPoints at hr
        cases file with
        | none => simp at hr
        | some bs =>
          simp only at hr
          split at hr
          · simp at hr
          · split at hr
            · simp at hr
            · rename_i count keys _
              split at hr
              · simp at hr
              · rename_i buffer _
                split_ifs at hr with hlt
                have hfl := Except.ok.inj hr
                rw [← hfl, length_chunks4]
                rw [List.length_append, List.length_replicate]
                omega
      have : floats.length = 0 := by omega
      rw [List.length_eq_zero_iff.1 this]
    · rw [if_neg h0] at h
      simp [PointCloud.create] at h

/-- **C103 is false of the code**: loading a file that does not exist (or cannot be opened) ends the Python process. -/
theorem C103_missing_false (C : SingleCodec K) (ascii : Reader) (scratch : Bytes) :
    loadPly C ascii scratch none = .error .terminated := rfl

/-- **C103 is false of the code**: loading a well formed PLY file without a `vertex` table ends the Python process. -/
theorem C103_no_vertex_false (C : SingleCodec K) (ascii : Reader) (scratch : Bytes) (f : Content) (hf : f.WF)
    (h : ∀ t ∈ f.tables, t.name ≠ txt "vertex") (trailing : Bytes) :
    loadPly C ascii scratch (some (bytes f ++ trailing)) = .error .terminated := by
  have hreq : ∃ e, requestProperties (f.tables.map toElement) (txt "vertex") [txt "x", txt "y", txt "z"] = .error e ∧
      e ≠ .undefined := by
    unfold requestProperties
    split_ifs with h0
    · exact ⟨_, rfl, by simp⟩
    · have : (f.tables.map toElement).find? (fun e => e.name == txt "vertex") = none := by
        rw [List.find?_eq_none]
        intro e he
        obtain ⟨s, hs, rfl⟩ := List.mem_map.1 he
        simpa [toElement] using h s hs
      rw [this]
      exact ⟨_, rfl, by simp⟩
  obtain ⟨e, he, hne⟩ := hreq
  have hr : readPoints ascii scratch (some (bytes f ++ trailing)) = .error e := by
    unfold readPoints
    simp only
    unfold bytes
    rw [List.append_assoc, parseHeader_content f hf]
    simp only [he]
  unfold loadPly
  rw [hr]
  cases e <;> first | rfl | exact absurd rfl hne

/-- **C103 is false of the code**: a file that has lost its end is not noticed.  If any number of the last bytes of the
data of a PLY file of `n` points is missing, `load_ply` returns `n` points all of whose coordinates are one and the same
number. -/
theorem C103_truncated_false (C : SingleCodec K) (narrow : K → K) (hC : SingleCodec.Lawful C narrow) (ascii : Reader)
    (scratch : Bytes) (hs : scratch.length = 128) (ps : List (Vec3 K)) (hn : ps.length < 2 ^ 64) (k : ℕ) (hk : 0 < k)
    (hk' : k ≤ 12 * ps.length) :
    ∃ v : K, loadPly C ascii scratch
        (some ((bytes (cloudContent C ps none)).take ((bytes (cloudContent C ps none)).length - k))) =
      .ok ⟨List.replicate ps.length ⟨v, v, v⟩, []⟩ := by
  have hbody : ((cloudContent C ps none).tables.flatMap fun t => t.rows.flatMap (row false t.columns)) = pointBytes C ps := by
    simp only [cloudContent, cloudTable, List.flatMap_cons, List.flatMap_nil, List.append_nil, List.flatMap_map]
    unfold pointBytes
    congr 1
    funext p
    simp [row, cell, value]
  have hlen : (pointBytes C ps).length = 12 * ps.length := by
    clear hn hk' hbody
    induction ps with
    | nil => rfl
    | cons p ps ih =>
      have e : pointBytes C (p :: ps) = C.enc p.x ++ C.enc p.y ++ C.enc p.z ++ pointBytes C ps := by simp [pointBytes]
      rw [e, List.length_append, ih]
      simp only [List.length_append, hC.length, List.length_cons]
      omega
  have hbytes : (bytes (cloudContent C ps none)).take ((bytes (cloudContent C ps none)).length - k) =
      (headerLines (cloudContent C ps none)).flatMap (· ++ [10]) ++ (pointBytes C ps).take (12 * ps.length - k) := by
    have : bytes (cloudContent C ps none) =
        (headerLines (cloudContent C ps none)).flatMap (· ++ [10]) ++ pointBytes C ps := by
      rw [← hbody]; rfl
    rw [this, List.length_append, hlen, Nat.add_sub_assoc hk', List.take_append, List.take_of_length_le (by omega),
      Nat.add_sub_cancel_left]
  have hel : (cloudContent C ps none).tables.map toElement = [plainElement ps.length] := by
    simp [cloudContent, cloudTable, toElement, toProperty, plainElement]
  have hreq : requestProperties [plainElement ps.length] (txt "vertex") [txt "x", txt "y", txt "z"] =
      .ok (ps.length, xyzKeys) := rfl
  obtain ⟨v, hv, hread⟩ := read_truncated ps.length ((pointBytes C ps).take (12 * ps.length - k)) scratch (by omega)
    (by rw [List.length_take, hlen]; omega)
  have hr : readPoints ascii scratch (some ((bytes (cloudContent C ps none)).take
      ((bytes (cloudContent C ps none)).length - k))) = .ok (List.replicate (3 * ps.length) v) := by
    rw [hbytes]
    unfold readPoints
    simp only
    rw [parseHeader_content _ (cloudContent_wf C hC.length ps none hn)]
    simp only [hel, hreq, if_true]
    have hb : (cloudContent C ps none).bigEndian = false := rfl
    rw [hb, hread]
    have hl : (List.replicate (3 * ps.length) v).flatten.length = 12 * ps.length := by
      rw [List.length_flatten, List.map_replicate, hv, List.sum_replicate]
      simp only [smul_eq_mul]
      omega
    simp only
    rw [if_neg (by omega), hl, Nat.sub_self, List.replicate_zero, List.append_nil, chunks4_replicate hv]
  refine ⟨C.dec v, ?_⟩
  unfold loadPly
  rw [hr]
  simp only [unguarded, List.length_replicate]
  rw [if_neg (by omega), columns_replicate]
  rfl

/-- The first lines of the header of a binary PLY file with one table, whose first line is `element`, and columns `x`, `y` and `z`. -/
def headerWith (element : Bytes) : Bytes :=
  txt "ply" ++ 10 :: (txt "format binary_little_endian 1.0" ++ 10 :: (element ++ 10 :: (txt "property float x" ++ 10 ::
    (txt "property float y" ++ 10 :: (txt "property float z" ++ 10 :: (txt "end_header" ++ [10]))))))

theorem parseHeader_with {element : Bytes} {n : ℕ} (hn : 10 ∉ element)
    (h : headerLine ⟨true, false, []⟩ element = .ok (some ⟨true, false, [⟨txt "vertex", n, []⟩]⟩)) (rest : Bytes) :
    parseHeader ⟨false, false, []⟩ [] (headerWith element ++ rest) = .ok (⟨true, false, [plainElement n]⟩, rest, false) := by
  have e : headerWith element ++ rest = txt "ply" ++ 10 :: (txt "format binary_little_endian 1.0" ++ 10 :: (element ++ 10 ::
      (txt "property float x" ++ 10 :: (txt "property float y" ++ 10 :: (txt "property float z" ++ 10 ::
        (txt "end_header" ++ 10 :: rest)))))) := by simp [headerWith]
  rw [e, parseHeader_next (h' := ⟨false, false, []⟩) _ (by decide) rfl,
    parseHeader_next (h' := ⟨true, false, []⟩) _ (by decide) rfl, parseHeader_next _ hn h,
    parseHeader_next _ (by decide) rfl, parseHeader_next _ (by decide) rfl, parseHeader_next _ (by decide) rfl,
    parseHeader_line _ _ _ _ (by decide)]
  rfl

/-- **C103 is false of the code**: a file that says it has `-n` points is not refused, but read as one that says it has
`2^64 - n`, for every `n` from 1 to `2^64 - 1` and whatever follows the header. -/
theorem C103_negative_false (C : SingleCodec K) (ascii : Reader) (scratch : Bytes) {n : ℕ} (h0 : 0 < n) (hn : n < 2 ^ 64)
    (data : Bytes) :
    loadPly C ascii scratch (some (headerWith (txt "element vertex -" ++ Spec.digits n) ++ data)) =
      loadPly C ascii scratch (some (headerWith (txt "element vertex " ++ Spec.digits (2 ^ 64 - n)) ++ data)) := by
  have hline : ∀ (h : Header) (w : Bytes), Word w → headerLine h (txt "element vertex " ++ w) =
      .ok (some { h with elements := h.elements ++ [⟨txt "vertex", parseSize w, []⟩] }) := by
    intro h w hw
    have e : txt "element vertex " ++ w = txt "element" ++ 32 :: (txt "vertex" ++ 32 :: w) := by
      have : txt "element vertex " = txt "element" ++ 32 :: (txt "vertex" ++ [32]) := rfl
      rw [this]; simp
    unfold headerLine
    rw [e, tokens_word (by decide), tokens_word (by decide), tokens_end hw]
    rfl
  have e1 : txt "element vertex -" ++ Spec.digits n = txt "element vertex " ++ 45 :: Spec.digits n := by
    have : txt "element vertex -" = txt "element vertex " ++ [45] := rfl
    rw [this]; simp
  have hw : Word (45 :: Spec.digits n) := by
    refine ⟨by simp, fun b hb => ?_⟩
    rcases List.mem_cons.1 hb with rfl | hb
    · decide
    · exact (word_digits n).2 b hb
  have hnl : ∀ w, Word w → 10 ∉ txt "element vertex " ++ w := by
    intro w hw
    rw [List.mem_append, not_or]
    exact ⟨by decide, word_no_newline hw⟩
  have hs : parseSize (45 :: Spec.digits n) = 2 ^ 64 - n := by
    unfold parseSize
    simp only
    rw [digitsValue_digits, if_neg (by omega), Nat.mod_eq_of_lt (by omega)]
  have p1 := parseHeader_with (hnl _ hw) (by rw [hline _ _ hw, hs]; rfl) data
  have p2 := parseHeader_with (hnl _ (word_digits (2 ^ 64 - n)))
    (by rw [hline _ _ (word_digits _), parseSize_digits _ (by omega)]; rfl) data
  unfold loadPly readPoints
  simp only
  rw [e1, p1, p2]

/-- **C103 is false of the code**: if the header does not say how many points there are, the number is whatever was in memory. -/
theorem C103_no_count_false (C : SingleCodec K) (ascii : Reader) (scratch data : Bytes) :
    loadPly C ascii scratch (some (headerWith (txt "element vertex") ++ data)) = .error .undefined := by
  have e : headerWith (txt "element vertex") ++ data = txt "ply" ++ 10 :: (txt "format binary_little_endian 1.0" ++ 10 ::
      (txt "element vertex" ++ 10 :: (txt "property float x" ++ 10 :: (txt "property float y" ++ 10 ::
        (txt "property float z" ++ 10 :: (txt "end_header" ++ 10 :: data)))))) := by simp [headerWith]
  have h : parseHeader ⟨false, false, []⟩ [] (headerWith (txt "element vertex") ++ data) = .error .undefined := by
    rw [e, parseHeader_next (h' := ⟨false, false, []⟩) _ (by decide) rfl,
      parseHeader_next (h' := ⟨true, false, []⟩) _ (by decide) rfl, parseHeader_line _ _ _ _ (by decide)]
    rfl
  unfold loadPly readPoints
  simp only
  rw [h]
  rfl

/-! ### C104: writing any cloud -/

/-- **C104** (the part that holds).  `write_ply` to a file that can be opened reads outside the memory of the cloud exactly
if the cloud has colours, but fewer than points; for every other cloud it writes the file.

Missing from C104: `merge` returns such clouds (`C104_false`), and a file that cannot be opened ends the process
(`C104_unwritable_false`). -/
theorem C104_partial (C : SingleCodec K) (narrow : K → K) (hC : SingleCodec.Lawful C narrow) (c : PointCloud K) :
    (c.colors ≠ [] ∧ c.colors.length < c.points.length → writePly C c true = .error .undefined) ∧
    (c.colors = [] ∨ c.points.length ≤ c.colors.length → ∃ file, writePly C c true = .ok file) := by
  unfold writePly PointCloud.colored
  rw [if_pos rfl]
  have hstep : writePointsAndColors C c.points c.colors =
      match writeRows coloredTable (coloredElement c.points.length) c.points.length
        ([pointBytes C c.points, colorBytes c.colors], writeHeader [coloredElement c.points.length]) with
      | .error e => .error e
      | .ok s => .ok s.2 := by
    unfold writePointsAndColors writeBinary
    rw [addProperties_plain, addProperties_colored]
    simp only [writeElements]
    show (match (match writeRows coloredTable (coloredElement c.points.length) c.points.length _ with
      | .error e => Except.error e | .ok s' => Except.ok s') with | .error e => Except.error e | .ok s => Except.ok s.2) = _
    cases writeRows coloredTable (coloredElement c.points.length) c.points.length
      ([pointBytes C c.points, colorBytes c.colors], writeHeader [coloredElement c.points.length]) <;> rfl
  obtain ⟨h1, h2⟩ := writeRows_any C hC.length c.points.length c.points c.colors
    (writeHeader [coloredElement c.points.length])
  constructor
  · rintro ⟨hne, hlt⟩
    have he : (!c.colors.isEmpty) = true := by simpa using hne
    rw [he, if_pos rfl, hstep, h1 hlt]
    rfl
  · intro h
    by_cases h0 : c.colors = []
    · rw [h0]
      simp only [List.isEmpty_nil, Bool.not_true, Bool.false_eq_true, if_false, writePoints_eq C hC.length]
      exact ⟨_, rfl⟩
    · have he : (!c.colors.isEmpty) = true := by simpa using h0
      obtain ⟨s, hs⟩ := h2 (h.resolve_left h0)
      rw [he, if_pos rfl, hstep, hs]
      exact ⟨_, rfl⟩

/-- **C104 is false of the code**: merging a cloud without colours and one with colours gives a cloud that `write_ply`
cannot write. -/
theorem C104_false (C : SingleCodec K) (narrow : K → K) (hC : SingleCodec.Lawful C narrow) (p q : Vec3 K) :
    ∃ m, PointCloud.merge ⟨[p], []⟩ ⟨[q], [⟨1, 2, 3⟩]⟩ = .ok m ∧ writePly C m true = .error .undefined :=
  ⟨_, rfl, (C104_partial C narrow hC _).1 ⟨by simp [PointCloud.append], by simp [PointCloud.append]⟩⟩

/-- **C104 is false of the code**: writing to a file that cannot be opened ends the Python process. -/
theorem C104_unwritable_false (C : SingleCodec K) (c : PointCloud K) : writePly C c false = .error .terminated := rfl

/-! ### Non-vacuity -/

/-- Single precision numbers: here 32 bit patterns standing for themselves. -/
def exCodec : SingleCodec ℕ := ⟨numberBytes 4, leNat⟩

theorem exCodec_lawful : SingleCodec.Lawful exCodec (fun n => n % 256 ^ 4) := by
  refine ⟨fun x => length_numberBytes 4 x, fun x => ?_⟩
  show leNat (numberBytes 4 x) = _
  have h : ∀ w n, numberBytes w n = numberBytes w (n % 256 ^ w) := by
    intro w
    induction w with
    | zero => intro n; rfl
    | succ w ih =>
      intro n
      rw [numberBytes, numberBytes, ih (n / 256), pow_succ, Nat.mod_mul_left_mod,
        show n % (256 ^ w * 256) / 256 = n / 256 % 256 ^ w from by rw [mul_comm, Nat.mod_mul_right_div_self]]
  rw [h, leNat_numberBytes _ _ (Nat.mod_lt _ (by norm_num))]

example : ConsistentCloud (⟨[⟨1, 2, 3⟩, ⟨4, 5, 6⟩], [⟨10, 20, 30⟩, ⟨40, 50, 60⟩]⟩ : PointCloud ℕ) := Or.inr rfl

/-- A big endian file with a comment, a table of faces (lists of vertices) and a table of points with a confidence between
their coordinates. -/
def exContent : Content where
  bigEndian := true
  comments := [(false, txt "made by hand"), (true, txt "for this test")]
  tables := [
    ⟨txt "face", [⟨txt "vertex_indices", .int32, txt "int", some (.uint8, txt "uchar")⟩],
      [[[[0, 0, 0, 0], [1, 0, 0, 0], [2, 0, 0, 0]]], [[]]]⟩,
    ⟨txt "vertex", [⟨txt "x", .float32, txt "float32", none⟩, ⟨txt "confidence", .float64, txt "double", none⟩,
      ⟨txt "y", .float32, txt "float", none⟩, ⟨txt "z", .float32, txt "float", none⟩],
      [[[[1, 0, 0, 0]], [[9, 9, 9, 9, 9, 9, 9, 9]], [[2, 0, 0, 0]], [[3, 0, 0, 0]]]]⟩]

theorem exContent_wf : exContent.WF := by
  refine ⟨by decide, ?_⟩
  intro t ht
  simp only [exContent, List.mem_cons, List.not_mem_nil, or_false] at ht
  rcases ht with rfl | rfl
  · refine ⟨by decide, ?_, ?_, by show 2 < 2 ^ 64; norm_num⟩
    · intro c hc
      obtain rfl := List.mem_singleton.1 hc
      exact ⟨by decide, by decide, by rintro t n ⟨⟩; exact ⟨by decide, trivial⟩⟩
    · intro r hr
      simp only [List.mem_cons, List.not_mem_nil, or_false] at hr
      rcases hr with rfl | rfl
      · exact .cons ⟨by decide, by decide⟩ .nil
      · exact .cons ⟨by decide, by decide⟩ .nil
  · refine ⟨by decide, ?_, ?_, by show 1 < 2 ^ 64; norm_num⟩
    · intro c hc
      simp only [List.mem_cons, List.not_mem_nil, or_false] at hc
      rcases hc with rfl | rfl | rfl | rfl <;> exact ⟨by decide, by decide, by rintro t n ⟨⟩⟩
    · intro r hr
      obtain rfl := List.mem_singleton.1 hr
      exact .cons ⟨by decide, by decide⟩ (.cons ⟨by decide, by decide⟩ (.cons ⟨by decide, by decide⟩
        (.cons ⟨by decide, by decide⟩ .nil)))

/-- The hypotheses of C102 hold of the file. -/
theorem exContent_points (ascii : Reader) (scratch : Bytes) :
    loadPly exCodec ascii scratch (some (bytes exContent)) = .ok ⟨[⟨1, 2, 3⟩], []⟩ := by
  obtain ⟨points, h1, h2⟩ := C102_reads_partial exCodec ascii scratch exContent exContent_wf [_] [] _ rfl
    ⟨rfl, rfl, by decide⟩ (by simp) (by decide) (by unfold NoCollision; decide) []
  rw [List.append_nil] at h1
  cases h2 with
  | cons hp ht =>
    cases ht
    obtain ⟨x, y, z, hx, hy, hz, rfl⟩ := hp
    have hx' : some [([1, 0, 0, 0] : Bytes)] = some [x] := hx
    have hy' : some [([2, 0, 0, 0] : Bytes)] = some [y] := hy
    have hz' : some [([3, 0, 0, 0] : Bytes)] = some [z] := hz
    simp only [Option.some.injEq, List.cons.injEq, and_true] at hx' hy' hz'
    rw [h1, ← hx', ← hy', ← hz']
    rfl

/-- A file with a table other than `vertex`. -/
example : (⟨false, [], []⟩ : Content).WF ∧ ∀ t ∈ (⟨false, [], []⟩ : Content).tables, t.name ≠ txt "vertex" :=
  ⟨⟨by simp, by simp⟩, by simp⟩

end Sumo.Ply
