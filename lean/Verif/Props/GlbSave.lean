import Verif.Spec.GlbSave

/-! # Properties of `save_as_glb` -/

namespace Sumo
namespace GlbSave

theorem splitext_glb {name root : String} (h : GlbName name root) : splitext name = (root, ".glb") := by
  obtain ⟨rfl, c, hc, hne⟩ := h
  have e : (root ++ ".glb").toList.reverse = 'b' :: 'l' :: 'g' :: '.' :: root.toList.reverse := by
    rw [String.toList_append, List.reverse_append]; rfl
  unfold splitext
  rw [e]
  have hall : root.toList.reverse.all (· == '.') = false := by
    rw [List.all_eq_false]
    exact ⟨c, List.mem_reverse.2 hc, by simpa using hne⟩
  have h1 : ('b' :: 'l' :: 'g' :: '.' :: root.toList.reverse).dropWhile (· != '.') = '.' :: root.toList.reverse := rfl
  have h2 : ('b' :: 'l' :: 'g' :: '.' :: root.toList.reverse).takeWhile (· != '.') = ['b', 'l', 'g'] := rfl
  simp only [h1, h2, hall, Bool.false_eq_true, if_false, List.reverse_reverse, String.ofList_toList]
  rfl

/-- `splitext` yields the extension `.glb` for no other names. -/
theorem splitext_only {name : String} (h : (splitext name).2 = ".glb") : ∃ root, GlbName name root := by
  unfold splitext at h
  have e := List.takeWhile_append_dropWhile (p := (· != '.')) (l := name.toList.reverse)
  dsimp only at h
  split at h
  · exact absurd (show "" = ".glb" from h) (by decide)
  · rename_i c root hd
    split_ifs at h with hall
    · exact absurd (show "" = ".glb" from h) (by decide)
    · have hx : (name.toList.reverse.takeWhile (· != '.')).reverse = ['g', 'l', 'b'] := by
        have := congrArg String.toList h
        simpa using this
      have hc : c = '.' := by
        have := List.head?_dropWhile_not (· != '.') name.toList.reverse
        rw [hd] at this
        simpa using this
      rw [hd] at e
      refine ⟨String.ofList root.reverse, ?_, ?_⟩
      · apply String.toList_inj.1
        have := congrArg List.reverse e
        rw [List.reverse_append, List.reverse_reverse, hx, hc] at this
        rw [← this, String.toList_append]
        simp
      · have : root.all (· == '.') = false := by simpa using hall
        rw [List.all_eq_false] at this
        obtain ⟨x, h1, h2⟩ := this
        exact ⟨x, by simpa using h1, by simpa using h2⟩

theorem writeAll_isDir (temp : Dir) (l : List (String × List UInt8)) (os : Os) :
    (l.foldl (fun os f => os.write temp f.1 f.2) os).isDir = os.isDir ∧
    (l.foldl (fun os f => os.write temp f.1 f.2) os).cwd = os.cwd ∧
    (∀ d n, d ≠ temp → (l.foldl (fun os f => os.write temp f.1 f.2) os).file d n = os.file d n) := by
  induction l generalizing os with
  | nil => exact ⟨rfl, rfl, fun _ _ _ => rfl⟩
  | cons f l ih =>
    obtain ⟨h1, h2, h3⟩ := ih (os.write temp f.1 f.2)
    refine ⟨h1, h2, fun d n hd => ?_⟩
    rw [List.foldl_cons, h3 d n hd]
    simp [Os.write, hd]

theorem writeAll_contents (temp : Dir) (l : List (String × List UInt8)) (os : Os) (h : ∀ n, os.file temp n = none) :
    (l.foldl (fun os f => os.write temp f.1 f.2) os).file temp = contents l := by
  have key : ∀ (l : List (String × List UInt8)), (l.foldr (fun f os => os.write temp f.1 f.2) os).file temp =
      fun n => (l.find? (fun f => n == f.1)).map Prod.snd := by
    intro l
    induction l with
    | nil => funext n; exact h n
    | cons f l ih =>
      funext n
      show (if temp = temp ∧ n = f.1 then some f.2 else _) = _
      by_cases e : n = f.1
      · rw [if_pos ⟨rfl, e⟩, List.find?_cons_of_pos (by simp [e])]; rfl
      · rw [if_neg (fun h => e h.2), ih, List.find?_cons_of_neg (by simpa using e)]
  rw [← List.reverse_reverse l, List.foldl_reverse, key]
  unfold contents
  rw [List.reverse_reverse]

/-- What the `try` block leaves outside the temporary folder. -/
theorem tryBody_effects (E : Exporter) (os : Os) (temp : Dir) (root : String) (p : GlbPath) :
    (tryBody E os temp root p).1.isDir = os.isDir ∧
    (∀ d n, d ≠ temp → ¬ (d = os.resolve p ∧ n = p.name) → (tryBody E os temp root p).1.file d n = os.file d n) := by
  obtain ⟨h1, h2, h3⟩ := writeAll_isDir temp (E.write root).1 os
  unfold tryBody
  dsimp only
  split
  · exact ⟨h1, fun d n hd _ => h3 d n hd⟩
  · split
    · exact ⟨h1, fun d n hd _ => h3 d n hd⟩
    · unfold exportTo
      have hr : Os.resolve ((E.write root).1.foldl (fun os f => os.write temp f.1 f.2) os) p = os.resolve p := by
        unfold Os.resolve; rw [h2]
      rw [hr]
      split
      · refine ⟨h1, fun d n hd hn => ?_⟩
        show (if d = os.resolve p ∧ n = p.name then _ else _) = _
        rw [if_neg hn, h3 d n hd]
      · exact ⟨h1, fun d n hd _ => h3 d n hd⟩

/-- **C99**, working directory: it is restored whatever happens. -/
theorem C99_working_directory (E : Exporter) (os : Os) (temp : Dir) (p : GlbPath) :
    (saveAsGlb E os temp p).1.cwd = os.cwd := by
  unfold saveAsGlb
  dsimp only
  split_ifs <;> rfl

/-- **C99**, side effects: whatever happens, no file other than the one named by the caller changes, and for a name ending in
`.glb` the temporary folder is gone afterwards. -/
theorem C99_side_effects (E : Exporter) {os : Os} {temp : Dir} (p : GlbPath) (hf : Fresh os temp) :
    (∀ d n, ¬ (p.absolute = true ∧ d = p.dirs ∧ n = p.name) → (saveAsGlb E os temp p).1.file d n = os.file d n) ∧
    (∀ root, GlbName p.name root → (saveAsGlb E os temp p).1.isDir = os.isDir) := by
  unfold saveAsGlb
  dsimp only
  obtain ⟨k1, k2⟩ := tryBody_effects E ((os.mkdtemp temp).chdir temp) temp (splitext p.name).1 p
  constructor
  · intro d n hn
    split_ifs with hx
    · rfl
    · show (if temp <+: d then none else _) = _
      split_ifs with hd
      · exact (hf.2 d n hd).symm
      · refine k2 d n (fun e => hd (e ▸ List.prefix_refl _)) (fun ⟨h1, h2⟩ => ?_)
        unfold Os.resolve at h1
        split_ifs at h1 with ha
        · exact hn ⟨ha, h1, h2⟩
        · exact hd (h1 ▸ List.prefix_append _ _)
  · intro root hr
    rw [splitext_glb hr] at k1 ⊢
    rw [if_neg (by simp)]
    funext d
    show (if temp <+: d then false else _) = _
    split_ifs with hd
    · exact (hf.1 d hd).symm
    · rw [k1]
      show (if d = temp then true else os.isDir d) = _
      exact if_neg (fun e : d = temp => hd (e ▸ List.prefix_refl _))

/-- **C99** (partial: for absolute paths.) If the directory exists and the export itself succeeds, the call returns and the
named file holds the exported bytes. -/
theorem C99_partial (E : Exporter) {os : Os} {temp : Dir} {p : GlbPath} {root : String} {header b : List UInt8}
    {body : BodyEncoder} (hf : Fresh os temp) (hp : p.absolute = true) (hn : GlbName p.name root)
    (hd : os.isDir p.dirs = true) (hw : (E.write root).2 = .ok ())
    (hc : E.convert root (contents (E.write root).1) = .ok (header, body))
    (hb : exportString header body = .ok b) :
    (saveAsGlb E os temp p).2 = .ok () ∧ (saveAsGlb E os temp p).1.file p.dirs p.name = some b := by
  have ht : ¬ temp <+: p.dirs := fun h => by rw [hf.1 _ h] at hd; cases hd
  have hne : p.dirs ≠ temp := fun e => ht (e ▸ List.prefix_refl _)
  unfold saveAsGlb
  dsimp only
  rw [splitext_glb hn, if_neg (by simp)]
  unfold tryBody
  dsimp only
  obtain ⟨h1, h2, h3⟩ := writeAll_isDir temp (E.write root).1 ((os.mkdtemp temp).chdir temp)
  rw [hw]
  dsimp only
  rw [writeAll_contents temp _ ((os.mkdtemp temp).chdir temp) (fun n => hf.2 temp n (List.prefix_refl _)), hc]
  dsimp only
  unfold exportTo
  rw [show Os.resolve _ p = p.dirs by unfold Os.resolve; rw [if_pos hp], h1]
  have hd' : ((os.mkdtemp temp).chdir temp).isDir p.dirs = true := by
    show (if p.dirs = temp then true else os.isDir p.dirs) = true
    rw [if_neg hne, hd]
  rw [if_pos hd']
  unfold exportFile
  rw [hb]
  refine ⟨rfl, ?_⟩
  show (if temp <+: p.dirs then none else _) = _
  rw [if_neg ht]
  show (if p.dirs = p.dirs ∧ p.name = p.name then some b else _) = _
  rw [if_pos ⟨rfl, rfl⟩]

/-- **C99** is false for relative paths, all of them: no file outside the temporary folder is written, and the call nevertheless
returns normally whenever the path is a bare file name and the export succeeds; with a directory in the path it raises, although
the directory may exist. -/
theorem C99_relative (E : Exporter) {os : Os} {temp : Dir} {p : GlbPath} (hf : Fresh os temp) (hp : p.absolute = false) :
    (saveAsGlb E os temp p).1.file = os.file ∧
    (p.dirs ≠ [] → (saveAsGlb E os temp p).2 ≠ .ok ()) ∧
    (∀ root header body b, p.dirs = [] → GlbName p.name root → (E.write root).2 = .ok () →
      E.convert root (contents (E.write root).1) = .ok (header, body) → exportString header body = .ok b →
      (saveAsGlb E os temp p).2 = .ok ()) := by
  refine ⟨?_, ?_, ?_⟩
  · funext d n
    exact (C99_side_effects E p hf).1 d n (fun h => by rw [hp] at h; cases h.1)
  · intro hne
    unfold saveAsGlb
    dsimp only
    split_ifs with hx
    · simp
    · show (tryBody E _ temp (splitext p.name).1 p).2 ≠ _
      unfold tryBody
      dsimp only
      obtain ⟨h1, h2, h3⟩ := writeAll_isDir temp (E.write (splitext p.name).1).1 ((os.mkdtemp temp).chdir temp)
      split
      · simp
      · split
        · simp
        · unfold exportTo
          rw [h1, show Os.resolve _ p = temp ++ p.dirs by unfold Os.resolve; rw [if_neg (by simp [hp]), h2]; rfl]
          have : ((os.mkdtemp temp).chdir temp).isDir (temp ++ p.dirs) = false := by
            show (if temp ++ p.dirs = temp then true else os.isDir (temp ++ p.dirs)) = false
            rw [if_neg (by simpa using hne), hf.1 _ (List.prefix_append _ _)]
          rw [this]
          simp
  · intro root header body b hd hn hw hc hb
    unfold saveAsGlb
    dsimp only
    rw [splitext_glb hn, if_neg (by simp)]
    show (tryBody E _ temp root p).2 = _
    unfold tryBody
    dsimp only
    obtain ⟨h1, h2, h3⟩ := writeAll_isDir temp (E.write root).1 ((os.mkdtemp temp).chdir temp)
    rw [hw]
    dsimp only
    rw [writeAll_contents temp _ ((os.mkdtemp temp).chdir temp) (fun n => hf.2 temp n (List.prefix_refl _)), hc]
    dsimp only
    unfold exportTo
    rw [h1, show Os.resolve _ p = temp by unfold Os.resolve; rw [if_neg (by simp [hp]), h2, hd, List.append_nil]; rfl]
    rw [if_pos (by show (if temp = temp then true else _) = true; simp)]
    unfold exportFile
    rw [hb]

/-- A name without the extension is refused, but the temporary folder stays. -/
theorem C99_bad_name (E : Exporter) {os : Os} {temp : Dir} {p : GlbPath} (hn : ∀ root, ¬ GlbName p.name root) :
    (saveAsGlb E os temp p).2 = .error .assertionError ∧ (saveAsGlb E os temp p).1.file = os.file ∧
    (saveAsGlb E os temp p).1.isDir temp = true := by
  have hx : (splitext p.name).2 ≠ ".glb" := fun h => by
    obtain ⟨root, hr⟩ := splitext_only h
    exact hn root hr
  unfold saveAsGlb
  dsimp only
  rw [if_pos hx]
  exact ⟨rfl, rfl, by simp [Os.mkdtemp]⟩

/-- An exporter that always succeeds. -/
def exExporter : Exporter :=
  ⟨fun root => ([(root ++ ".gltf", [123, 125])], .ok ()), fun _ _ => .ok ([123, 125], ⟨4, [(0, [1, 2, 3, 4])]⟩)⟩

/-- A home directory. -/
def exOs : Os := ⟨["home"], fun d => d == [] || d == ["home"] || d == ["tmp"], fun _ _ => none⟩

theorem exOs_fresh : Fresh exOs ["tmp", "x1"] := by
  refine ⟨fun d h => ?_, fun _ _ _ => rfl⟩
  rcases h with ⟨l, rfl⟩
  simp [exOs]

/-- The hypotheses of the theorems are met; and **C99** is false: with the same model, the same working directory `/home` and the
same file, `/home/a.glb` gets written, `a.glb` returns normally without a file being there, and `home/a.glb` in `/` raises. -/
theorem C99_false :
    (saveAsGlb exExporter exOs ["tmp", "x1"] ⟨true, ["home"], "a.glb"⟩).2 = .ok () ∧
    ((saveAsGlb exExporter exOs ["tmp", "x1"] ⟨true, ["home"], "a.glb"⟩).1.file ["home"] "a.glb").isSome = true ∧
    (saveAsGlb exExporter exOs ["tmp", "x1"] ⟨false, [], "a.glb"⟩).2 = .ok () ∧
    (∀ d n, (saveAsGlb exExporter exOs ["tmp", "x1"] ⟨false, [], "a.glb"⟩).1.file d n = none) ∧
    (saveAsGlb exExporter (exOs.chdir []) ["tmp", "x1"] ⟨false, ["home"], "a.glb"⟩).2 = .error .ioError := by
  have hb : ∃ b, exportString [123, 125] ⟨4, [(0, [1, 2, 3, 4])]⟩ = .ok b := ⟨_, rfl⟩
  obtain ⟨b, hb⟩ := hb
  have hn : GlbName "a.glb" "a" := ⟨by decide, 'a', by decide, by decide⟩
  have h1 := C99_partial exExporter (p := ⟨true, ["home"], "a.glb"⟩) exOs_fresh rfl hn rfl rfl rfl hb
  have h2 := C99_relative exExporter (p := ⟨false, [], "a.glb"⟩) exOs_fresh rfl
  refine ⟨h1.1, by rw [h1.2]; rfl, h2.2.2 "a" _ _ b rfl hn rfl rfl hb, fun d n => by rw [h2.1]; rfl, ?_⟩
  unfold saveAsGlb
  rw [splitext_glb hn]
  rfl

end GlbSave
end Sumo
