import Verif.Spec.Project
import Verif.Props.Scene
import Verif.Props.TinyGltf

/-! # Lemmas about project folders -/

namespace Sumo
namespace Project

open GlbSave

/-! ### Paths -/

theorem splitSlash_plain : ∀ {l : List Char}, '/' ∉ l → splitSlash l = [l]
  | [], _ => rfl
  | c :: l, h => by
    simp only [List.mem_cons, not_or] at h
    unfold splitSlash
    rw [if_neg (fun e => h.1 e.symm), splitSlash_plain h.2]

theorem components_name {s : String} (h : FileName s) : components s = [s] := by
  unfold components
  rw [splitSlash_plain h.2, List.filter_cons_of_pos (by
    simp only [decide_not, Bool.not_eq_eq_eq_not, Bool.not_true, decide_eq_false_iff_not]
    intro e
    exact h.1 (by rw [← String.toList_inj, e]; rfl))]
  simp

theorem head_name {s : String} (h : '/' ∉ s.toList) : ¬ s.toList.head? = some '/' := by
  intro e
  exact h (List.mem_of_head? e)

theorem join_name (p : Path) {s : String} (h : FileName s) : p.join s = ⟨p.absolute, p.parts ++ [s]⟩ := by
  unfold Path.join
  rw [if_neg (head_name h.2), components_name h]

theorem fileName_ext {s e : String} (h : '/' ∉ s.toList) (he : FileName e) : FileName (s ++ e) := by
  refine ⟨fun h' => he.1 ?_, ?_⟩
  · have := congrArg String.toList h'
    rw [String.toList_append] at this
    rw [← String.toList_inj]
    exact (List.append_eq_nil_iff.1 this).2
  · rw [String.toList_append, List.mem_append]
    exact fun h' => h'.elim h he.2

theorem fileName_glb : FileName ".glb" := ⟨by decide, by decide⟩
theorem fileName_h5 : FileName ".h5" := ⟨by decide, by decide⟩
theorem fileName_xml : FileName ".xml" := ⟨by decide, by decide⟩

/-- A file in a folder. -/
theorem join_file (p : Path) {s : String} (h : FileName s) : (p.join s).file = ⟨p.absolute, p.parts, s⟩ := by
  rw [join_name p h]
  simp [Path.file]

theorem resolve_file (p : Path) (os : Os) (s : String) : os.resolve ⟨p.absolute, p.parts, s⟩ = p.dir os := rfl

theorem read_file (p : Path) (os : Os) {s : String} (h : FileName s) : (p.join s).read os = os.file (p.dir os) s := by
  unfold Path.read
  rw [join_file p h, resolve_file]

theorem dir_join (p : Path) (os : Os) {s : String} (h : FileName s) : (p.join s).dir os = p.dir os ++ [s] := by
  rw [join_name p h]
  unfold Path.dir
  dsimp only
  split_ifs
  · rfl
  · rw [List.append_assoc]

theorem dir_cwd (p : Path) {os os' : Os} (h : os'.cwd = os.cwd) : p.dir os' = p.dir os := by unfold Path.dir; rw [h]

/-! ### Changes -/

theorem runAll_append (os : Os) (a b : List Effect) : runAll os (a ++ b) = runAll (runAll os a) b := by
  unfold runAll; rw [List.foldl_append]

theorem runAll_writes (temp : Dir) (l : List (String × List UInt8)) (os : Os) :
    runAll os (l.map fun f => .write temp f.1 f.2) = l.foldl (fun os f => os.write temp f.1 f.2) os := by
  unfold runAll; rw [List.foldl_map]; rfl

/-- The changes of `save_as_glb`, one after the other, are what it does. -/
theorem glbEffects_run (X : Exporter) (os : Os) (temp : Dir) (p : GlbPath) :
    (runAll os (glbEffects X os temp p).1, (glbEffects X os temp p).2) = saveAsGlb X os temp p := by
  unfold glbEffects saveAsGlb
  dsimp only
  by_cases hx : (splitext p.name).2 ≠ ".glb"
  · rw [if_pos hx, if_pos hx]; rfl
  · rw [if_neg hx, if_neg hx]
    have e : runAll os ([.mkdtemp temp, .chdir temp] ++ (X.write (splitext p.name).1).1.map fun f => .write temp f.1 f.2) =
        (X.write (splitext p.name).1).1.foldl (fun os f => os.write temp f.1 f.2) ((os.mkdtemp temp).chdir temp) := by
      rw [runAll_append, runAll_writes]; rfl
    unfold tryBody
    rw [e]
    dsimp only
    cases hw : (X.write (splitext p.name).1).2 with
    | error err =>
      dsimp only
      rw [runAll_append, e]; rfl
    | ok u =>
      dsimp only
      cases hc : X.convert (splitext p.name).1 (((X.write (splitext p.name).1).1.foldl (fun os f => os.write temp f.1 f.2)
          ((os.mkdtemp temp).chdir temp)).file temp) with
      | error err =>
        dsimp only
        rw [runAll_append, e]; rfl
      | ok hb =>
        dsimp only
        unfold exportTo
        split_ifs with hi
        · rw [runAll_append, runAll_append, e]; rfl
        · rw [runAll_append, e]; rfl

/-- What `save_as_glb` puts in the file are the bytes of the model. -/
theorem glbBytes_saved {W : Gltf.Writer} {M : Gltf.Model} {os : Os} {temp : Dir} {p : GlbPath} {root : String}
    (hf : Fresh os temp) (hp : p.absolute = true) (hn : GlbName p.name root) (hd : os.isDir p.dirs = true)
    (h : (saveAsGlb (Gltf.exporter W M) os temp p).2 = .ok ()) :
    ∃ b, glbBytes W root M = .ok b ∧ (saveAsGlb (Gltf.exporter W M) os temp p).1.file p.dirs p.name = some b := by
  have key : ∀ header body b, ((Gltf.exporter W M).write root).2 = .ok () → (Gltf.exporter W M).convert root
      (contents ((Gltf.exporter W M).write root).1) = .ok (header, body) → exportString header body = .ok b →
      ∃ b, glbBytes W root M = .ok b ∧ (saveAsGlb (Gltf.exporter W M) os temp p).1.file p.dirs p.name = some b := by
    intro header body b h1 h2 h3
    refine ⟨b, ?_, (C99_partial (Gltf.exporter W M) hf hp hn hd h1 h2 h3).2⟩
    unfold glbBytes
    cases hw : (Gltf.exporter W M).write root with
    | mk written r =>
      rw [hw] at h1 h2
      dsimp only at h1 h2 ⊢
      subst h1
      dsimp only
      rw [show lastWritten written = contents written from rfl, h2]
      exact h3
  have ht : ¬ temp <+: p.dirs := fun h => by rw [hf.1 _ h] at hd; cases hd
  have hne : p.dirs ≠ temp := fun e => ht (e ▸ List.prefix_refl _)
  unfold saveAsGlb at h
  dsimp only at h
  rw [splitext_glb hn, if_neg (by simp)] at h
  dsimp only at h
  unfold tryBody at h
  dsimp only at h
  obtain ⟨h1, h2, h3⟩ := writeAll_isDir temp ((Gltf.exporter W M).write root).1 ((os.mkdtemp temp).chdir temp)
  cases hw : ((Gltf.exporter W M).write root).2 with
  | error e => rw [hw] at h; cases h
  | ok u =>
    rw [hw] at h
    dsimp only at h
    rw [writeAll_contents temp _ ((os.mkdtemp temp).chdir temp) (fun n => hf.2 temp n (List.prefix_refl _))] at h
    cases hc : (Gltf.exporter W M).convert root (contents ((Gltf.exporter W M).write root).1) with
    | error e => rw [hc] at h; cases h
    | ok hb =>
      rw [hc] at h
      dsimp only at h
      unfold exportTo exportFile at h
      cases hs : exportString hb.1 hb.2 with
      | error e =>
        rw [hs] at h
        dsimp only at h
        split_ifs at h
      | ok b => exact key hb.1 hb.2 b hw hc hs

/-! ### Saving -/

/-- Nothing changed except files in one folder. -/
structure Quiet (D : Dir) (os os' : Os) : Prop where
  cwd : os'.cwd = os.cwd
  isDir : os'.isDir = os.isDir
  file : ∀ d n, d ≠ D → os'.file d n = os.file d n

theorem Quiet.refl (D : Dir) (os : Os) : Quiet D os os := ⟨rfl, rfl, fun _ _ _ => rfl⟩

theorem Quiet.trans {D : Dir} {a b c : Os} (h : Quiet D a b) (k : Quiet D b c) : Quiet D a c :=
  ⟨k.cwd.trans h.cwd, k.isDir.trans h.isDir, fun d n hd => (k.file d n hd).trans (h.file d n hd)⟩

theorem Quiet.fresh {D temp : Dir} {a b : Os} (h : Quiet D a b) (ht : ¬ temp <+: D) (hf : Fresh a temp) : Fresh b temp :=
  ⟨fun d hd => by rw [h.isDir]; exact hf.1 d hd, fun d n hd => by
    rw [h.file d n (fun e => ht (e ▸ hd))]; exact hf.2 d n hd⟩

variable {E : Env} {printed : Gltf.Number → Option ℚ} {round : ℚ → ℚ}

/-- What is in the files of an object. -/
def InFiles (E : Env) (round : ℚ → ℚ) (os : Os) (D : Dir) (o : ProjectObject (ops E)) : Prop :=
  (o.projectType = "voxels" → ∀ v, o.voxels = some v → os.file D (o.id ++ ".h5") = some (E.h5Write ⟨v.voxels, v.scale, v.minCorner,
    v.sizeX, v.sizeY⟩)) ∧
  (o.projectType = "meshes" → ∃ (M : Gltf.Model) (ms : List AnyMesh) (b : List UInt8), o.meshes = some M ∧ M.primitiveMeshes = .ok ms ∧
    glbBytes E.W o.id M = .ok b ∧ os.file D (o.id ++ ".glb") = some b ∧ (b.length < 2 ^ 31 → ∃ N ns, Gltf.loadGlb E.L (some b) = .ok N ∧
      N.primitiveMeshes = .ok ns ∧ List.Forall₂ (Gltf.MeshBack round) ms ns))

theorem whole_bounds (hE : E.Faithful printed round) {o : ProjectObject (ops E)} (h : Whole E o) :
    ∃ b, o.xmlBounds = .ok b ∧ OwnBounds o b ∧ ∃ c1 c2, b = Box3d.mk' c1 c2 := by
  unfold ProjectObject.xmlBounds OwnBounds
  rcases h.shape with ⟨ht, -, -, c1, c2, hb⟩ | ⟨ht, -, -, v, hv, hne, -⟩ | ⟨ht, -, -, M, l, hm, hh, -, -⟩
  · exact ⟨Box3d.mk' c1 c2, by rw [ht, hb]; rfl, Or.inl ⟨ht, hb⟩, c1, c2, rfl⟩
  · have : ∃ b, v.bounds = .ok b := by
      unfold VoxelGrid.bounds VoxelGrid.voxelCenters
      cases hl : v.voxels with
      | nil => exact absurd hl hne
      | cons a l => exact ⟨_, rfl⟩
    obtain ⟨b, hb⟩ := this
    exact ⟨b, by rw [ht, hv]; exact hb, Or.inr (Or.inl ⟨ht, v, hv, hb⟩), bounds_built hb⟩
  · obtain ⟨-, ms, hms, -⟩ := Gltf.sane hE.gltf hh
    have hvs : (ops E).vertices M = .ok (ms.map verticesOf) := by
      show (M.primitiveMeshes.bind fun ms => .ok (ms.map verticesOf)) = _
      rw [hms]; rfl
    refine ⟨bboxOfMeshes (ms.map verticesOf), ?_, Or.inr (Or.inr ⟨ht, M, _, hm, hvs, rfl⟩), merge_built _⟩
    rw [ht, hm]
    show ((ops E).vertices M).bind _ = _
    rw [hvs]; rfl

theorem toInt32_small {n : ℤ} (h : 0 ≤ n ∧ n < 2 ^ 31) : toInt32 n = n := by
  unfold toInt32; rw [if_pos ⟨by omega, h.2⟩]

/-- Saving an object. -/
theorem saveObject_whole (hE : E.Faithful printed round) {o : ProjectObject (ops E)} (h : Whole E o) {os : Os} {temp : Dir} {folder : Path}
    (hf : Fresh os temp) (hd : os.isDir (folder.dir os) = true) (hp : folder.absolute = true ∨ o.projectType ≠ "meshes")
    {x : Box3d ℚ} (hb : o.xmlBounds = .ok x) :
    ∃ fx r, saveObject E os temp folder o = (o, fx, r) ∧ Quiet (folder.dir os) os (runAll os fx) ∧
      (∀ n, n ≠ o.id → (runAll os fx).file (folder.dir os) (n ++ ".glb") = os.file (folder.dir os) (n ++ ".glb") ∧
        (runAll os fx).file (folder.dir os) (n ++ ".h5") = os.file (folder.dir os) (n ++ ".h5")) ∧
      (r = .error .structError ∧ o.projectType = "meshes" ∨
        r = .ok (elementXml E.T o x) ∧ InFiles E round (runAll os fx) (folder.dir os) o) := by
  have hx : o.toXml E.T = .ok (elementXml E.T o x) := by
    unfold ProjectObject.toXml; rw [hb]; rfl
  have ext : ∀ a b : String, a ++ ".glb" ≠ b ++ ".h5" := by
    intro a b e
    have := congrArg (fun s : String => s.toList.reverse.head?) e
    simp [String.toList_append] at this
  unfold saveObject
  rw [hx]
  dsimp only
  rcases h.shape with ⟨ht, -, hm, -⟩ | ⟨ht, -, hid, v, hv, hne, h32⟩ | ⟨ht, -, ⟨hid, hdot⟩, M, l, hm, hh, hg, -⟩
  · rw [if_neg (by rw [ht]; decide), if_neg (by rw [ht]; decide)]
    refine ⟨[], _, rfl, Quiet.refl _ _, fun _ _ => ⟨rfl, rfl⟩, Or.inr ⟨rfl, ?_⟩⟩
    exact ⟨fun e => absurd (ht.symm.trans e) (by decide), fun e => absurd (ht.symm.trans e) (by decide)⟩
  · rw [if_neg (by rw [ht]; decide), if_pos ht, hv]
    dsimp only
    rw [join_file folder (fileName_ext hid fileName_h5), resolve_file, if_pos hd]
    have hw : ∀ d n, (runAll os [.write (folder.dir os) (o.id ++ ".h5") (E.h5Write ⟨v.voxels.map fun i => ⟨toInt32 i.x, toInt32 i.y, toInt32 i.z⟩, v.scale,
            v.minCorner, v.sizeX, v.sizeY⟩)]).file d n = if d = folder.dir os ∧ n = o.id ++ ".h5" then some (E.h5Write ⟨v.voxels.map fun i => ⟨toInt32 i.x, toInt32 i.y, toInt32 i.z⟩, v.scale,
            v.minCorner, v.sizeX, v.sizeY⟩) else os.file d n := fun _ _ => rfl
    refine ⟨_, _, rfl, ⟨rfl, rfl, fun d n hdn => ?_⟩, fun n hn => ⟨?_, ?_⟩, Or.inr ⟨rfl, ?_⟩⟩
    · rw [hw, if_neg (fun e => hdn e.1)]
    · rw [hw, if_neg (fun e => ext _ _ e.2)]
    · rw [hw, if_neg (fun e => hn (append_right_inj'.1 e.2))]
    · refine ⟨fun _ w hw' => ?_, fun e => absurd (ht.symm.trans e) (by decide)⟩
      rw [hw, if_pos ⟨rfl, rfl⟩]
      rw [hv] at hw'
      cases hw'
      have : (v.voxels.map fun i => (⟨toInt32 i.x, toInt32 i.y, toInt32 i.z⟩ : Vec3 ℤ)) = v.voxels := by
        conv_rhs => rw [← List.map_id v.voxels]
        apply List.map_congr_left
        intro i hi
        obtain ⟨a, b, c⟩ := h32 i hi
        rw [toInt32_small a, toInt32_small b, toInt32_small c]
        rfl
      rw [this]
  · have ha : folder.absolute = true := hp.resolve_right (fun e => e ht)
    have hdir : folder.dir os = folder.parts := by unfold Path.dir; rw [if_pos ha]
    rw [if_pos ht, hm]
    dsimp only
    have hfn : FileName (o.id ++ ".glb") := fileName_ext hid.1 fileName_glb
    rw [join_file folder hfn]
    have hname : GlbName (o.id ++ ".glb") o.id := ⟨rfl, hdot⟩
    have hroot : Gltf.RootName (o.id ++ ".glb") := by
      refine ⟨hfn.2, ?_⟩
      rw [String.toList_append, List.mem_append]
      exact fun h' => h'.elim hid.2 (by decide)
    rw [hdir] at hd
    obtain ⟨ms, os', r, w, hms, hsave, hr⟩ := Gltf.C121_partial hE.gltf hh hg (p := ⟨folder.absolute, folder.parts, o.id ++ ".glb"⟩) hf ha hname hroot hd
    have hfx := glbEffects_run (Gltf.exporter E.W M) os temp ⟨folder.absolute, folder.parts, o.id ++ ".glb"⟩
    have hos : saveAsGlb (Gltf.exporter E.W M) os temp ⟨folder.absolute, folder.parts, o.id ++ ".glb"⟩ = (os', r) := congrArg Prod.snd hsave
    rw [hos] at hfx
    obtain ⟨hfx1, hfx2⟩ := Prod.mk.inj hfx
    obtain ⟨s1, s2⟩ := C99_side_effects (Gltf.exporter E.W M) ⟨folder.absolute, folder.parts, o.id ++ ".glb"⟩ hf
    have s3 := C99_working_directory (Gltf.exporter E.W M) os temp ⟨folder.absolute, folder.parts, o.id ++ ".glb"⟩
    rw [hos] at s1 s2 s3
    have hmodel : (Gltf.saveAsGlb E.W M os temp ⟨folder.absolute, folder.parts, o.id ++ ".glb"⟩).1 = M := by rw [hsave]
    refine ⟨(glbEffects (Gltf.exporter E.W M) os temp ⟨folder.absolute, folder.parts, o.id ++ ".glb"⟩).1,
      (glbEffects (Gltf.exporter E.W M) os temp ⟨folder.absolute, folder.parts, o.id ++ ".glb"⟩).2.map fun _ => elementXml E.T o x, ?_, ?_, ?_, ?_⟩
    · rw [hmodel]
      have ho : { o with meshes := some M } = o := by
        rw [← hm]
      rw [ho]
    · rw [hfx1, hdir]
      exact ⟨s3, s2 _ hname, fun d n hdn => s1 d n (fun e => hdn e.2.1)⟩
    · intro n hn
      rw [hfx1, hdir]
      exact ⟨s1 _ _ (fun e => hn (append_right_inj'.1 e.2.2)), s1 _ _ (fun e => ext _ _ e.2.2.symm)⟩
    · rw [hfx2, hfx1, hdir]
      rcases hr with ⟨hr, -⟩ | ⟨hr, b, g1, -, -, g2⟩
      · left
        rw [hr]
        exact ⟨rfl, ht⟩
      · right
        refine ⟨by rw [hr]; rfl, fun e => absurd (ht.symm.trans e) (by decide), fun _ => ?_⟩
        obtain ⟨b', k1, k2⟩ := glbBytes_saved (W := E.W) (M := M) hf ha hname hd (by rw [hos]; exact hr)
        rw [hos] at k2
        have : b' = b := Option.some.inj (k2.symm.trans g1)
        subst this
        exact ⟨M, ms, b', hm, hms, k1, g1, (g2 E.L.file).2⟩

theorem InFiles.later {os os' : Os} {D : Dir} {o : ProjectObject (ops E)} (h : InFiles E round os D o)
    (h1 : os'.file D (o.id ++ ".glb") = os.file D (o.id ++ ".glb")) (h2 : os'.file D (o.id ++ ".h5") = os.file D (o.id ++ ".h5")) :
    InFiles E round os' D o := by
  refine ⟨fun ht v hv => by rw [h2]; exact h.1 ht v hv, fun ht => ?_⟩
  obtain ⟨M, ms, b, a1, a2, a3, a4, a5⟩ := h.2 ht
  exact ⟨M, ms, b, a1, a2, a3, by rw [h1]; exact a4, a5⟩

/-- Saving objects. -/
theorem saveObjects_whole (hE : E.Faithful printed round) {folder : Path} : ∀ (l : List (ProjectObject (ops E))) (os : Os) (temps : ℕ → Dir),
    (∀ o ∈ l, Whole E o) → (l.map (·.id)).Nodup → (∀ i, Fresh os (temps i) ∧ ¬ temps i <+: folder.dir os) →
    os.isDir (folder.dir os) = true → (folder.absolute = true ∨ ∀ o ∈ l, o.projectType ≠ "meshes") →
    ∃ fx r, saveObjects E folder os temps l = (l, fx, r) ∧ Quiet (folder.dir os) os (runAll os fx) ∧
      (∀ n, n ∉ l.map (·.id) → (runAll os fx).file (folder.dir os) (n ++ ".glb") = os.file (folder.dir os) (n ++ ".glb") ∧
        (runAll os fx).file (folder.dir os) (n ++ ".h5") = os.file (folder.dir os) (n ++ ".h5")) ∧
      (r = .error .structError ∧ (∃ o ∈ l, o.projectType = "meshes") ∨ ∃ xs, r = .ok xs ∧
        List.Forall₂ (fun o x => ∃ b, o.xmlBounds = .ok b ∧ OwnBounds o b ∧ (∃ c1 c2, b = Box3d.mk' c1 c2) ∧
          x = elementXml E.T o b) l xs ∧
        ∀ o ∈ l, InFiles E round (runAll os fx) (folder.dir os) o) := by
  intro l
  induction l with
  | nil =>
    intro os temps _ _ _ _ _
    exact ⟨[], .ok [], rfl, Quiet.refl _ _, fun _ _ => ⟨rfl, rfl⟩, Or.inr ⟨[], rfl, .nil, by simp⟩⟩
  | cons o l ih =>
    intro os temps hw hn ht hd hp
    obtain ⟨x, hx, hob, hbb⟩ := whole_bounds hE (hw o List.mem_cons_self)
    obtain ⟨fx, r, e1, q1, k1, hr⟩ := saveObject_whole hE (hw o List.mem_cons_self) (ht 0).1 hd
      (hp.imp id (fun h => h o List.mem_cons_self)) hx
    have hnd := List.nodup_cons.1 hn
    unfold saveObjects
    rw [e1]
    rcases hr with ⟨rfl, hm⟩ | ⟨rfl, hin⟩
    · refine ⟨fx, _, rfl, q1, fun n hn' => k1 n (fun e => hn' (by simp [e])), Or.inl ⟨rfl, o, List.mem_cons_self, hm⟩⟩
    · dsimp only
      have hdir : folder.dir (runAll os fx) = folder.dir os := dir_cwd folder q1.cwd
      obtain ⟨fx', r', e2, q2, k2, hr'⟩ := ih (runAll os fx) (fun i => temps (i + 1)) (fun o' ho' => hw o' (List.mem_cons_of_mem _ ho'))
        hnd.2 (fun i => by rw [hdir]; exact ⟨q1.fresh (ht (i + 1)).2 (ht (i + 1)).1, (ht (i + 1)).2⟩)
        (by rw [hdir, q1.isDir]; exact hd) (hp.imp id (fun h o' ho' => h o' (List.mem_cons_of_mem _ ho')))
      rw [hdir] at q2 k2 hr'
      rw [e2]
      dsimp only
      refine ⟨fx ++ fx', r'.map fun xs => elementXml E.T o x :: xs, rfl, ?_, ?_, ?_⟩
      · rw [runAll_append]; exact q1.trans q2
      · intro n hn'
        simp only [List.map_cons, List.mem_cons, not_or] at hn'
        rw [runAll_append, (k2 n hn'.2).1, (k2 n hn'.2).2]
        exact k1 n hn'.1
      · rcases hr' with ⟨rfl, o', ho', hm⟩ | ⟨xs, rfl, hf, hin'⟩
        · exact Or.inl ⟨rfl, o', List.mem_cons_of_mem _ ho', hm⟩
        · refine Or.inr ⟨_, rfl, .cons ⟨x, hx, hob, hbb, rfl⟩ hf, ?_⟩
          intro o' ho'
          rw [runAll_append]
          rcases List.mem_cons.1 ho' with rfl | ho'
          · exact hin.later (k2 _ hnd.1).1 (k2 _ hnd.1).2
          · exact hin' o' ho'

/-! ### Loading -/

theorem load_meshes {T : NumText} {G : MeshOps} {dir : ProjectDir G} {e : Xml} {id : String} {b : Box3d ℚ} {st : ProjectObject.Parsed}
    {f : G.File} {N : G.M} (hp : ProjectObject.parseXml T e = .ok (id, b, st)) (h1 : dir.glb.get? (id ++ ".glb") = some f)
    (h2 : G.loadGlb f = .ok N) : ProjectObject.load T "meshes" e dir =
      ProjectObject.genMeshes id (some b) (some N) (some st.pose) st.category st.symmetry st.score st.evaluated := by
  unfold ProjectObject.load
  simp only [hp, bind, Except.bind, if_neg (show ¬ "meshes" = "bounding_box" by decide), if_neg (show ¬ "meshes" = "voxels" by decide),
    if_true, h1, h2]

theorem loadObject_meshes {os : Os} {folder : Path} {e : Xml} {id : String} {b : Box3d ℚ} {st : ProjectObject.Parsed}
    {N : Gltf.Model} (hp : ProjectObject.parseXml E.T e = .ok (id, b, st))
    (h2 : Gltf.loadGlb E.L ((folder.join (id ++ ".glb")).read os) = .ok N) : loadObject E os "meshes" e folder =
      ProjectObject.genMeshes (G := ops E) id (some b) (some N) (some st.pose) st.category st.symmetry st.score st.evaluated := by
  unfold loadObject
  simp only [hp, bind, Except.bind, if_neg (show ¬ "meshes" = "bounding_box" by decide), if_neg (show ¬ "meshes" = "voxels" by decide),
    if_true, h2]

/-- Loading an object from its files. -/
theorem loadObject_back (hE : E.Faithful printed round) {o : ProjectObject (ops E)} (h : Whole E o) {b : Box3d ℚ} (hob : OwnBounds o b)
    (hbb : ∃ c1 c2, b = Box3d.mk' c1 c2) {os : Os} {folder : Path} (hin : InFiles E round os (folder.dir os) o)
    (hsmall : o.projectType = "meshes" → ∀ b, os.file (folder.dir os) (o.id ++ ".glb") = some b → b.length < 2 ^ 31) :
    ∃ o', loadObject E os o.projectType (elementXml E.T o b) folder = .ok o' ∧ Back E round o o' := by
  have hps := parseXml_element E.T o b h.symmetry
  have fromLoad : ∀ (dir : ProjectDir (ops E)), Savable o → Stored o dir →
      loadObject E os o.projectType (elementXml E.T o b) folder = ProjectObject.load E.T o.projectType (elementXml E.T o b) dir →
      ((o.meshes = none) ∨ ∃ (M : Gltf.Model) (ms : List AnyMesh), o.meshes = some M ∧ M.primitiveMeshes = .ok ms ∧
        ∀ f N, glbBytes E.W o.id M = .ok f → Gltf.loadGlb E.L (some f) = .ok N → ∃ ns, N.primitiveMeshes = .ok ns ∧
          List.Forall₂ (Gltf.MeshBack round) ms ns) →
      ∃ o', loadObject E os o.projectType (elementXml E.T o b) folder = .ok o' ∧ Back E round o o' := by
    intro dir hsav hst e hm
    obtain ⟨o', g1, g2⟩ := load_element E.T hsav hob hbb hst
    refine ⟨o', e.trans g1, g2.id, g2.projectType, g2.category, g2.symmetry, g2.score, g2.evaluated, g2.pose, g2.poseExact, g2.bounds,
      g2.voxels, ?_⟩
    rcases g2.meshes with hn | ⟨m, f, m', a1, a2, a3, a4⟩
    · exact Or.inl hn
    · right
      rcases hm with hm | ⟨M, ms, c1, c2, c3⟩
      · rw [hm] at a1; cases a1
      · rw [a1] at c1
        cases c1
        obtain ⟨ns, d1, d2⟩ := c3 f m' a2 a3
        exact ⟨m, m', ms, ns, a1, a4, c2, d1, d2⟩
  rcases h.shape with hs | ⟨ht, hm, hid, v, hv, hne, h32⟩ | ⟨ht, hvn, ⟨hid, hdot⟩, M, l, hm, hh, hg, -⟩
  · refine fromLoad ⟨[], [], none⟩ ⟨h.symmetry, Or.inl hs⟩ ⟨fun e => absurd (hs.1.symm.trans e) (by decide),
      fun e => absurd (hs.1.symm.trans e) (by decide)⟩ ?_ (Or.inl hs.2.2.1)
    unfold loadObject ProjectObject.load
    rw [hps, hs.1]
    rfl
  · refine fromLoad ⟨[(o.id ++ ".h5", ⟨v.voxels, v.scale, v.minCorner, v.sizeX, v.sizeY⟩)], [], none⟩
      ⟨h.symmetry, Or.inr (Or.inl ⟨ht, hm, hid, v, hv, hne, h32⟩)⟩ ⟨fun _ => ?_, fun e => absurd (ht.symm.trans e) (by decide)⟩ ?_ (Or.inl hm)
    · rw [hv]
      simp [VoxelGrid.load, Dict.get?]
    · unfold loadObject ProjectObject.load
      rw [hps]
      simp only [bind, Except.bind, if_neg (show ¬ o.projectType = "bounding_box" by rw [ht]; decide), if_pos ht]
      rw [read_file folder os (fileName_ext hid fileName_h5), hin.1 ht v hv, Option.bind_some, hE.h5]
      simp [VoxelGrid.load, Dict.get?]
  · obtain ⟨M', ms, f, a1, a2, a3, a4, a5⟩ := hin.2 ht
    obtain ⟨N, ns, n1, n2, n3⟩ := a5 (hsmall ht f a4)
    have hvs : (ops E).vertices M' = .ok (ms.map verticesOf) := by
      show (M'.primitiveMeshes.bind fun ms => .ok (ms.map verticesOf)) = _
      rw [a2]; rfl
    refine fromLoad ⟨[], [(o.id ++ ".glb", f)], none⟩ ⟨h.symmetry, Or.inr (Or.inr ⟨ht, hvn, ⟨hid.1, hdot⟩, M', _, f, N, a1, hvs, a3, n1⟩)⟩
      ⟨fun e => absurd (ht.symm.trans e) (by decide), fun _ => ⟨M', f, a1, a3, by simp [Dict.get?]⟩⟩ ?_
      (Or.inr ⟨M', ms, a1, a2, fun f' N' b1 b2 => ?_⟩)
    · rw [ht, load_meshes (G := ops E) hps (f := f) (N := N) (by simp [Dict.get?]) n1]
      exact loadObject_meshes hps (by rw [read_file folder os (fileName_ext hid.1 fileName_glb), a4, n1])
    · rw [a3] at b1
      cases b1
      rw [n1] at b2
      cases b2
      exact ⟨ns, n2, n3⟩

/-- Loading objects from their files. -/
theorem loadObjects_back {os : Os} {folder : Path} {pt : String} : ∀ (l : List (ProjectObject (ops E))) (xs : List Xml),
    List.Forall₂ (fun o x => x.tag = "element" ∧ ∃ o', loadObject E os pt x folder = .ok o' ∧ Back E round o o') l xs →
    (l.map (·.id)).Nodup → ∀ d : ObjectDict (ops E), (∀ o ∈ l, o.id ∉ d.keys) →
    ∃ l', xs.foldlM (fun (d : ObjectDict (ops E)) (c : Xml) =>
      if c.tag = "element" then
        match loadObject E os pt c folder with
        | .error err => .error err
        | .ok po => .ok (d.set po.id po)
      else .ok d) d = (.ok (d ++ l'.map (fun o => (o.id, o))) : Except PyErr (ObjectDict (ops E))) ∧
      List.Forall₂ (Back E round) l l' := by
  intro l xs h
  induction h with
  | nil => intro _ d _; exact ⟨[], by simp [pure, Except.pure], .nil⟩
  | @cons o x l xs hx _ ih =>
    intro hn d hd
    obtain ⟨ht, o', hl, hb⟩ := hx
    have hnd := List.nodup_cons.1 hn
    have hset : d.set o'.id o' = d ++ [(o'.id, o')] := by
      rw [hb.id]
      exact Dict.set_of_not_mem (hd o List.mem_cons_self) _
    obtain ⟨l', h1, h2⟩ := ih hnd.2 (d ++ [(o'.id, o')]) (by
      intro p hp
      unfold Dict.keys
      rw [List.map_append, List.mem_append]
      rintro (h | h)
      · exact hd p (List.mem_cons_of_mem _ hp) h
      · simp only [List.map_cons, List.map_nil, List.mem_singleton] at h
        rw [hb.id] at h
        exact hnd.1 (List.mem_map.2 ⟨p, hp, h⟩))
    refine ⟨o' :: l', ?_, .cons hb h2⟩
    rw [List.foldlM_cons, if_pos ht, hl]
    simp only [bind, Except.bind, hset]
    rw [h1]
    simp

end Project
end Sumo
