import Verif.Lemmas.Project

/-! # Lemmas: a process killed while it saves a project -/

namespace Sumo
namespace Project

open GlbSave

/-! ### Changes that leave a file alone -/

/-- The change concerns this file. -/
def Touches (d : Dir) (n : String) : Effect → Prop
  | .write d' n' _ => d' = d ∧ n' = n
  | .rmtree t => t <+: d
  | _ => False

/-- The change concerns this directory. -/
def TouchesDir (d : Dir) : Effect → Prop
  | .mkdtemp t => d = t
  | .makedirs t => d <+: t
  | .rmtree t => t <+: d
  | _ => False

theorem partly_file {os os' : Os} {e : Effect} {d : Dir} {n : String} (h : Partly os e os') (ht : ¬ Touches d n e) :
    os'.file d n = os.file d n := by
  cases h with
  | write d' n' b k =>
    show (if d = d' ∧ n = n' then _ else _) = _
    rw [if_neg (fun h => ht ⟨h.1.symm, h.2.symm⟩)]
  | makedirs => rfl
  | rmtree t _ _ _ hf => exact (hf d n).resolve_right (fun h => ht h.1)

theorem partly_dir {os os' : Os} {e : Effect} {d : Dir} (h : Partly os e os') (ht : ¬ TouchesDir d e) :
    os'.isDir d = os.isDir d := by
  cases h with
  | write d' n' b k => rfl
  | makedirs t t' hp =>
    show (decide (d <+: t') || os.isDir d) = _
    rw [decide_eq_false (fun h => ht (h.trans hp)), Bool.false_or]
  | rmtree t _ _ hd _ => exact (hd d).resolve_right (fun h => ht h.1)

theorem run_file {os : Os} {e : Effect} {d : Dir} {n : String} (ht : ¬ Touches d n e) : (e.run os).file d n = os.file d n := by
  cases e with
  | write d' n' b =>
    show (if d = d' ∧ n = n' then _ else _) = _
    rw [if_neg (fun h => ht ⟨h.1.symm, h.2.symm⟩)]
  | rmtree t =>
    show (if t <+: d then none else _) = _
    exact if_neg ht
  | mkdtemp | makedirs | chdir => rfl

theorem run_dir {os : Os} {e : Effect} {d : Dir} (ht : ¬ TouchesDir d e) : (e.run os).isDir d = os.isDir d := by
  cases e with
  | mkdtemp t =>
    show (if d = t then true else _) = _
    exact if_neg ht
  | makedirs t =>
    show (decide (d <+: t) || os.isDir d) = _
    rw [decide_eq_false (show ¬ d <+: t from ht), Bool.false_or]
  | rmtree t =>
    show (if t <+: d then false else _) = _
    exact if_neg ht
  | write | chdir => rfl

theorem killed_file {os os' : Os} {fx : List Effect} {d : Dir} {n : String} (h : Killed os fx os') (ht : ∀ e ∈ fx, ¬ Touches d n e) :
    os'.file d n = os.file d n := by
  induction h with
  | before => rfl
  | within hp => exact partly_file hp (ht _ List.mem_cons_self)
  | after _ ih => rw [ih (fun e he => ht e (List.mem_cons_of_mem _ he)), run_file (ht _ List.mem_cons_self)]

theorem killed_dir {os os' : Os} {fx : List Effect} {d : Dir} (h : Killed os fx os') (ht : ∀ e ∈ fx, ¬ TouchesDir d e) :
    os'.isDir d = os.isDir d := by
  induction h with
  | before => rfl
  | within hp => exact partly_dir hp (ht _ List.mem_cons_self)
  | after _ ih => rw [ih (fun e he => ht e (List.mem_cons_of_mem _ he)), run_dir (ht _ List.mem_cons_self)]

theorem killed_append {os os' : Os} {a b : List Effect} (h : Killed os (a ++ b) os') :
    Killed os a os' ∨ Killed (runAll os a) b os' := by
  induction a generalizing os with
  | nil => exact Or.inr h
  | cons e a ih =>
    cases h with
    | before => exact Or.inl (.before _ _)
    | within hp => exact Or.inl (.within hp)
    | after h => exact (ih h).imp .after id

theorem killed_all (os : Os) (fx : List Effect) : Killed os fx (runAll os fx) := by
  induction fx generalizing os with
  | nil => exact .before _ _
  | cons e fx ih => exact .after (ih _)

/-! ### The names of the files -/

theorem splitSlash_ne (l : List Char) : splitSlash l ≠ [] := by
  cases l with
  | nil => simp [splitSlash]
  | cons c l =>
    unfold splitSlash
    split_ifs
    · simp
    · split <;> simp

theorem splitSlash_append {e : List Char} (he : '/' ∉ e) : ∀ l : List Char,
    splitSlash (l ++ e) = (splitSlash l).dropLast ++ [(splitSlash l).getLastD [] ++ e]
  | [] => by
    rw [List.nil_append, splitSlash_plain he]
    rfl
  | c :: l => by
    have ih := splitSlash_append he l
    rw [List.cons_append]
    unfold splitSlash
    rw [ih]
    by_cases hc : c = '/'
    · rw [if_pos hc, if_pos hc]
      cases hs : splitSlash l with
      | nil => exact absurd hs (splitSlash_ne l)
      | cons p ps => simp
    · rw [if_neg hc, if_neg hc]
      cases hs : splitSlash l with
      | nil => rfl
      | cons p ps =>
        cases ps with
        | nil => rfl
        | cons q ps => simp

/-- The file name ends like the text that was joined. -/
theorem join_name_ends (p : Path) {s e : String} (he : FileName e) : ∃ m, (p.join (s ++ e)).file.name = m ++ e := by
  have hc : ∃ l m, components (s ++ e) = l ++ [m ++ e] := by
    unfold components
    rw [String.toList_append, splitSlash_append he.2, List.filter_append, List.map_append]
    refine ⟨_, String.ofList ((splitSlash s.toList).getLastD []), congrArg _ ?_⟩
    rw [List.filter_cons_of_pos (by
      simp only [decide_not, Bool.not_eq_eq_eq_not, Bool.not_true, decide_eq_false_iff_not]
      intro h
      exact he.1 (by rw [← String.toList_inj, (List.append_eq_nil_iff.1 h).2]; rfl))]
    simp [String.ofList_append]
  obtain ⟨l, m, hc⟩ := hc
  refine ⟨m, ?_⟩
  unfold Path.join Path.file
  split_ifs
  · simp [hc]
  · simp [hc, ← List.append_assoc]

/-- Changes made while an object is saved: in its temporary folder, or a file whose name tells that it belongs to an object; the
file is in the project folder or below the temporary one if the id has no slash. -/
def OfObject (temp D : Dir) (plain : Prop) : Effect → Prop
  | .mkdtemp t => t = temp
  | .makedirs _ => False
  | .chdir _ => True
  | .write d n _ => d = temp ∨ ((∃ m, n = m ++ ".glb" ∨ n = m ++ ".h5") ∧ (plain → d = D ∨ temp <+: d))
  | .rmtree t => t = temp

theorem glbEffects_of (X : Exporter) (os : Os) (temp D : Dir) (p : GlbPath) (plain : Prop)
    (h : plain → (p.absolute = true → p.dirs = D)) : ∀ e ∈ (glbEffects X os temp p).1, OfObject temp D plain e := by
  have hstart : ∀ root, ∀ e ∈ ([.mkdtemp temp, .chdir temp] ++ (X.write root).1.map fun f => .write temp f.1 f.2 : List Effect),
      OfObject temp D plain e := by
    intro root e he
    simp only [List.cons_append, List.nil_append, List.mem_cons, List.mem_map] at he
    rcases he with rfl | rfl | ⟨f, _, rfl⟩
    · rfl
    · trivial
    · exact Or.inl rfl
  have hfin : ∀ e ∈ ([.rmtree temp, .chdir os.cwd] : List Effect), OfObject temp D plain e := by
    intro e he
    simp only [List.mem_cons, List.not_mem_nil, or_false] at he
    rcases he with rfl | rfl
    · rfl
    · trivial
  have hboth : ∀ root, ∀ e ∈ ([.mkdtemp temp, .chdir temp] ++ (X.write root).1.map fun f => .write temp f.1 f.2 : List Effect) ++
      [.rmtree temp, .chdir os.cwd], OfObject temp D plain e := fun root e he =>
    (List.mem_append.1 he).elim (hstart root e) (hfin e)
  unfold glbEffects
  dsimp only
  by_cases hx : (splitext p.name).2 ≠ ".glb"
  · rw [if_pos hx]
    intro e he
    rw [List.mem_singleton] at he
    rw [he]
    rfl
  · rw [if_neg hx]
    obtain ⟨root, hroot⟩ := splitext_only (not_not.1 hx)
    split
    · exact hboth _
    · split
      · exact hboth _
      · split_ifs with hd
        · intro e he
          rw [List.mem_append, List.mem_append] at he
          rcases he with (he | he) | he
          · exact hstart _ e he
          · rw [List.mem_singleton] at he
            rw [he]
            refine Or.inr ⟨⟨root, Or.inl hroot.1⟩, fun hp => ?_⟩
            have hcwd : (runAll os ([.mkdtemp temp, .chdir temp] ++ (X.write (splitext p.name).1).1.map fun f => .write temp f.1 f.2)).cwd =
                temp := by
              rw [runAll_append, runAll_writes, (writeAll_isDir temp _ _).2.1]
              rfl
            unfold Os.resolve
            split_ifs with ha
            · exact Or.inl (h hp ha)
            · right
              rw [hcwd]
              exact List.prefix_append _ _
          · exact hfin e he
        · exact hboth _

variable {E : Env}

theorem glbEffects_cwd (X : Exporter) (os : Os) (temp : Dir) (p : GlbPath) : (runAll os (glbEffects X os temp p).1).cwd = os.cwd := by
  have := C99_working_directory X os temp p
  rw [← glbEffects_run] at this
  exact this

theorem saveObject_of {os : Os} {temp : Dir} {folder : Path} {o o' : ProjectObject (ops E)} {fx : List Effect} {r : Except PyErr Xml}
    (h : saveObject E os temp folder o = (o', fx, r)) :
    (∀ e ∈ fx, OfObject temp (folder.dir os) ('/' ∉ o.id.toList) e) ∧ (runAll os fx).cwd = os.cwd := by
  have nil : ∀ {o'' r'}, (o, ([] : List Effect), r') = (o'', fx, r) → (∀ e ∈ fx, OfObject temp (folder.dir os) ('/' ∉ o.id.toList) e) ∧
      (runAll os fx).cwd = os.cwd := by
    rintro o'' r' h
    cases h
    exact ⟨by simp, rfl⟩
  unfold saveObject at h
  cases hx : o.toXml E.T with
  | error e =>
    rw [hx] at h
    exact nil h
  | ok x =>
    rw [hx] at h
    dsimp only at h
    by_cases h1 : o.projectType = "meshes"
    · rw [if_pos h1] at h
      cases hm : o.meshes with
      | none =>
        rw [hm] at h
        exact nil h
      | some M =>
        rw [hm] at h
        obtain ⟨-, h⟩ := Prod.mk.inj h
        obtain ⟨rfl, -⟩ := Prod.mk.inj h
        refine ⟨glbEffects_of _ _ _ _ _ _ (fun hp ha => ?_), ?_⟩
        · rw [join_file folder (fileName_ext hp fileName_glb)] at ha ⊢
          unfold Path.dir
          rw [if_pos ha]
        · exact glbEffects_cwd _ _ _ _
    · rw [if_neg h1] at h
      by_cases h2 : o.projectType = "voxels"
      · rw [if_pos h2] at h
        cases hv : o.voxels with
        | none =>
          rw [hv] at h
          exact nil h
        | some v =>
          rw [hv] at h
          dsimp only at h
          by_cases hd : os.isDir (os.resolve (folder.join (o.id ++ ".h5")).file) = true
          · rw [if_pos hd] at h
            obtain ⟨-, h⟩ := Prod.mk.inj h
            obtain ⟨rfl, -⟩ := Prod.mk.inj h
            refine ⟨fun e he => ?_, rfl⟩
            rw [List.mem_singleton] at he
            rw [he]
            obtain ⟨m, hm⟩ := join_name_ends folder (s := o.id) fileName_h5
            refine Or.inr ⟨⟨m, Or.inr hm⟩, fun hp => Or.inl ?_⟩
            rw [join_file folder (fileName_ext hp fileName_h5), resolve_file]
          · rw [if_neg hd] at h
            exact nil h
      · rw [if_neg h2] at h
        exact nil h

theorem saveObjects_of {folder : Path} : ∀ (l : List (ProjectObject (ops E))) {os : Os} {temps : ℕ → Dir} {l' : List (ProjectObject (ops E))}
    {fx : List Effect} {r : Except PyErr (List Xml)}, saveObjects E folder os temps l = (l', fx, r) →
    (∀ e ∈ fx, ∃ i, OfObject (temps i) (folder.dir os) (∀ o ∈ l, '/' ∉ o.id.toList) e) ∧ (runAll os fx).cwd = os.cwd := by
  intro l
  induction l with
  | nil =>
    intro os temps l' fx r h
    unfold saveObjects at h
    cases h
    exact ⟨by simp, rfl⟩
  | cons o l ih =>
    intro os temps l' fx r h
    have weaken : ∀ {temp D : Dir} {p q : Prop} {e : Effect}, (q → p) → OfObject temp D p e → OfObject temp D q e := by
      intro temp D p q e hpq he
      cases e with
      | write d n b => exact he.imp id (fun h => ⟨h.1, fun hq => h.2 (hpq hq)⟩)
      | mkdtemp | makedirs | chdir | rmtree => exact he
    unfold saveObjects at h
    cases h1 : saveObject E os (temps 0) folder o with
    | mk o' rest =>
      obtain ⟨fx1, r1⟩ := rest
      obtain ⟨a1, a2⟩ := saveObject_of h1
      rw [h1] at h
      cases r1 with
      | error e =>
        dsimp only at h
        cases h
        exact ⟨fun e he => ⟨0, weaken (fun hq => hq o List.mem_cons_self) (a1 e he)⟩, a2⟩
      | ok x =>
        dsimp only at h
        cases h2 : saveObjects E folder (runAll os fx1) (fun i => temps (i + 1)) l with
        | mk l'' rest =>
          obtain ⟨fx2, r2⟩ := rest
          obtain ⟨b1, b2⟩ := ih h2
          rw [h2] at h
          dsimp only at h
          cases h
          refine ⟨fun e he => ?_, ?_⟩
          · rcases List.mem_append.1 he with he | he
            · exact ⟨0, weaken (fun hq => hq o List.mem_cons_self) (a1 e he)⟩
            · obtain ⟨i, hi⟩ := b1 e he
              rw [dir_cwd folder a2] at hi
              exact ⟨i + 1, weaken (fun hq o' ho' => hq o' (List.mem_cons_of_mem _ ho')) hi⟩
          · rw [runAll_append, b2, a2]

/-- The changes made while a scene is saved: the folder, the objects, the document. -/
theorem saveScene_of {h : Heap} {os : Os} {temps : ℕ → Dir} {path : Path} {name : String} {s s' : ProjectScene (ops E)}
    {fx : List Effect} {r : Except PyErr Unit} (hn : FileName name) (hs : saveScene E h os temps path name s = (s', fx, r)) :
    fx = [] ∧ r = .error .ioError ∨ ∃ mid,
      (∀ e ∈ mid, ∃ i, OfObject (temps i) (path.dir os ++ [name]) (∀ o ∈ s.elements.values, '/' ∉ o.id.toList) e) ∧
      (fx = .makedirs (path.dir os ++ [name]) :: mid ∧ r ≠ .ok () ∨
        ∃ doc, fx = .makedirs (path.dir os ++ [name]) :: mid ++ [.write (path.dir os ++ [name]) (name ++ ".xml") (E.xmlWrite doc)] ∧
          r = .ok ()) := by
  have hfolder : (path.join name).dir os = path.dir os ++ [name] := dir_join path os hn
  have hxml : FileName (name ++ ".xml") := fileName_ext hn.2 fileName_xml
  unfold saveScene at hs
  dsimp only at hs
  rw [hfolder] at hs
  by_cases hb : blocked os (path.dir os ++ [name]) = true
  · rw [if_pos hb] at hs
    cases hs
    exact Or.inl ⟨rfl, rfl⟩
  · right
    rw [if_neg hb] at hs
    cases hdoc : ProjectScene.document (h.cells s.settings) s.projectType (.node "elements" [] none []) with
    | error e =>
      rw [hdoc] at hs
      cases hs
      exact ⟨[], by simp, Or.inl ⟨rfl, by simp⟩⟩
    | ok doc0 =>
      rw [hdoc] at hs
      dsimp only at hs
      by_cases hc : (!s.constrained) = true
      · rw [if_pos hc] at hs
        cases hs
        exact ⟨[], by simp, Or.inl ⟨rfl, by simp⟩⟩
      · rw [if_neg hc] at hs
        cases h1 : saveObjects E (path.join name) (runAll os [.makedirs (path.dir os ++ [name])]) temps s.elements.values with
        | mk l rest =>
          obtain ⟨fx1, r1⟩ := rest
          obtain ⟨a1, a2⟩ := saveObjects_of _ h1
          rw [show (path.join name).dir (runAll os [.makedirs (path.dir os ++ [name])]) = path.dir os ++ [name] from
            (dir_cwd (os := os) (path.join name) rfl).trans hfolder] at a1
          rw [h1] at hs
          cases r1 with
          | error e =>
            dsimp only at hs
            cases hs
            exact ⟨fx1, a1, Or.inl ⟨rfl, by simp⟩⟩
          | ok xs =>
            dsimp only at hs
            cases hdoc2 : ProjectScene.document (h.cells s.settings) s.projectType (.node "elements" [] none xs) with
            | error e =>
              rw [hdoc2] at hs
              cases hs
              exact ⟨fx1, a1, Or.inl ⟨rfl, by simp⟩⟩
            | ok doc =>
              rw [hdoc2] at hs
              dsimp only at hs
              rw [join_file _ hxml, resolve_file] at hs
              have hd : (path.join name).dir (runAll os (.makedirs (path.dir os ++ [name]) :: fx1)) = path.dir os ++ [name] :=
                (dir_cwd (os := os) _ a2).trans hfolder
              rw [hd] at hs
              by_cases hi : (runAll os (.makedirs (path.dir os ++ [name]) :: fx1)).isDir (path.dir os ++ [name]) = true
              · rw [if_pos hi] at hs
                cases hs
                exact ⟨fx1, a1, Or.inr ⟨doc, rfl, rfl⟩⟩
              · rw [if_neg hi] at hs
                cases hs
                exact ⟨fx1, a1, Or.inl ⟨rfl, by simp⟩⟩

end Project
end Sumo
