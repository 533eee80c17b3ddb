import Verif.Lemmas.Downloader
import Mathlib.Data.List.Infix

/-!
# C75: interrupted downloads
-/

namespace Sumo
namespace Downloader

/-- **C75** (partial: what the script records as extracted is extracted.)  After any history of runs, with any interleaving of
the worker processes, any failures and any number of kills: an archive with a marker file is completely extracted, and whatever
lies on the disk of an archive is a beginning of it.  Missing is that every archive gets extracted in the end: see
`C75_false`, and `C75_resumes_partial` for when it does. -/
theorem C75_markers_partial {cfg : Config} (hc : Dataset cfg) {s : Sys} (h : Reaches cfg (Possible cfg) true Sys.initial s)
    {f : String} (hf : f ∈ cfg.requested) :
    (Marked s.disk f → Extracted cfg s.disk f ∧ s.disk.zips.get? f = none) ∧
    (∀ z, s.disk.zips.get? f = some z → z <+: cfg.server f) := by
  have hi := inv_reaches hc (fun _ _ h => h) (inv_initial cfg) h
  exact ⟨(hi.file f hf).2, (hi.file f hf).1⟩

/-- **C75** (partial.) Whatever happened before: a run that says "Download complete." and "Extraction complete." has left every
requested archive completely extracted. -/
theorem C75_complete_partial {cfg : Config} (hc : Dataset cfg) {s : Sys} (h : Reaches cfg (Possible cfg) true Sys.initial s)
    (hs : s.main = .finished true true) : ∀ f ∈ cfg.requested, Extracted cfg s.disk f := by
  have hi := inv_reaches hc (fun _ _ h => h) (inv_initial cfg) h
  have := hi.phase
  rw [hs] at this
  exact this.2 rfl rfl

/-- **C75** (partial.) As long as no run is killed and transfers that break off raise an exception, failures of any kind leave
no incomplete archive behind when the pool is done. -/
theorem C75_failures_partial {cfg : Config} (hc : Dataset cfg) {s : Sys}
    (h : Reaches cfg (Orderly cfg) false Sys.initial s) (hs : s.tasks = []) : Whole cfg s.disk := by
  refine wholeInv_rest (whole_reaches hc (inv_initial cfg) ⟨?_, ?_⟩ h) hs
  · intro f z hz; simp [Sys.initial, Disk.empty] at hz
  · intro f rest hm; simp [Sys.initial] at hm

/-- **C75** (partial: without incomplete archives.)  After any history that left no incomplete archive behind, a run in which
nothing fails comes to an end, whatever the interleaving of the workers. -/
theorem C75_resumes_partial {cfg : Config} (hc : Dataset cfg) (hint : Intact cfg) {d : Disk}
    (h : Reaches cfg (Possible cfg) true Sys.initial ⟨d, .idle, []⟩) (hw : Whole cfg d) (run : ℕ → Sys)
    (h0 : run 0 = ⟨d, .idle, []⟩) (hrun : ∀ i, Step cfg (FaultFree cfg) false (run i) (run (i + 1))) :
    ∃ i, (run i).main = .finished true true ∧ ∀ f ∈ cfg.requested, Marked (run i).disk f ∧ Extracted cfg (run i).disk f := by
  have hi := inv_reaches hc (fun _ _ h => h) (inv_initial cfg) h
  have start : GoodInv cfg (run 0) := by
    rw [h0]; exact ⟨hi, ⟨fun f z hz _ => hw f z hz, by simp⟩, trivial⟩
  have all : ∀ i, GoodInv cfg (run i) := by
    intro i
    induction i with
    | zero => exact start
    | succ i ih => exact (good_step hc hint ih (hrun i)).1
  have fin : ∀ (x : ℕ × ℕ × ℕ) (i : ℕ), (run i).left = x → ∃ j, ∃ a b, (run j).main = .finished a b := by
    intro x
    induction x using progress_wf.induction with
    | _ x ih =>
      intro i hx
      by_cases hf : ∃ a b, (run i).main = .finished a b
      · obtain ⟨a, b, h⟩ := hf
        exact ⟨i, a, b, h⟩
      · have hlt := (good_step hc hint (all i) (hrun i)).2 (fun a b h => hf ⟨a, b, h⟩)
        exact ih _ (hx ▸ hlt) (i + 1) rfl
  obtain ⟨j, a, b, hj⟩ := fin _ 0 rfl
  have hp := (all j).phase
  rw [hj] at hp
  obtain ⟨rfl, rfl, hm⟩ := hp
  exact ⟨j, hj, fun f hf => ⟨hm f hf, (((all j).inv.file f hf).2 (hm f hf)).1⟩⟩

/-- In a run in which nothing fails there is always a next step: the previous theorem is about all such runs. -/
theorem C75_no_deadlock {cfg : Config} (s : Sys) : ∃ s', Step cfg (FaultFree cfg) false s s' := by
  obtain ⟨d, m, tasks⟩ := s
  cases tasks with
  | nil => exact ⟨_, .main d m⟩
  | cons t r =>
    cases t with
    | fetch f => exact ⟨_, .work d m [] r _ (.response [cfg.server f] false) ⟨by simp, rfl⟩⟩
    | _ => exact ⟨_, .work d m [] r _ .good rfl⟩

/-! ### What goes wrong -/

/-- An incomplete archive nobody is going to touch. -/
structure Stuck (f : String) (p : Bytes) (s : Sys) : Prop where
  zip : s.disk.zips.get? f = some p
  unmarked : ¬ Marked s.disk f
  tasks : ∀ t ∈ s.tasks, t.name = f → t = .unzip f
  main : ∀ a, s.main ≠ .finished a true

theorem stuck_enterUnzip {cfg : Config} (hc : Dataset cfg) {f : String} {p : Bytes} {s : Sys} (hi : Inv cfg s)
    (hs : Stuck f p s) (n : ℕ) (b : Bool) : Stuck f p (enterUnzip s n b) := by
  unfold enterUnzip
  have : f ∈ existingZips s.disk := (mem_existing hc hi f).2 ⟨p, hs.zip⟩
  rw [if_neg (fun h => by rw [h] at this; simp at this)]
  split_ifs
  · refine ⟨hs.zip, hs.unmarked, ?_, by simp⟩
    intro t ht hn
    obtain ⟨g, -, rfl⟩ := List.mem_map.1 ht
    rw [show g = f from hn]
  · exact ⟨hs.zip, hs.unmarked, by simp, by simp⟩

theorem stuck_enterDownload {cfg : Config} (hc : Dataset cfg) {f : String} {p : Bytes} {s : Sys} (hi : Inv cfg s)
    (hs : Stuck f p s) (n : ℕ) : Stuck f p (enterDownload cfg s n) := by
  unfold enterDownload
  split_ifs
  · exact stuck_enterUnzip hc hi hs _ _
  · refine ⟨hs.zip, hs.unmarked, ?_, by simp⟩
    intro t ht hn
    obtain ⟨g, hg, rfl⟩ := List.mem_map.1 ht
    cases (show g = f from hn)
    have := ((mem_remaining hc hi f).1 hg).2.1
    rw [hs.zip] at this; cases this
  · exact stuck_enterUnzip hc hi hs _ _

theorem stuck_step {cfg : Config} (hc : Dataset cfg) {f : String} (hf : f ∈ cfg.requested) {p : Bytes}
    (hp : cfg.unpack p = none) {s s' : Sys} (hi : Inv cfg s) (hs : Stuck f p s)
    (h : Step cfg (Possible cfg) true s s') : Stuck f p s' := by
  cases h with
  | crash _ _ => exact ⟨hs.zip, hs.unmarked, by simp, by simp⟩
  | main d m =>
    unfold mainStep
    cases m with
    | idle => exact stuck_enterDownload hc hi hs _
    | download n => exact stuck_enterDownload hc hi hs _
    | unzip n b => exact stuck_enterUnzip hc hi hs _ _
    | finished a b => exact ⟨hs.zip, hs.unmarked, by simp, by simp⟩
  | work d m l r t e he =>
    obtain ⟨htr, hti, htm⟩ := hi.tasks t (by simp)
    have self := taskStep_self hc hi.nodup hti htr (hi.file _ htr) htm he
    have rest : ∀ u ∈ l ++ r, u.name = f → u = .unzip f := fun u hu => hs.tasks u (by
      simp only [List.mem_append, List.mem_cons] at hu ⊢
      tauto)
    have mem : ∀ {o : Option Task} {u}, u ∈ l ++ o.toList ++ r → u ∈ l ++ r ∨ o = some u := by
      intro o u hu
      simp only [List.mem_append, Option.mem_toList, Option.mem_def] at hu ⊢
      tauto
    by_cases hft : f = t.name
    · have ht := hs.tasks t (by simp) hft.symm
      subst ht
      have hst : taskStep cfg d (.unzip f) e = (d, none) := by
        cases e with
        | good => exact step_unzip_bad hs.zip hp
        | _ => rfl
      rw [hst]
      refine ⟨hs.zip, hs.unmarked, fun u hu => ?_, hs.main⟩
      rcases mem hu with h | h
      · exact rest u h
      · cases h
    · have fr := taskStep_frame hc hi.nodup hti htr e hf hft
      refine ⟨fr.1.trans hs.zip, fun h => hs.unmarked (fr.2.1.1 h), fun u hu hn => ?_, hs.main⟩
      rcases mem hu with h | h
      · exact rest u h hn
      · exact absurd (hn.symm.trans (self.task u h).1) hft

/-- **C75** is false: kill the script while it writes an archive (any archive of any dataset, any proper beginning of it), and
the incomplete file is taken for the archive for ever: no later run, whatever happens in it, fetches it again, extracts it, or
ends well. -/
theorem C75_false {cfg : Config} (hc : Dataset cfg) {f : String} (hf : f ∈ cfg.requested) {p : Bytes}
    (hp : p <+: cfg.server f) (hne : p ≠ cfg.server f) :
    ∃ s, Reaches cfg (Possible cfg) true Sys.initial s ∧ s.main = .idle ∧
      ∀ s', Reaches cfg (Possible cfg) true s s' →
        s'.disk.zips.get? f = some p ∧ ¬ Marked s'.disk f ∧ ∀ a, s'.main ≠ .finished a true := by
  have hi0 := inv_initial cfg
  have hrem : remainingZips cfg Disk.empty = cfg.requested := by
    unfold remainingZips removeExistingFiles existingZips extractedZips Disk.empty
    simp [Dict.keys]
  have hne0 : cfg.requested ≠ [] := List.ne_nil_of_mem hf
  obtain ⟨l, r, hlr⟩ := List.append_of_mem hf
  have s1 : mainStep cfg Sys.initial = ⟨Disk.empty, .download 1, l.map .fetch ++ .fetch f :: r.map .fetch⟩ := by
    unfold mainStep Sys.initial
    dsimp only
    unfold enterDownload
    dsimp only
    rw [hrem, if_neg hne0, if_pos (by decide), hlr]
    simp
  have r1 : Reaches cfg (Possible cfg) true Sys.initial
      ⟨Disk.empty, .download 1, l.map .fetch ++ .fetch f :: r.map .fetch⟩ := by
    rw [← s1]; exact Relation.ReflTransGen.single (.main _ _)
  have r2 := r1.tail (.work _ _ _ _ _ (.response [p] false) (by simpa [Possible] using hp))
  have r3 : Reaches cfg (Possible cfg) true Sys.initial
      ⟨⟨[(f, [])], [], []⟩, .download 1, l.map .fetch ++ .write f [p] false :: r.map .fetch⟩ := by
    unfold Reaches; simpa [taskStep, Disk.empty, Dict.set] using r2
  have r4 := r3.tail (.work _ _ _ _ _ .good trivial)
  have hz : Dict.get? ([(f, [])] : Dict String Bytes) f = some [] := by simp [Dict.get?]
  have r5 : Reaches cfg (Possible cfg) true Sys.initial
      ⟨⟨[(f, p)], [], []⟩, .download 1, l.map .fetch ++ .write f [] false :: r.map .fetch⟩ := by
    have e := step_write (cfg := cfg) (d := ⟨[(f, [])], [], []⟩) (f := f) (z := []) hz (c := p) (rest := []) (b := false)
    rw [e] at r4
    unfold Reaches; simpa [Dict.set] using r4
  have r6 := r5.tail (.crash _ rfl)
  refine ⟨_, r6, rfl, ?_⟩
  have stuck : ∀ s', Reaches cfg (Possible cfg) true ⟨⟨[(f, p)], [], []⟩, .idle, []⟩ s' → Inv cfg s' ∧ Stuck f p s' := by
    intro s' h
    induction h with
    | refl =>
      refine ⟨inv_reaches hc (fun _ _ h => h) hi0 r6, ⟨by simp [Dict.get?], by simp [Marked], by simp, by simp⟩⟩
    | tail _ h ih =>
      exact ⟨inv_step hc (fun _ _ h => h) ih.1 h, stuck_step hc hf (hc.truncated f hf p hp hne) ih.1 ih.2 h⟩
  intro s' h
  obtain ⟨-, k⟩ := stuck s' h
  exact ⟨k.zip, k.unmarked, k.main⟩

/-- **C75.** An archive with `.cache` somewhere in its name never counts as extracted, whatever is on the disk: it is fetched again by every
run that does not find it. -/
theorem C75_cache_in_name (cfg : Config) (d : Disk) {f : String} (h : ".cache".toList <:+: f.toList) :
    f ∉ extractedZips d ∧ (f ∈ cfg.requested → d.zips.get? f = none → f ∈ remainingZips cfg d) := by
  have h1 : f ∉ extractedZips d := by
    unfold extractedZips
    rw [List.mem_map]
    rintro ⟨m, -, hm⟩
    have := replaceAux_gone m.toList
    apply this
    have e : f.toList = replaceAux ".cache".toList ".zip".toList 0 m.toList := by
      rw [← hm, zipOfMarker, pyReplace, String.toList_ofList]
    rw [← e]
    exact h
  refine ⟨h1, fun hr hz => ?_⟩
  unfold remainingZips removeExistingFiles
  rw [List.mem_filter, decide_eq_true_eq, List.mem_append, not_or]
  refine ⟨hr, fun hm => ?_, h1⟩
  unfold existingZips at hm
  exact (Dict.get?_eq_none_iff _ _).1 hz (List.mem_filter.1 hm).1

/-- Non-vacuity: such a name, and names with dots for which all the theorems hold. -/
example : ".cache".toList <:+: "v1.cache.zip".toList ∧ GoodName "v1.0.zip" ∧ GoodName "a.zip.zip" :=
  ⟨by decide, ⟨"v1.0".toList, ⟨'v', by decide, by decide⟩, by decide, by decide, by decide⟩,
    ⟨"a.zip".toList, ⟨'a', by decide, by decide⟩, by decide, by decide, by decide⟩⟩

example : zipOfMarker (markerOf "a.zip.zip") = "a.zip.zip" ∧ zipOfMarker (markerOf "v1.cache.zip") = "v1.zip.zip" := by decide +kernel

/-! ### Non-vacuity -/

/-- Two archives with one file each; an archive is its length followed by its contents. -/
def exConfig : Config where
  requested := ["a.zip", "b.zip"]
  server := fun f => if f = "a.zip" then [2, 7, 7] else [1, 9]
  unpack := fun z =>
    match z with
    | [2, x, y] => some [("room/a.glb", some [x, y])]
    | [1, x] => some [("room/b.glb", some [x])]
    | _ => none

theorem prefix_three {z : Bytes} (h : z <+: [2, 7, 7]) : z = [] ∨ z = [2] ∨ z = [2, 7] ∨ z = [2, 7, 7] := by
  have := (List.mem_inits z _).2 h
  simpa using this

theorem prefix_two {z : Bytes} (h : z <+: [1, 9]) : z = [] ∨ z = [1] ∨ z = [1, 9] := by
  have := (List.mem_inits z _).2 h
  simpa using this

theorem exDataset : Dataset exConfig := by
  refine ⟨by decide, ?_, ?_, ?_, ?_⟩
  · intro f hf
    simp only [exConfig, List.mem_cons, List.not_mem_nil, or_false] at hf
    rcases hf with rfl | rfl
    · exact ⟨['a'], ⟨'a', rfl, by decide⟩, by decide, by decide, by decide⟩
    · exact ⟨['b'], ⟨'b', rfl, by decide⟩, by decide, by decide, by decide⟩
  · intro f hf z hz hne
    simp only [exConfig, List.mem_cons, List.not_mem_nil, or_false] at hf
    rcases hf with rfl | rfl
    · rcases prefix_three hz with rfl | rfl | rfl | rfl
      · rfl
      · rfl
      · rfl
      · exact absurd rfl hne
    · rcases prefix_two hz with rfl | rfl | rfl
      · rfl
      · rfl
      · exact absurd rfl hne
  · intro f hf ms h
    simp only [exConfig, List.mem_cons, List.not_mem_nil, or_false] at hf
    rcases hf with rfl | rfl
    · cases (show some [("room/a.glb", some [7, 7])] = some ms from h); simp
    · cases (show some [("room/b.glb", some [9])] = some ms from h); simp
  · intro f hf g hg hne ms ns h1 h2
    simp only [exConfig, List.mem_cons, List.not_mem_nil, or_false] at hf hg
    rcases hf with rfl | rfl <;> rcases hg with rfl | rfl
    · exact absurd rfl hne
    · cases (show some [("room/a.glb", some [7, 7])] = some ms from h1)
      cases (show some [("room/b.glb", some [9])] = some ns from h2)
      simp
    · cases (show some [("room/b.glb", some [9])] = some ms from h1)
      cases (show some [("room/a.glb", some [7, 7])] = some ns from h2)
      simp
    · exact absurd rfl hne

theorem exIntact : Intact exConfig := by
  intro f hf
  simp only [exConfig, List.mem_cons, List.not_mem_nil, or_false] at hf
  rcases hf with rfl | rfl
  · exact ⟨[("room/a.glb", some [7, 7])], rfl, by simp⟩
  · exact ⟨[("room/b.glb", some [9])], rfl, by simp⟩

example : Reaches exConfig (Possible exConfig) true Sys.initial ⟨Disk.empty, .idle, []⟩ ∧ Whole exConfig Disk.empty :=
  ⟨Relation.ReflTransGen.refl, fun f z h => by simp [Disk.empty] at h⟩

example : ([2, 7] : Bytes) <+: exConfig.server "a.zip" ∧ ([2, 7] : Bytes) ≠ exConfig.server "a.zip" := by
  simp [exConfig]

/-- There is a complete run. -/
example : ∃ s, Reaches exConfig (Possible exConfig) true Sys.initial s ∧ s.main = .finished true true := by
  obtain ⟨next, hnext⟩ : ∃ next : Sys → Sys, ∀ s, Step exConfig (FaultFree exConfig) false s (next s) :=
    ⟨fun s => (C75_no_deadlock s).choose, fun s => (C75_no_deadlock s).choose_spec⟩
  have hrun : ∀ i, Reaches exConfig (Possible exConfig) true Sys.initial (next^[i] Sys.initial) := by
    intro i
    induction i with
    | zero => exact Relation.ReflTransGen.refl
    | succ i ih =>
      rw [Function.iterate_succ_apply']
      refine ih.tail ?_
      generalize next^[i] Sys.initial = s
      have h := hnext s
      generalize next s = s' at h
      cases h with
      | work d m l r t e he => exact .work d m l r t e (orderly_possible t e (faultFree_orderly t e he))
      | main d m => exact .main d m
      | crash _ h => cases h
  obtain ⟨i, h1, -⟩ := C75_resumes_partial exDataset exIntact Relation.ReflTransGen.refl
    (fun f z h => by simp [Disk.empty] at h) (fun i => next^[i] Sys.initial) rfl
    (fun i => by rw [Function.iterate_succ_apply']; exact hnext _)
  exact ⟨_, hrun i, h1⟩

end Downloader
end Sumo
