import Verif.Model.Setup

/-! # `setup.py` (C175, C176) -/

namespace Sumo
namespace Setup

/-! ### Specification -/

/-- The files `cleanall` is meant to remove: what is below `build`, libraries and C files below `sumo`, and what Cython generated (other
than files named `setup.py` and below a folder `venv`). -/
def Generated (f : File) : Prop :=
  (∃ rest, f.path = "build".toList :: rest) ∨
  (∃ rest name, f.path = "sumo".toList :: rest ∧ (f.path.getLast? = some (name ++ ".so".toList) ∨ f.path.getLast? = some (name ++ ".c".toList))) ∨
  (f.phrase = true ∧ f.path.getLast? ≠ some "setup.py".toList ∧ "venv".toList ∉ f.path.dropLast)

/-- A name without blanks, line ends and slashes. -/
def PlainName (n : List Char) : Prop := n ≠ [] ∧ n ≠ ['.'] ∧ ∀ c ∈ n, c ≠ ' ' ∧ c ≠ '\t' ∧ c ≠ '\n' ∧ c ≠ '/'

/-- A folder with plain names in which no path occurs twice. -/
def Plain (files : List File) : Prop :=
  (∀ f ∈ files, f.path ≠ [] ∧ ∀ n ∈ f.path, PlainName n) ∧ ∀ f ∈ files, ∀ g ∈ files, f.path = g.path → f = g

/-- All commands have come to all files, and what was listed has been removed. -/
def Finished (files : List File) (events : List Event) : Prop :=
  (∀ f ∈ files, .rmBuild f ∈ events ∧ .findSo f ∈ events ∧ .findC f ∈ events ∧ .grep f ∈ events) ∧ (cleanall files events).pipe = []

/-- The commands only come to files that were there. -/
def Possible (files : List File) (events : List Event) : Prop :=
  ∀ e ∈ events, match e with
    | .rmBuild f => f ∈ files
    | .findSo f => f ∈ files
    | .findC f => f ∈ files
    | .grep f => f ∈ files
    | .xargs => True

/-! ### Lemmas -/

theorem pieces_plain {q : Char → Bool} : ∀ {u : List Char}, (∀ c ∈ u, q c = false) → pieces q u = [u]
  | [], _ => rfl
  | c :: u, h => by
    rw [pieces, h c List.mem_cons_self, pieces_plain fun d hd => h d (List.mem_cons_of_mem _ hd)]
    rfl

theorem pieces_sep {q : Char → Bool} {s : Char} (hs : q s = true) (v : List Char) :
    ∀ {u : List Char}, (∀ c ∈ u, q c = false) → pieces q (u ++ s :: v) = u :: pieces q v
  | [], _ => by rw [List.nil_append, pieces, hs]; rfl
  | c :: u, h => by
    rw [List.cons_append, pieces, h c List.mem_cons_self, pieces_sep hs v fun d hd => h d (List.mem_cons_of_mem _ hd)]
    rfl

theorem pieces_path : ∀ (path : List (List Char)) (u : List Char), (∀ c ∈ u, c ≠ '/') → (∀ n ∈ path, ∀ c ∈ n, c ≠ '/') →
    pieces (fun c => decide (c = '/')) (u ++ path.flatMap fun n => '/' :: n) = u :: path
  | [], u, hu, _ => by
    rw [List.flatMap_nil, List.append_nil]
    exact pieces_plain fun c hc => decide_eq_false (hu c hc)
  | n :: path, u, hu, hp => by
    rw [List.flatMap_cons, List.cons_append, pieces_sep (by decide) _ fun c hc => decide_eq_false (hu c hc),
      pieces_path path n (hp n List.mem_cons_self) fun m hm => hp m (List.mem_cons_of_mem _ hm)]

theorem pathOf_printed {path : List (List Char)} (h : ∀ n ∈ path, PlainName n) : pathOf (printed path) = path := by
  unfold pathOf printed
  have e := pieces_path path ['.'] (by decide) fun n hn c hc => ((h n hn).2.2 c hc).2.2.2
  rw [List.singleton_append] at e
  rw [e, List.filter_cons_of_neg (by decide), List.filter_eq_self]
  intro n hn
  obtain ⟨h1, h2, -⟩ := h n hn
  cases n with
  | nil => exact absurd rfl h1
  | cons c n => simpa using h2

theorem words_printed {path : List (List Char)} (h : ∀ n ∈ path, PlainName n) : words (printed path) = [printed path] := by
  unfold words
  rw [pieces_plain]
  · rfl
  · intro c hc
    unfold printed at hc
    rcases List.mem_cons.1 hc with rfl | hc
    · decide
    · obtain ⟨n, hn, hc⟩ := List.mem_flatMap.1 hc
      rcases List.mem_cons.1 hc with rfl | hc
      · decide
      · obtain ⟨h1, h2, h3, -⟩ := (h n hn).2.2 c hc
        simp [blank, h1, h2, h3]

theorem suffix_iff (s : List Char) (f : File) (hs : s ≠ []) :
    s.isSuffixOf (baseName f.path) = true ↔ ∃ name, f.path.getLast? = some (name ++ s) := by
  unfold baseName
  rw [List.isSuffixOf_iff_suffix]
  cases h : f.path.getLast? with
  | none =>
    simp only [Option.getD_none]
    constructor
    · intro h; exact absurd (List.suffix_nil.1 h) hs
    · rintro ⟨_, h⟩; cases h
  | some n =>
    simp only [Option.getD_some, Option.some.injEq]
    constructor
    · rintro ⟨t, ht⟩; exact ⟨t, ht.symm⟩
    · rintro ⟨t, ht⟩; exact ⟨t, ht.symm⟩

theorem head_iff (n : List Char) (f : File) : (f.path.head? == some n) = true ↔ ∃ rest, f.path = n :: rest := by
  cases f.path with
  | nil => simp
  | cons a l =>
    rw [List.head?_cons, beq_iff_eq, Option.some.injEq]
    constructor
    · rintro rfl; exact ⟨l, rfl⟩
    · rintro ⟨r, h⟩; exact (List.cons.inj h).1

theorem generated_iff (f : File) : Generated f ↔ (inBuild f = true ∨ isSo f = true ∨ isC f = true ∨ listed f = true) := by
  unfold Generated inBuild isSo isC listed
  rw [Bool.and_eq_true, Bool.and_eq_true, head_iff, head_iff, suffix_iff _ _ (by decide), suffix_iff _ _ (by decide)]
  have hl : (f.phrase && baseName f.path != "setup.py".toList && !(f.path.dropLast.contains "venv".toList)) = true ↔
      (f.phrase = true ∧ f.path.getLast? ≠ some "setup.py".toList ∧ "venv".toList ∉ f.path.dropLast) := by
    have hb : baseName f.path ≠ "setup.py".toList ↔ f.path.getLast? ≠ some "setup.py".toList := by
      unfold baseName
      cases f.path.getLast? with
      | none => simp
      | some n => simp
    simp only [Bool.and_eq_true, bne_iff_ne, Bool.not_eq_true', List.contains_eq_mem, decide_eq_false_iff_not, hb]
    tauto
  rw [hl]
  constructor
  · rintro (h | ⟨rest, name, h, h1 | h1⟩ | h)
    · exact .inl h
    · exact .inr (.inl ⟨⟨rest, h⟩, name, h1⟩)
    · exact .inr (.inr (.inl ⟨⟨rest, h⟩, name, h1⟩))
    · exact .inr (.inr (.inr h))
  · rintro (h | ⟨⟨rest, h⟩, name, h1⟩ | ⟨⟨rest, h⟩, name, h1⟩ | h)
    · exact .inl h
    · exact .inr (.inl ⟨rest, name, h, .inl h1⟩)
    · exact .inr (.inl ⟨rest, name, h, .inr h1⟩)
    · exact .inr (.inr h)

/-- What holds after the events `done`. -/
structure Inv (files : List File) (done : List Event) (s : State) : Prop where
  sub : ∀ f ∈ s.files, f ∈ files
  keeps : ∀ f ∈ files, ¬ Generated f → f ∈ s.files
  lines : ∀ l ∈ s.pipe, ∃ f ∈ files, listed f = true ∧ l = printed f.path
  build : ∀ f, .rmBuild f ∈ done → inBuild f = true → f ∉ s.files
  so : ∀ f, .findSo f ∈ done → isSo f = true → f ∉ s.files
  c : ∀ f, .findC f ∈ done → isC f = true → f ∉ s.files
  grep : ∀ f, .grep f ∈ done → listed f = true → f ∉ s.files ∨ printed f.path ∈ s.pipe

theorem mem_delete {s : State} {p : List (List Char)} {f : File} : f ∈ (s.delete p).files ↔ f ∈ s.files ∧ f.path ≠ p := by
  simp [State.delete]

theorem inv_delete {files : List File} (hp : Plain files) {done : List Event} {s : State} (h : Inv files done s) {f : File} (hf : f ∈ files)
    (hg : Generated f) : Inv files done (s.delete f.path) where
  sub := fun g hgm => h.sub g (mem_delete.1 hgm).1
  keeps := fun g hgm hn => mem_delete.2 ⟨h.keeps g hgm hn, fun e => hn (hp.2 g hgm f hf e ▸ hg)⟩
  lines := h.lines
  build := fun g h1 h2 h3 => h.build g h1 h2 (mem_delete.1 h3).1
  so := fun g h1 h2 h3 => h.so g h1 h2 (mem_delete.1 h3).1
  c := fun g h1 h2 h3 => h.c g h1 h2 (mem_delete.1 h3).1
  grep := fun g h1 h2 => (h.grep g h1 h2).imp (fun h3 h4 => h3 (mem_delete.1 h4).1) id

theorem inv_step {files : List File} (hp : Plain files) {done : List Event} {s : State} (h : Inv files done s) (e : Event)
    (he : Possible files [e]) : Inv files (done ++ [e]) (step s e) := by
  have he := he e (List.mem_singleton.2 rfl)
  have gone : ∀ f : File, f ∉ (s.delete f.path).files := fun f hf => (mem_delete.1 hf).2 rfl
  cases e with
  | rmBuild f =>
    have key : Inv files done (step s (.rmBuild f)) ∧ (inBuild f = true → f ∉ (step s (.rmBuild f)).files) := by
      unfold step
      by_cases hb : inBuild f = true
      · simp only [hb, if_true]
        exact ⟨inv_delete hp h he ((generated_iff f).2 (.inl hb)), fun _ => gone f⟩
      · simp only [hb, Bool.false_eq_true, if_false]
        exact ⟨h, fun h' => h'.elim⟩
    obtain ⟨k, kf⟩ := key
    refine ⟨k.sub, k.keeps, k.lines, ?_, ?_, ?_, ?_⟩
    · intro g hg
      rcases List.mem_append.1 hg with hg | hg
      · exact k.build g hg
      · cases List.mem_singleton.1 hg; exact kf
    · intro g hg; exact k.so g ((List.mem_append.1 hg).resolve_right (by simp))
    · intro g hg; exact k.c g ((List.mem_append.1 hg).resolve_right (by simp))
    · intro g hg; exact k.grep g ((List.mem_append.1 hg).resolve_right (by simp))
  | findSo f =>
    have key : Inv files done (step s (.findSo f)) ∧ (isSo f = true → f ∉ (step s (.findSo f)).files) := by
      unfold step
      by_cases hb : isSo f = true
      · simp only [hb, if_true]
        exact ⟨inv_delete hp h he ((generated_iff f).2 (.inr (.inl hb))), fun _ => gone f⟩
      · simp only [hb, Bool.false_eq_true, if_false]
        exact ⟨h, fun h' => h'.elim⟩
    obtain ⟨k, kf⟩ := key
    refine ⟨k.sub, k.keeps, k.lines, ?_, ?_, ?_, ?_⟩
    · intro g hg; exact k.build g ((List.mem_append.1 hg).resolve_right (by simp))
    · intro g hg
      rcases List.mem_append.1 hg with hg | hg
      · exact k.so g hg
      · cases List.mem_singleton.1 hg; exact kf
    · intro g hg; exact k.c g ((List.mem_append.1 hg).resolve_right (by simp))
    · intro g hg; exact k.grep g ((List.mem_append.1 hg).resolve_right (by simp))
  | findC f =>
    have key : Inv files done (step s (.findC f)) ∧ (isC f = true → f ∉ (step s (.findC f)).files) := by
      unfold step
      by_cases hb : isC f = true
      · simp only [hb, if_true]
        exact ⟨inv_delete hp h he ((generated_iff f).2 (.inr (.inr (.inl hb)))), fun _ => gone f⟩
      · simp only [hb, Bool.false_eq_true, if_false]
        exact ⟨h, fun h' => h'.elim⟩
    obtain ⟨k, kf⟩ := key
    refine ⟨k.sub, k.keeps, k.lines, ?_, ?_, ?_, ?_⟩
    · intro g hg; exact k.build g ((List.mem_append.1 hg).resolve_right (by simp))
    · intro g hg; exact k.so g ((List.mem_append.1 hg).resolve_right (by simp))
    · intro g hg
      rcases List.mem_append.1 hg with hg | hg
      · exact k.c g hg
      · cases List.mem_singleton.1 hg; exact kf
    · intro g hg; exact k.grep g ((List.mem_append.1 hg).resolve_right (by simp))
  | grep f =>
    have key : Inv files done (step s (.grep f)) ∧
        (listed f = true → f ∉ (step s (.grep f)).files ∨ printed f.path ∈ (step s (.grep f)).pipe) := by
      unfold step
      by_cases hb : (f ∈ s.files && listed f) = true
      · simp only [hb, if_true]
        rw [Bool.and_eq_true] at hb
        refine ⟨⟨h.sub, h.keeps, ?_, h.build, h.so, h.c, fun g h1 h2 => (h.grep g h1 h2).imp id (List.mem_append_left _)⟩,
          fun _ => .inr (List.mem_append_right _ (List.mem_singleton.2 rfl))⟩
        intro l hl
        rcases List.mem_append.1 hl with hl | hl
        · exact h.lines l hl
        · exact ⟨f, he, hb.2, List.mem_singleton.1 hl⟩
      · simp only [hb, Bool.false_eq_true, if_false]
        refine ⟨h, fun hl => .inl fun hf => hb ?_⟩
        simp [hf, hl]
    obtain ⟨k, kf⟩ := key
    refine ⟨k.sub, k.keeps, k.lines, ?_, ?_, ?_, ?_⟩
    · intro g hg; exact k.build g ((List.mem_append.1 hg).resolve_right (by simp))
    · intro g hg; exact k.so g ((List.mem_append.1 hg).resolve_right (by simp))
    · intro g hg; exact k.c g ((List.mem_append.1 hg).resolve_right (by simp))
    · intro g hg
      rcases List.mem_append.1 hg with hg | hg
      · exact k.grep g hg
      · cases List.mem_singleton.1 hg; exact kf
  | xargs =>
    have key : Inv files done (step s .xargs) := by
      unfold step
      cases hs : s.pipe with
      | nil => exact h
      | cons line rest =>
        obtain ⟨f, hf, hl, rfl⟩ := h.lines line (by rw [hs]; exact List.mem_cons_self)
        have hn := (hp.1 f hf).2
        simp only [words_printed hn, List.foldl_cons, List.foldl_nil, pathOf_printed hn]
        have k : Inv files done (s.delete f.path) := inv_delete hp h hf ((generated_iff f).2 (.inr (.inr (.inr hl))))
        refine ⟨k.sub, k.keeps, ?_, k.build, k.so, k.c, ?_⟩
        · intro l hl'
          exact h.lines l (by rw [hs]; exact List.mem_cons_of_mem _ hl')
        · intro g h1 h2
          rcases h.grep g h1 h2 with h3 | h3
          · exact .inl fun h4 => h3 (mem_delete.1 h4).1
          · rw [hs] at h3
            rcases List.mem_cons.1 h3 with h3 | h3
            · refine .inl fun h4 => ?_
              have hg := h.sub g (mem_delete.1 h4).1
              apply (mem_delete.1 h4).2
              rw [← pathOf_printed (hp.1 g hg).2, h3, pathOf_printed hn]
            · exact .inr h3
    refine ⟨key.sub, key.keeps, key.lines, ?_, ?_, ?_, ?_⟩
    · intro g hg; exact key.build g ((List.mem_append.1 hg).resolve_right (by simp))
    · intro g hg; exact key.so g ((List.mem_append.1 hg).resolve_right (by simp))
    · intro g hg; exact key.c g ((List.mem_append.1 hg).resolve_right (by simp))
    · intro g hg; exact key.grep g ((List.mem_append.1 hg).resolve_right (by simp))

theorem inv_run {files : List File} (hp : Plain files) : ∀ (events : List Event) (done : List Event) (s : State), Inv files done s →
    Possible files events → Inv files (done ++ events) (events.foldl step s)
  | [], done, s, h, _ => by simpa using h
  | e :: es, done, s, h, he => by
    rw [List.foldl_cons, show done ++ e :: es = (done ++ [e]) ++ es by simp]
    exact inv_run hp es _ _ (inv_step hp h e fun x hx => he x (List.mem_singleton.1 hx ▸ List.mem_cons_self))
      fun x hx => he x (List.mem_cons_of_mem _ hx)

theorem inv_cleanall {files : List File} (hp : Plain files) (events : List Event) (he : Possible files events) :
    Inv files events (cleanall files events) := by
  have h0 : Inv files [] ⟨files, []⟩ :=
    ⟨fun _ h => h, fun _ h _ => h, fun _ h => by simp at h, fun _ h => by simp at h, fun _ h => by simp at h, fun _ h => by simp at h,
      fun _ h => by simp at h⟩
  simpa [cleanall] using inv_run hp events [] _ h0 he

/-! ### C175 -/

/-- **C175 (part).** In a folder with plain names, at every moment, and however the commands of `cleanall` overlap, all files that are not
generated are still there. -/
theorem C175_safe_partial (files : List File) (hp : Plain files) (events : List Event) (he : Possible files events) :
    ∀ f ∈ files, ¬ Generated f → f ∈ (cleanall files events).files := (inv_cleanall hp events he).keeps

/-- **C175 (part).** When the commands are finished, what is left is exactly the files that are not generated, whatever the order was.
Missing: names with blanks (`C175_false`). -/
theorem C175_partial (files : List File) (hp : Plain files) (events : List Event) (he : Possible files events) (hf : Finished files events)
    (f : File) : f ∈ (cleanall files events).files ↔ f ∈ files ∧ ¬ Generated f := by
  have h := inv_cleanall hp events he
  constructor
  · intro hm
    have hfm := h.sub f hm
    refine ⟨hfm, fun hg => ?_⟩
    obtain ⟨h1, h2, h3, h4⟩ := hf.1 f hfm
    rcases (generated_iff f).1 hg with hg | hg | hg | hg
    · exact h.build f h1 hg hm
    · exact h.so f h2 hg hm
    · exact h.c f h3 hg hm
    · rcases h.grep f h4 hg with h5 | h5
      · exact h5 hm
      · rw [hf.2] at h5; simp at h5
  · rintro ⟨h1, h2⟩
    exact h.keeps f h1 h2

/-- Non-vacuity: a generated file and another one. -/
def sample : List File := [⟨["sumo".toList, "a.cpp".toList], true⟩, ⟨["sumo".toList, "a.pyx".toList], false⟩]

/-- An order of the steps for `sample`. -/
def sampleEvents : List Event :=
  (sample.flatMap fun f => [.grep f, .findC f]) ++ [.xargs] ++ sample.flatMap fun f => [.rmBuild f, .findSo f]

example : (∀ f ∈ sample, f.path ≠ [] ∧ ∀ n ∈ f.path, PlainName n) ∧ (cleanall sample sampleEvents).pipe = [] ∧
    (cleanall sample sampleEvents).files = [⟨["sumo".toList, "a.pyx".toList], false⟩] := by
  refine ⟨?_, by decide +kernel, by decide +kernel⟩
  unfold PlainName sample
  decide +kernel

/-- **C175 is false for names with blanks.** A generated file `a b` stays, and the file `b` next to `setup.py`, which is not generated, is
deleted. -/
theorem C175_false :
    let generated : File := ⟨["a b".toList], true⟩
    let mine : File := ⟨["b".toList], false⟩
    let events : List Event := ([generated, mine].flatMap fun f => [.rmBuild f, .findSo f, .findC f, .grep f]) ++ [.xargs]
    Finished [generated, mine] events ∧ Generated generated ∧ ¬ Generated mine ∧ (cleanall [generated, mine] events).files = [generated] := by
  refine ⟨⟨?_, by decide +kernel⟩, ?_, ?_, by decide +kernel⟩
  · intro f hf
    simp only [List.mem_cons, List.not_mem_nil, or_false] at hf
    rcases hf with rfl | rfl <;> simp
  · rw [generated_iff]; decide +kernel
  · rw [generated_iff]; decide +kernel

/-! ### C176 -/

/-- **C176 (part).** The command line: if one of the commands is `build_ext`, and none is `cleanall`, `setup` runs with `--inplace` among the
options of `build_ext`: either it was given, or it comes directly behind the first `build_ext` and nothing else has changed.  Command lines
without `build_ext` are not changed.  Missing: the `clean` after `cleanall` (`C176_false`). -/
theorem C176_partial (prog : String) (args : List String) (hc : "cleanall" ∉ args) (hprog : prog ≠ "build_ext") :
    ("build_ext" ∉ args ∨ "--inplace" ∈ args → commandLine (prog :: args) = .setup (prog :: args)) ∧
    ("build_ext" ∈ args → "--inplace" ∉ args → ∃ before after, "build_ext" ∉ before ∧ args = before ++ "build_ext" :: after ∧
      commandLine (prog :: args) = .setup (prog :: before ++ "build_ext" :: "--inplace" :: after)) := by
  constructor
  · intro h
    unfold commandLine
    simp only [List.drop_succ_cons, List.drop_zero, hc, if_false]
    rw [if_neg]
    simp only [Bool.and_eq_true, decide_eq_true_eq, beq_iff_eq, not_and]
    intro h1 h2
    rcases h with h | h
    · exact absurd (List.count_pos_iff.1 h1) h
    · exact absurd h (List.count_eq_zero.1 h2)
  · intro hb hi
    obtain ⟨before, after, e, hn⟩ := List.eq_append_cons_of_mem hb
    refine ⟨before, after, hn, e, ?_⟩
    unfold commandLine
    simp only [List.drop_succ_cons, List.drop_zero, hc, if_false]
    rw [if_pos]
    · unfold insertAfter
      have hidx : (prog :: args).idxOf "build_ext" = before.length + 1 := by
        rw [List.idxOf_cons_ne _ hprog, e, List.idxOf_append_of_notMem hn, List.idxOf_cons_self]
      rw [hidx, e]
      have h1 : (prog :: (before ++ "build_ext" :: after)) = (prog :: before ++ ["build_ext"]) ++ after := by simp
      have hl : (prog :: before ++ ["build_ext"]).length = before.length + 1 + 1 := by simp
      rw [h1, ← hl, List.take_left, List.drop_left]
      simp
    · simp only [Bool.and_eq_true, decide_eq_true_eq, beq_iff_eq]
      exact ⟨List.count_pos_iff.2 hb, List.count_eq_zero.2 hi⟩

example : commandLine ["setup.py", "build_ext", "-f"] = .setup ["setup.py", "build_ext", "--inplace", "-f"] := by decide +kernel

/-- **C176 is false of `cleanall`.** It never goes on to the ordinary `clean` of `setuptools` that its comment announces. -/
theorem C176_false (prog : String) (args : List String) (h : "cleanall" ∈ args) : commandLine (prog :: args) = .exits := by
  unfold commandLine
  simp [h]

end Setup
end Sumo
