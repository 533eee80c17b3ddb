import Verif.Spec.Downloader
import Verif.Lemmas.Dict

/-!
# Lemmas about the dataset downloader
-/

namespace Sumo
namespace Downloader

theorem replaceAux_skip (old new : List Char) : ∀ (k : ℕ) (s : List Char), k ≤ s.length →
    replaceAux old new k s = replaceAux old new 0 (s.drop k) := by
  intro k
  induction k with
  | zero => intro s _; rfl
  | succ k ih =>
    intro s hs
    cases s with
    | nil => simp at hs
    | cons c s =>
      rw [replaceAux, List.drop_succ_cons]
      exact ih s (by simpa using hs)

theorem replaceAux_hit (old new : List Char) (c : Char) (r : List Char) :
    replaceAux (c :: old) new 0 ((c :: old) ++ r) = new ++ replaceAux (c :: old) new 0 r := by
  rw [List.cons_append, replaceAux, if_pos (by rw [← List.cons_append]; exact List.prefix_append _ _)]
  simp only [List.length_cons, Nat.add_sub_cancel]
  rw [replaceAux_skip _ _ _ _ (by simp), List.drop_left]

theorem replaceAux_miss {old new : List Char} {c : Char} {s : List Char} (h : ¬ old <+: c :: s) :
    replaceAux old new 0 (c :: s) = c :: replaceAux old new 0 s := by
  rw [replaceAux, if_neg h]

/-- Words without dots at the beginning of the result were there before. -/
theorem replaceAux_word {old new : List Char} (ho : old.head? = some '.') (hn : new.head? = some '.') : ∀ (w s : List Char),
    '.' ∉ w → w <+: replaceAux old new 0 s → w <+: s
  | [], s, _, _ => List.nil_prefix
  | x :: w, [], _, h => by simp [replaceAux] at h
  | x :: w, c :: s, hw, h => by
    by_cases hp : old <+: c :: s
    · exfalso
      obtain ⟨r, hr⟩ := hp
      cases old with
      | nil => simp at ho
      | cons o old =>
        rw [← hr, replaceAux_hit] at h
        cases new with
        | nil => simp at hn
        | cons n new =>
          simp only [List.head?_cons, Option.some.injEq] at hn
          rw [List.cons_append, List.cons_prefix_cons] at h
          exact hw (by rw [h.1, hn]; exact List.mem_cons_self)
    · rw [replaceAux_miss hp, List.cons_prefix_cons] at h
      rw [List.cons_prefix_cons]
      exact ⟨h.1, replaceAux_word ho hn w s (fun hm => hw (List.mem_cons_of_mem _ hm)) h.2⟩

theorem replaceAux_back (s : List Char) (h : ¬ ".cache".toList <:+: s) :
    replaceAux ".cache".toList ".zip".toList 0 (replaceAux ".zip".toList ".cache".toList 0 s) = s := by
  induction hn : s.length using Nat.strong_induction_on generalizing s with
  | _ n ih =>
    cases s with
    | nil => rfl
    | cons c s =>
      by_cases hp : ".zip".toList <+: c :: s
      · obtain ⟨r, hr⟩ := hp
        have hl := congrArg List.length hr
        simp only [List.length_append, List.length_cons] at hl hn
        have h4 : ".zip".toList.length = 4 := rfl
        rw [← hr, show ".zip".toList = '.' :: ['z', 'i', 'p'] from rfl, replaceAux_hit,
          show ".cache".toList = '.' :: ['c', 'a', 'c', 'h', 'e'] from rfl, replaceAux_hit]
        congr 1
        refine ih r.length (by omega) r (fun hi => h ?_) rfl
        rw [← hr]
        exact hi.trans (List.suffix_append _ _).isInfix
      · rw [replaceAux_miss hp, replaceAux_miss]
        · congr 1
          refine ih s.length (by rw [← hn]; simp) s (fun hi => h ?_) rfl
          exact hi.trans (List.suffix_cons _ _).isInfix
        · intro hc
          rw [show ".cache".toList = '.' :: ['c', 'a', 'c', 'h', 'e'] from rfl, List.cons_prefix_cons] at hc
          refine h (List.IsPrefix.isInfix ?_)
          rw [show ".cache".toList = '.' :: ['c', 'a', 'c', 'h', 'e'] from rfl, List.cons_prefix_cons]
          exact ⟨hc.1, replaceAux_word rfl rfl _ _ (by decide) hc.2⟩

theorem replaceAux_ending : ∀ (stem : List Char), ∃ r, replaceAux ".zip".toList ".cache".toList 0 (stem ++ ".zip".toList) =
    r ++ ".cache".toList ∧ (∀ c, stem.head? = some c → c ≠ '.' → r.head? = some c) := by
  intro stem
  induction hn : stem.length using Nat.strong_induction_on generalizing stem with
  | _ n ih =>
    cases stem with
    | nil => exact ⟨[], by decide, by simp⟩
    | cons c s =>
      by_cases hp : ".zip".toList <+: c :: s ++ ".zip".toList
      · obtain ⟨t, ht⟩ : ∃ t, c :: s = ".zip".toList ++ t := by
          have e : ".zip".toList = ['.', 'z', 'i', 'p'] := rfl
          rw [e] at hp ⊢
          rcases s with _ | ⟨a, _ | ⟨b, _ | ⟨d, t⟩⟩⟩
          · simp at hp
          · simp at hp
          · simp at hp
          · simp only [List.cons_append, List.cons_prefix_cons] at hp
            exact ⟨t, by rw [← hp.1, ← hp.2.1, ← hp.2.2.1, ← hp.2.2.2.1]; rfl⟩
        have hl : t.length < n := by rw [← hn, ht, List.length_append, show ".zip".toList.length = 4 from rfl]; omega
        obtain ⟨r, hr, -⟩ := ih t.length hl t rfl
        rw [ht]
        refine ⟨".cache".toList ++ r, ?_, ?_⟩
        · rw [List.append_assoc, show replaceAux ".zip".toList ".cache".toList 0 (".zip".toList ++ (t ++ ".zip".toList)) =
            ".cache".toList ++ replaceAux ".zip".toList ".cache".toList 0 (t ++ ".zip".toList) from replaceAux_hit _ _ _ _, hr,
            List.append_assoc]
        · rintro c hc hd
          exact absurd (Option.some.inj hc).symm hd
      · obtain ⟨r, hr, -⟩ := ih s.length (by rw [← hn]; simp) s rfl
        refine ⟨c :: r, ?_, fun d hd _ => hd⟩
        rw [List.cons_append, replaceAux_miss (by simpa using hp), hr]
        rfl

theorem zipOfMarker_markerOf {f : String} (h : GoodName f) : zipOfMarker (markerOf f) = f := by
  obtain ⟨stem, h0, h1, h2, hf⟩ := h
  unfold zipOfMarker markerOf pyReplace
  have e := replaceAux_back _ h2
  generalize ".cache".toList = C at e ⊢
  generalize ".zip".toList = Z at e ⊢
  rw [String.toList_ofList, e, String.ofList_toList]

theorem markerOf_inj {f g : String} (hf : GoodName f) (hg : GoodName g) (h : markerOf f = markerOf g) : f = g := by
  rw [← zipOfMarker_markerOf hf, h, zipOfMarker_markerOf hg]

theorem globMatches_zip {f : String} (h : GoodName f) : globMatches ".zip" f = true := by
  obtain ⟨stem, ⟨c, h0, hc⟩, h1, h2, hf⟩ := h
  unfold globMatches
  rw [hf, decide_eq_true (List.suffix_append _ _), List.head?_append, h0]
  simpa using hc

theorem globMatches_cache {f : String} (h : GoodName f) : globMatches ".cache" (markerOf f) = true := by
  obtain ⟨stem, ⟨c, h0, hc⟩, h1, h2, hf⟩ := h
  obtain ⟨r, hr, hh⟩ := replaceAux_ending stem
  unfold globMatches markerOf pyReplace
  generalize ".cache".toList = C at hr ⊢
  rw [String.toList_ofList, hf, hr, decide_eq_true (List.suffix_append _ _), List.head?_append, hh c h0 hc]
  simpa using hc

/-- The result of replacing `.cache` by `.zip` does not contain `.cache`. -/
theorem replaceAux_gone (s : List Char) : ¬ ".cache".toList <:+: replaceAux ".cache".toList ".zip".toList 0 s := by
  induction hn : s.length using Nat.strong_induction_on generalizing s with
  | _ n ih =>
    have e : ".cache".toList = ['.', 'c', 'a', 'c', 'h', 'e'] := rfl
    cases s with
    | nil => decide
    | cons c s =>
      by_cases hp : ".cache".toList <+: c :: s
      · obtain ⟨r, hr⟩ := hp
        have hl := congrArg List.length hr
        simp only [List.length_append, List.length_cons] at hl hn
        have h6 : ".cache".toList.length = 6 := rfl
        rw [← hr, show replaceAux ".cache".toList ".zip".toList 0 (".cache".toList ++ r) =
          '.' :: 'z' :: 'i' :: 'p' :: replaceAux ".cache".toList ".zip".toList 0 r from replaceAux_hit _ _ _ _]
        simp only [List.infix_cons_iff]
        push Not
        refine ⟨by rw [e]; simp, by rw [e]; simp, by rw [e]; simp, by rw [e]; simp, ih r.length (by omega) r rfl⟩
      · rw [replaceAux_miss hp, List.infix_cons_iff]
        push Not
        refine ⟨fun hc => hp ?_, ih s.length (by rw [← hn]; simp) s rfl⟩
        rw [e, List.cons_prefix_cons] at hc
        rw [e, List.cons_prefix_cons]
        exact ⟨hc.1, replaceAux_word rfl rfl _ _ (by decide) hc.2⟩

theorem get?_pop {υ : Type} {d : Dict String υ} (hn : d.NodupKeys) (k k' : String) :
    (d.pop k).get? k' = if k' = k then none else d.get? k' := by
  split_ifs with h
  · subst h
    rw [Dict.get?_eq_none_iff, Dict.pop_eq_filter hn]
    simp [Dict.keys]
  · cases hg : d.get? k' with
    | none =>
      rw [Dict.get?_eq_none_iff] at hg ⊢
      rw [Dict.pop_eq_filter hn]
      intro hm
      obtain ⟨v, hv⟩ := Dict.mem_keys.1 hm
      exact hg (Dict.mem_keys.2 ⟨v, (List.mem_filter.1 hv).1⟩)
    | some v =>
      refine Dict.get?_of_mem (Dict.nodupKeys_pop hn k) ?_
      rw [Dict.pop_eq_filter hn]
      exact List.mem_filter.2 ⟨Dict.mem_of_get? hg, by simpa using h⟩

/-! ### The invariant -/

/-- What holds at the positions of a task. -/
def TaskInv (cfg : Config) (d : Disk) : Task → Prop
  | .fetch f => d.zips.get? f = none
  | .write f rest _ => ∃ z, d.zips.get? f = some z ∧ z ++ rest.flatten <+: cfg.server f
  | .cleanup _ => True
  | .unzip _ => True
  | .extract f rest => d.zips.get? f = some (cfg.server f) ∧ ∃ past, cfg.unpack (cfg.server f) = some (past ++ rest) ∧
      ∀ p ∈ past, ∃ b, p.2 = some b ∧ d.data.get? p.1 = some b
  | .remove f => d.zips.get? f = some (cfg.server f) ∧ Extracted cfg d f
  | .mark f => d.zips.get? f = none ∧ Extracted cfg d f

/-- Tasks of `download_one`. -/
def Task.downloads : Task → Prop
  | .fetch _ | .write _ _ _ | .cleanup _ => True
  | _ => False

/-- What holds of each archive. -/
def FileInv (cfg : Config) (d : Disk) (f : String) : Prop :=
  (∀ z, d.zips.get? f = some z → z <+: cfg.server f) ∧ (Marked d f → Extracted cfg d f ∧ d.zips.get? f = none)

/-- The two disks agree on everything that concerns an archive. -/
def SameFor (cfg : Config) (d d' : Disk) (g : String) : Prop :=
  d'.zips.get? g = d.zips.get? g ∧ (Marked d' g ↔ Marked d g) ∧
    ∀ ms, cfg.unpack (cfg.server g) = some ms → ∀ p ∈ ms, d'.data.get? p.1 = d.data.get? p.1

theorem SameFor.extracted {cfg : Config} {d d' : Disk} {g : String} (h : SameFor cfg d d' g) :
    Extracted cfg d' g ↔ Extracted cfg d g := by
  constructor
  · rintro ⟨ms, h1, h2⟩
    refine ⟨ms, h1, fun p hp => ?_⟩
    obtain ⟨b, hb, hd⟩ := h2 p hp
    exact ⟨b, hb, by rw [← h.2.2 ms h1 p hp]; exact hd⟩
  · rintro ⟨ms, h1, h2⟩
    refine ⟨ms, h1, fun p hp => ?_⟩
    obtain ⟨b, hb, hd⟩ := h2 p hp
    exact ⟨b, hb, by rw [h.2.2 ms h1 p hp]; exact hd⟩

theorem SameFor.fileInv {cfg : Config} {d d' : Disk} {g : String} (h : SameFor cfg d d' g) (hi : FileInv cfg d g) :
    FileInv cfg d' g := by
  unfold FileInv
  rw [h.1, h.2.1, h.extracted]
  exact hi

theorem SameFor.taskInv {cfg : Config} {d d' : Disk} {t : Task} (h : SameFor cfg d d' t.name) (hi : TaskInv cfg d t) :
    TaskInv cfg d' t := by
  cases t with
  | fetch f => exact h.1.trans hi
  | write f rest b =>
    obtain ⟨z, h1, h2⟩ := hi
    exact ⟨z, h.1.trans h1, h2⟩
  | cleanup f => trivial
  | unzip f => trivial
  | extract f rest =>
    obtain ⟨h1, past, h2, h3⟩ := hi
    refine ⟨h.1.trans h1, past, h2, fun p hp => ?_⟩
    obtain ⟨b, hb, hd⟩ := h3 p hp
    exact ⟨b, hb, by rw [h.2.2 _ h2 p (List.mem_append_left _ hp)]; exact hd⟩
  | remove f => exact ⟨h.1.trans hi.1, h.extracted.2 hi.2⟩
  | mark f => exact ⟨h.1.trans hi.1, h.extracted.2 hi.2⟩

theorem SameFor.refl (cfg : Config) (d : Disk) (g : String) : SameFor cfg d d g := ⟨rfl, Iff.rfl, fun _ _ _ _ => rfl⟩

theorem sameFor_zips_set {cfg : Config} {d : Disk} {f g : String} (h : g ≠ f) (z : Bytes) :
    SameFor cfg d { d with zips := d.zips.set f z } g :=
  ⟨Dict.get?_set_ne _ _ (Ne.symm h), Iff.rfl, fun _ _ _ _ => rfl⟩

theorem sameFor_zips_pop {cfg : Config} {d : Disk} (hn : d.zips.NodupKeys) {f g : String} (h : g ≠ f) :
    SameFor cfg d { d with zips := d.zips.pop f } g :=
  ⟨by rw [get?_pop hn, if_neg h], Iff.rfl, fun _ _ _ _ => rfl⟩

theorem step_write {cfg : Config} {d : Disk} {f : String} {z : Bytes} (h : d.zips.get? f = some z) {c : Bytes}
    {rest : List Bytes} {b : Bool} : taskStep cfg d (.write f (c :: rest) b) .good =
      ({ d with zips := d.zips.set f (z ++ c) }, some (.write f rest b)) := by
  simp only [taskStep, h]

theorem step_write_none {cfg : Config} {d : Disk} {f : String} (h : d.zips.get? f = none) {c : Bytes}
    {rest : List Bytes} {b : Bool} : taskStep cfg d (.write f (c :: rest) b) .good = (d, some (.write f rest b)) := by
  simp only [taskStep, h]

theorem step_unzip_none {cfg : Config} {d : Disk} {f : String} (h : d.zips.get? f = none) :
    taskStep cfg d (.unzip f) .good = (d, none) := by
  simp only [taskStep, h]

theorem step_unzip_bad {cfg : Config} {d : Disk} {f : String} {z : Bytes} (h : d.zips.get? f = some z)
    (hu : cfg.unpack z = none) : taskStep cfg d (.unzip f) .good = (d, none) := by
  simp only [taskStep, h, hu]

theorem step_unzip {cfg : Config} {d : Disk} {f : String} {z : Bytes} (h : d.zips.get? f = some z)
    {ms : List (String × Option Bytes)} (hu : cfg.unpack z = some ms) :
    taskStep cfg d (.unzip f) .good = (d, some (.extract f ms)) := by
  simp only [taskStep, h, hu]

/-- A step of a task does not concern other archives. -/
theorem taskStep_frame {cfg : Config} (hc : Dataset cfg) {d : Disk} (hn : d.zips.NodupKeys) {t : Task} (ht : TaskInv cfg d t)
    (htr : t.name ∈ cfg.requested) (e : Event) {g : String} (hg : g ∈ cfg.requested) (hne : g ≠ t.name) :
    SameFor cfg d (taskStep cfg d t e).1 g := by
  have data : ∀ (f : String) (rest : List (String × Option Bytes)) (m : String) (x : Option Bytes) (b : Bytes),
      TaskInv cfg d (.extract f ((m, x) :: rest)) → f ∈ cfg.requested → g ≠ f →
      SameFor cfg d { d with data := d.data.set m b } g := by
    rintro f rest m x b ⟨-, past, hu, -⟩ hf hgf
    refine ⟨rfl, Iff.rfl, fun ms hms p hp => Dict.get?_set_ne _ _ ?_⟩
    exact fun e => hc.disjoint g hg f hf hgf ms _ hms hu p hp (m, x) (by simp) e.symm
  cases t with
  | fetch f => cases e <;> first | exact sameFor_zips_set hne _ | exact SameFor.refl _ _ _
  | write f rest b =>
    cases rest with
    | nil => cases b <;> cases e <;> exact SameFor.refl _ _ _
    | cons c rest =>
      cases e with
      | good =>
        cases hz : d.zips.get? f with
        | none => rw [step_write_none hz]; exact SameFor.refl _ _ _
        | some z => rw [step_write hz]; exact sameFor_zips_set hne _
      | fail => exact SameFor.refl _ _ _
      | response _ _ => exact SameFor.refl _ _ _
      | partly _ => exact SameFor.refl _ _ _
  | cleanup f => cases e <;> first | exact sameFor_zips_pop hn hne | exact SameFor.refl _ _ _
  | unzip f =>
    cases e with
    | good =>
      cases hz : d.zips.get? f with
      | none => rw [step_unzip_none hz]; exact SameFor.refl _ _ _
      | some z =>
        cases hu : cfg.unpack z with
        | none => rw [step_unzip_bad hz hu]; exact SameFor.refl _ _ _
        | some ms => rw [step_unzip hz hu]; exact SameFor.refl _ _ _
    | fail => exact SameFor.refl _ _ _
    | response _ _ => exact SameFor.refl _ _ _
    | partly _ => exact SameFor.refl _ _ _
  | extract f rest =>
    cases rest with
    | nil => cases e <;> exact SameFor.refl _ _ _
    | cons p rest =>
      obtain ⟨m, x⟩ := p
      cases e with
      | good =>
        cases x with
        | none => exact SameFor.refl _ _ _
        | some b => exact data f rest m _ b ht htr hne
      | fail => cases x <;> exact SameFor.refl _ _ _
      | response _ _ => cases x <;> exact SameFor.refl _ _ _
      | partly b => cases x <;> exact data f rest m _ b ht htr hne
  | remove f => cases e <;> first | exact sameFor_zips_pop hn hne | exact SameFor.refl _ _ _
  | mark f =>
    cases e with
    | good =>
      refine ⟨rfl, ?_, fun _ _ _ _ => rfl⟩
      unfold Marked
      simp only [taskStep, List.mem_cons]
      constructor
      · rintro (h | h)
        · exact absurd (markerOf_inj (hc.names _ hg) (hc.names _ htr) h) hne
        · exact h
      · exact .inr
    | fail => exact SameFor.refl _ _ _
    | response _ _ => exact SameFor.refl _ _ _
    | partly _ => exact SameFor.refl _ _ _

/-- What a step of a task does to its own archive. -/
structure StepSelf (cfg : Config) (d : Disk) (t : Task) (r : Disk × Option Task) : Prop where
  nodup : r.1.zips.NodupKeys
  keys : ∀ g z, r.1.zips.get? g = some z → g = t.name ∨ ∃ z', d.zips.get? g = some z'
  file : FileInv cfg r.1 t.name
  task : ∀ t', r.2 = some t' → t'.name = t.name ∧ TaskInv cfg r.1 t' ∧ ¬ Marked r.1 t.name ∧ (t'.downloads ↔ t.downloads)
  markers : ∀ m ∈ r.1.markers, m ∈ d.markers ∨ m = markerOf t.name
  kept : ¬ t.downloads → (d.zips.get? t.name ≠ none ∨ Extracted cfg d t.name) →
    (r.1.zips.get? t.name ≠ none ∨ Extracted cfg r.1 t.name)

/-- A step that leaves the disk alone. -/
theorem stepSelf_same {cfg : Config} {d : Disk} (hn : d.zips.NodupKeys) {t : Task} (hf : FileInv cfg d t.name)
    (hm : ¬ Marked d t.name) {o : Option Task}
    (ho : ∀ t', o = some t' → t'.name = t.name ∧ TaskInv cfg d t' ∧ (t'.downloads ↔ t.downloads)) :
    StepSelf cfg d t (d, o) :=
  ⟨hn, fun _ z h => .inr ⟨z, h⟩, hf, fun t' h => ⟨(ho t' h).1, (ho t' h).2.1, hm, (ho t' h).2.2⟩, fun _ h => .inl h,
    fun _ h => h⟩

theorem taskStep_self {cfg : Config} (hc : Dataset cfg) {d : Disk} (hn : d.zips.NodupKeys) {t : Task} (ht : TaskInv cfg d t)
    (htr : t.name ∈ cfg.requested) (hf : FileInv cfg d t.name) (hm : ¬ Marked d t.name) {e : Event} (he : Possible cfg t e) :
    StepSelf cfg d t (taskStep cfg d t e) := by
  have none' : ∀ t', (none : Option Task) = some t' → t'.name = t.name ∧ TaskInv cfg d t' ∧ (t'.downloads ↔ t.downloads) := by
    intro t' h; simp at h
  have same := fun {o} => stepSelf_same (o := o) hn hf hm
  cases t with
  | fetch f =>
    have clean : StepSelf cfg d (.fetch f) (d, some (.cleanup f)) :=
      same (by rintro t' h; cases h; exact ⟨rfl, trivial, by simp [Task.downloads]⟩)
    cases e with
    | response chunks broken =>
      have hg : (d.zips.set f []).get? f = some [] := Dict.get?_set_self _ _ _
      refine ⟨Dict.nodupKeys_set hn _ _, ?_, ⟨?_, ?_⟩, ?_, fun _ h => .inl h, ?_⟩
      · intro g z h
        by_cases hgf : g = f
        · exact .inl hgf
        · right
          exact ⟨z, by rw [← h]; exact (Dict.get?_set_ne _ _ (Ne.symm hgf)).symm⟩
      · intro z hz
        rw [show (taskStep cfg d (.fetch f) (.response chunks broken)).1.zips.get? (Task.fetch f).name = some [] from hg] at hz
        cases hz; exact List.nil_prefix
      · exact fun h => absurd h hm
      · rintro t' h
        cases h
        exact ⟨rfl, ⟨[], hg, he⟩, hm, by simp [Task.downloads]⟩
      · intro h; exact absurd trivial h
    | good => exact clean
    | fail => exact clean
    | partly b => exact clean
  | write f rest b =>
    have clean : StepSelf cfg d (.write f rest b) (d, some (.cleanup f)) :=
      same (by rintro t' h; cases h; exact ⟨rfl, trivial, by simp [Task.downloads]⟩)
    cases rest with
    | nil =>
      cases b with
      | true => cases e <;> exact clean
      | false => cases e <;> first | exact clean | exact same none'
    | cons c rest =>
      cases e with
      | good =>
        obtain ⟨z, hz, hp⟩ := ht
        rw [step_write hz]
        have hg : (d.zips.set f (z ++ c)).get? f = some (z ++ c) := Dict.get?_set_self _ _ _
        refine ⟨Dict.nodupKeys_set hn _ _, ?_, ⟨?_, ?_⟩, ?_, fun _ h => .inl h, ?_⟩
        · intro g z h
          by_cases hgf : g = f
          · exact .inl hgf
          · right
            exact ⟨z, by rw [← h]; exact (Dict.get?_set_ne _ _ (Ne.symm hgf)).symm⟩
        · intro z' hz'
          cases hg.symm.trans hz'
          exact List.IsPrefix.trans ⟨rest.flatten, by simp⟩ hp
        · exact fun h => absurd h hm
        · rintro t' h
          cases h
          exact ⟨rfl, ⟨z ++ c, hg, by simpa using hp⟩, hm, by simp [Task.downloads]⟩
        · intro h; exact absurd trivial h
      | fail => exact clean
      | response _ _ => exact clean
      | partly _ => exact clean
  | cleanup f =>
    cases e with
    | good =>
      have hg : (d.zips.pop f).get? f = none := by rw [get?_pop hn, if_pos rfl]
      refine ⟨Dict.nodupKeys_pop hn _, ?_, ⟨?_, fun h => absurd h hm⟩, ?_, fun _ h => .inl h, fun h => absurd trivial h⟩
      · intro g z h
        right
        simp only [taskStep] at h
        rw [get?_pop hn] at h
        split_ifs at h
        exact ⟨z, h⟩
      · intro z hz; cases hg.symm.trans hz
      · intro t' h; simp [taskStep] at h
    | fail => exact same none'
    | response _ _ => exact same none'
    | partly _ => exact same none'
  | unzip f =>
    cases e with
    | good =>
      cases hz : d.zips.get? f with
      | none => rw [step_unzip_none hz]; exact same none'
      | some z =>
        cases hu : cfg.unpack z with
        | none => rw [step_unzip_bad hz hu]; exact same none'
        | some ms =>
          rw [step_unzip hz hu]
          refine same ?_
          rintro t' h
          cases h
          have hzs : z = cfg.server f := by
            by_contra hne
            have := hc.truncated f htr z (hf.1 z hz) hne
            rw [this] at hu; cases hu
          refine ⟨rfl, ⟨by rw [← hzs]; exact hz, [], by rw [← hzs]; exact hu, by simp⟩, by simp [Task.downloads]⟩
    | fail => exact same none'
    | response _ _ => exact same none'
    | partly _ => exact same none'
  | extract f rest =>
    cases rest with
    | nil =>
      cases e with
      | good =>
        obtain ⟨h1, past, h2, h3⟩ := ht
        refine same ?_
        rintro t' h
        cases h
        rw [List.append_nil] at h2
        exact ⟨rfl, ⟨h1, past, h2, h3⟩, by simp [Task.downloads]⟩
      | fail => exact same none'
      | response _ _ => exact same none'
      | partly _ => exact same none'
    | cons p rest =>
      obtain ⟨m, x⟩ := p
      obtain ⟨h1, past, h2, h3⟩ := ht
      have put : ∀ (b : Bytes) (o : Option Task),
          (∀ t', o = some t' → t'.name = f ∧ TaskInv cfg { d with data := d.data.set m b } t' ∧ ¬ t'.downloads) →
          StepSelf cfg d (.extract f ((m, x) :: rest)) ({ d with data := d.data.set m b }, o) := by
        intro b o ho
        refine ⟨hn, fun _ z h => .inr ⟨z, h⟩, ⟨hf.1, fun h => absurd h hm⟩, ?_, fun _ h => .inl h, ?_⟩
        · intro t' h
          obtain ⟨k1, k2, k3⟩ := ho t' h
          exact ⟨k1, k2, hm, ⟨fun h => absurd h k3, fun h => h.elim⟩⟩
        · intro _ _
          left
          show d.zips.get? f ≠ none
          rw [h1]; simp
      have hnm : ∀ q ∈ past, m ≠ q.1 := by
        intro q hq e
        have := hc.members f htr _ h2
        rw [List.map_append, List.nodup_append] at this
        exact this.2.2 q.1 (List.mem_map.2 ⟨q, hq, rfl⟩) m (by simp) e.symm
      have again : ∀ b, StepSelf cfg d (.extract f ((m, x) :: rest))
          ({ d with data := d.data.set m b }, some (.extract f ((m, x) :: rest))) := by
        intro b
        refine put b _ ?_
        rintro t' h
        cases h
        refine ⟨rfl, ⟨h1, past, h2, fun q hq => ?_⟩, by simp [Task.downloads]⟩
        obtain ⟨b', hb', hd'⟩ := h3 q hq
        exact ⟨b', hb', by rw [← hd']; exact Dict.get?_set_ne _ _ (hnm q hq)⟩
      cases e with
      | good =>
        cases x with
        | none => exact same none'
        | some b =>
          refine put b _ ?_
          rintro t' h
          cases h
          refine ⟨rfl, ⟨h1, past ++ [(m, some b)], by simpa using h2, fun q hq => ?_⟩, by simp [Task.downloads]⟩
          rcases List.mem_append.1 hq with h | h
          · obtain ⟨b', hb', hd'⟩ := h3 q h
            exact ⟨b', hb', by rw [← hd']; exact Dict.get?_set_ne _ _ (hnm q h)⟩
          · rw [List.mem_singleton] at h
            subst h
            exact ⟨b, rfl, Dict.get?_set_self _ _ _⟩
      | fail => cases x <;> exact same none'
      | response _ _ => cases x <;> exact same none'
      | partly b => cases x <;> exact again b
  | remove f =>
    cases e with
    | good =>
      obtain ⟨h1, h2⟩ := ht
      have hg : (d.zips.pop f).get? f = none := by rw [get?_pop hn, if_pos rfl]
      refine ⟨Dict.nodupKeys_pop hn _, ?_, ⟨?_, fun h => absurd h hm⟩, ?_, fun _ h => .inl h, fun _ _ => .inr h2⟩
      · intro g z h
        right
        simp only [taskStep] at h
        rw [get?_pop hn] at h
        split_ifs at h
        exact ⟨z, h⟩
      · intro z hz; cases hg.symm.trans hz
      · rintro t' h
        cases h
        exact ⟨rfl, ⟨hg, h2⟩, hm, by simp [Task.downloads]⟩
    | fail => exact same none'
    | response _ _ => exact same none'
    | partly _ => exact same none'
  | mark f =>
    cases e with
    | good =>
      obtain ⟨h1, h2⟩ := ht
      refine ⟨hn, fun _ z h => .inr ⟨z, h⟩, ⟨hf.1, fun _ => ⟨h2, h1⟩⟩, ?_, ?_, fun _ _ => .inr h2⟩
      · intro t' h; simp [taskStep] at h
      · intro m h
        rcases List.mem_cons.1 h with h | h
        · exact .inr h
        · exact .inl h
    | fail => exact same none'
    | response _ _ => exact same none'
    | partly _ => exact same none'

/-- What holds where the main process is. -/
def PhaseInv (cfg : Config) (d : Disk) (tasks : List Task) : Main → Prop
  | .idle => tasks = []
  | .download _ => ∀ t ∈ tasks, t.downloads
  | .unzip _ b => (∀ t ∈ tasks, ¬ t.downloads) ∧
      (b = true → ∀ f ∈ cfg.requested, d.zips.get? f ≠ none ∨ Extracted cfg d f)
  | .finished a b => tasks = [] ∧ (a = true → b = true → ∀ f ∈ cfg.requested, Extracted cfg d f)

/-- The invariant of all histories. -/
structure Inv (cfg : Config) (s : Sys) : Prop where
  nodup : s.disk.zips.NodupKeys
  keys : ∀ f z, s.disk.zips.get? f = some z → f ∈ cfg.requested
  file : ∀ f ∈ cfg.requested, FileInv cfg s.disk f
  markers : ∀ m ∈ s.disk.markers, ∃ f ∈ cfg.requested, m = markerOf f
  tasks : ∀ t ∈ s.tasks, t.name ∈ cfg.requested ∧ TaskInv cfg s.disk t ∧ ¬ Marked s.disk t.name
  names : (s.tasks.map Task.name).Nodup
  phase : PhaseInv cfg s.disk s.tasks s.main

theorem inv_initial (cfg : Config) : Inv cfg Sys.initial :=
  ⟨Dict.nodupKeys_nil, by intro f z h; simp [Sys.initial, Disk.empty] at h,
    fun f _ => ⟨by intro z h; simp [Sys.initial, Disk.empty] at h, by intro h; simp [Sys.initial, Disk.empty, Marked] at h⟩,
    by intro m h; simp [Sys.initial, Disk.empty] at h, by intro t h; simp [Sys.initial] at h, by simp [Sys.initial], rfl⟩

theorem mem_existing {cfg : Config} (hc : Dataset cfg) {s : Sys} (hi : Inv cfg s) (f : String) :
    f ∈ existingZips s.disk ↔ ∃ z, s.disk.zips.get? f = some z := by
  unfold existingZips
  rw [List.mem_filter]
  constructor
  · rintro ⟨h, -⟩
    rw [← Dict.has_iff, Dict.has_iff_mem_keys]; exact h
  · rintro ⟨z, hz⟩
    exact ⟨(Dict.has_iff_mem_keys _ _).1 ((Dict.has_iff _ _).2 ⟨z, hz⟩), globMatches_zip (hc.names f (hi.keys f z hz))⟩

theorem mem_extracted {cfg : Config} (hc : Dataset cfg) {s : Sys} (hi : Inv cfg s) {f : String} (hf : f ∈ cfg.requested) :
    f ∈ extractedZips s.disk ↔ Marked s.disk f := by
  unfold extractedZips Marked
  rw [List.mem_map]
  constructor
  · rintro ⟨m, hm, rfl⟩
    have hm' := (List.mem_filter.1 hm).1
    obtain ⟨g, hg, rfl⟩ := hi.markers m hm'
    rw [zipOfMarker_markerOf (hc.names g hg)]
    exact hm'
  · intro h
    exact ⟨markerOf f, List.mem_filter.2 ⟨h, globMatches_cache (hc.names f hf)⟩, zipOfMarker_markerOf (hc.names f hf)⟩

theorem mem_remaining {cfg : Config} (hc : Dataset cfg) {s : Sys} (hi : Inv cfg s) (f : String) :
    f ∈ remainingZips cfg s.disk ↔ f ∈ cfg.requested ∧ s.disk.zips.get? f = none ∧ ¬ Marked s.disk f := by
  unfold remainingZips removeExistingFiles
  rw [List.mem_filter, decide_eq_true_eq, List.mem_append, not_or]
  constructor
  · rintro ⟨hf, h1, h2⟩
    refine ⟨hf, ?_, fun h => h2 ((mem_extracted hc hi hf).2 h)⟩
    cases hz : s.disk.zips.get? f with
    | none => rfl
    | some z => exact absurd ((mem_existing hc hi f).2 ⟨z, hz⟩) h1
  · rintro ⟨hf, h1, h2⟩
    refine ⟨hf, fun h => ?_, fun h => h2 ((mem_extracted hc hi hf).1 h)⟩
    obtain ⟨z, hz⟩ := (mem_existing hc hi f).1 h
    rw [h1] at hz; cases hz

theorem nodup_existing {cfg : Config} {s : Sys} (hi : Inv cfg s) : (existingZips s.disk).Nodup :=
  List.Nodup.filter _ hi.nodup

theorem nodup_remaining {cfg : Config} (hc : Dataset cfg) (s : Sys) : (remainingZips cfg s.disk).Nodup :=
  List.Nodup.filter _ hc.nodup

/-- The same disk at a point where no task is running. -/
theorem Inv.rest {cfg : Config} {s : Sys} (hi : Inv cfg s) {m : Main} (h : PhaseInv cfg s.disk [] m) :
    Inv cfg ⟨s.disk, m, []⟩ :=
  ⟨hi.nodup, hi.keys, hi.file, hi.markers, by simp, by simp, h⟩

theorem inv_enterUnzip {cfg : Config} (hc : Dataset cfg) {s : Sys} (hi : Inv cfg s) (n : ℕ) (b : Bool)
    (hb : b = true → ∀ f ∈ cfg.requested, s.disk.zips.get? f ≠ none ∨ Extracted cfg s.disk f) :
    Inv cfg (enterUnzip s n b) := by
  unfold enterUnzip
  split_ifs with h1 h2
  · refine hi.rest ⟨rfl, fun h _ f hf => ?_⟩
    rcases hb h f hf with h3 | h3
    · exfalso
      cases hz : s.disk.zips.get? f with
      | none => exact h3 hz
      | some z =>
        have := (mem_existing hc hi f).2 ⟨z, hz⟩
        rw [h1] at this; simp at this
    · exact h3
  · refine ⟨hi.nodup, hi.keys, hi.file, hi.markers, ?_, ?_, ?_, hb⟩
    · intro t ht
      obtain ⟨f, hf, rfl⟩ := List.mem_map.1 ht
      obtain ⟨z, hz⟩ := (mem_existing hc hi f).1 hf
      have hr := hi.keys f z hz
      refine ⟨hr, trivial, fun hm => ?_⟩
      have := ((hi.file f hr).2 hm).2
      rw [hz] at this; cases this
    · rw [List.map_map]
      show ((existingZips s.disk).map id).Nodup
      rw [List.map_id]; exact nodup_existing hi
    · intro t ht
      obtain ⟨f, hf, rfl⟩ := List.mem_map.1 ht
      simp [Task.downloads]
  · exact hi.rest ⟨rfl, fun _ h => by simp at h⟩

theorem inv_enterDownload {cfg : Config} (hc : Dataset cfg) {s : Sys} (hi : Inv cfg s) (n : ℕ) :
    Inv cfg (enterDownload cfg s n) := by
  unfold enterDownload
  split_ifs with h1 h2
  · refine inv_enterUnzip hc hi _ _ (fun _ f hf => ?_)
    by_contra hno
    rw [not_or, not_ne_iff] at hno
    have : f ∈ remainingZips cfg s.disk := (mem_remaining hc hi f).2 ⟨hf, hno.1, fun hm => hno.2 ((hi.file f hf).2 hm).1⟩
    rw [h1] at this; simp at this
  · refine ⟨hi.nodup, hi.keys, hi.file, hi.markers, ?_, ?_, ?_⟩
    · intro t ht
      obtain ⟨f, hf, rfl⟩ := List.mem_map.1 ht
      obtain ⟨k1, k2, k3⟩ := (mem_remaining hc hi f).1 hf
      exact ⟨k1, k2, k3⟩
    · rw [List.map_map]
      show ((remainingZips cfg s.disk).map id).Nodup
      rw [List.map_id]; exact nodup_remaining hc s
    · intro t ht
      obtain ⟨f, hf, rfl⟩ := List.mem_map.1 ht
      trivial
  · exact inv_enterUnzip hc hi _ _ (fun h => by simp at h)

theorem inv_mainStep {cfg : Config} (hc : Dataset cfg) {s : Sys} (hi : Inv cfg s) (ht : s.tasks = []) :
    Inv cfg (mainStep cfg s) := by
  unfold mainStep
  split
  · exact inv_enterDownload hc hi _
  · exact inv_enterDownload hc hi _
  · rename_i n b hm
    refine inv_enterUnzip hc hi _ _ ?_
    have := hi.phase
    rw [hm] at this
    exact this.2
  · have := hi.rest (m := .idle) rfl
    rw [← ht] at this
    exact this

/-- Tasks other than the one that moves. -/
theorem others_ne {l r : List Task} {t u : Task} (h : ((l ++ t :: r).map Task.name).Nodup) (hu : u ∈ l ++ r) :
    u.name ≠ t.name := by
  rw [List.map_append, List.map_cons, List.nodup_middle, List.nodup_cons, ← List.map_append] at h
  exact fun e => h.1 (e ▸ List.mem_map.2 ⟨u, hu, rfl⟩)

theorem inv_work {cfg : Config} (hc : Dataset cfg) {d : Disk} {m : Main} {l r : List Task} {t : Task}
    (hi : Inv cfg ⟨d, m, l ++ t :: r⟩) {e : Event} (he : Possible cfg t e) :
    Inv cfg ⟨(taskStep cfg d t e).1, m, l ++ (taskStep cfg d t e).2.toList ++ r⟩ := by
  obtain ⟨htr, hti, htm⟩ := hi.tasks t (by simp)
  have self := taskStep_self hc hi.nodup hti htr (hi.file _ htr) htm he
  have frame : ∀ g ∈ cfg.requested, g ≠ t.name → SameFor cfg d (taskStep cfg d t e).1 g :=
    fun g hg hne => taskStep_frame hc hi.nodup hti htr e hg hne
  generalize hs : taskStep cfg d t e = res at self frame ⊢
  obtain ⟨d', o⟩ := res
  have hmem : ∀ u ∈ l ++ o.toList ++ r, u ∈ l ++ r ∨ o = some u := by
    intro u hu
    simp only [List.mem_append, Option.mem_toList, Option.mem_def] at hu ⊢
    tauto
  have hext : ∀ f ∈ cfg.requested, f ≠ t.name → Extracted cfg d f → Extracted cfg d' f :=
    fun f hf hne h => (frame f hf hne).extracted.2 h
  refine ⟨self.nodup, ?_, ?_, ?_, ?_, ?_, ?_⟩
  · intro f z h
    rcases self.keys f z h with h | ⟨z', h⟩
    · rw [h]; exact htr
    · exact hi.keys f z' h
  · intro f hf
    by_cases hft : f = t.name
    · rw [hft]; exact self.file
    · exact (frame f hf hft).fileInv (hi.file f hf)
  · intro m hm
    rcases self.markers m hm with h | h
    · exact hi.markers m h
    · exact ⟨t.name, htr, h⟩
  · intro u hu
    rcases hmem u hu with h | h
    · have hne := others_ne hi.names h
      obtain ⟨k1, k2, k3⟩ := hi.tasks u (by
        simp only [List.mem_append, List.mem_cons] at h ⊢
        tauto)
      have fr := frame u.name k1 hne
      exact ⟨k1, fr.taskInv k2, fun hm => k3 (fr.2.1.1 hm)⟩
    · obtain ⟨k1, k2, k3, -⟩ := self.task u h
      exact ⟨by rw [k1]; exact htr, k2, by rw [k1]; exact k3⟩
  · have hn := hi.names
    cases o with
    | none =>
      simp only [Option.toList_none, List.append_nil, List.map_append, List.map_cons, List.nodup_middle,
        List.nodup_cons] at hn ⊢
      exact hn.2
    | some u =>
      obtain ⟨k1, -⟩ := self.task u rfl
      simp only [Option.toList_some, List.append_assoc, List.cons_append, List.nil_append, List.map_append, List.map_cons] at hn ⊢
      rw [k1]; exact hn
  · have hp := hi.phase
    cases m with
    | idle =>
      have : l ++ t :: r = [] := hp
      simp at this
    | download n =>
      intro u hu
      rcases hmem u hu with h | h
      · exact hp u (by
          simp only [List.mem_append, List.mem_cons] at h ⊢
          tauto)
      · exact (self.task u h).2.2.2.2 (hp t (by simp))
    | unzip n b =>
      refine ⟨?_, fun hb f hf => ?_⟩
      · intro u hu
        rcases hmem u hu with h | h
        · exact hp.1 u (by
            simp only [List.mem_append, List.mem_cons] at h ⊢
            tauto)
        · exact fun hd => hp.1 t (by simp) ((self.task u h).2.2.2.1 hd)
      · by_cases hft : f = t.name
        · rw [hft]
          exact self.kept (hp.1 t (by simp)) (hp.2 hb _ htr)
        · rcases hp.2 hb f hf with h | h
          · left
            show d'.zips.get? f ≠ none
            rw [(frame f hf hft).1]; exact h
          · exact .inr (hext f hf hft h)
    | finished a b =>
      have : l ++ t :: r = [] := hp.1
      simp at this

theorem inv_step {cfg : Config} (hc : Dataset cfg) {occurs : Task → Event → Prop} (ho : ∀ t e, occurs t e → Possible cfg t e)
    {killed : Bool} {s s' : Sys} (hi : Inv cfg s) (h : Step cfg occurs killed s s') : Inv cfg s' := by
  cases h with
  | work d m l r t e he => exact inv_work hc hi (ho t e he)
  | main d m => exact inv_mainStep hc hi rfl
  | crash _ _ => exact hi.rest rfl

theorem inv_reaches {cfg : Config} (hc : Dataset cfg) {occurs : Task → Event → Prop}
    (ho : ∀ t e, occurs t e → Possible cfg t e) {killed : Bool} {s s' : Sys} (hi : Inv cfg s)
    (h : Reaches cfg occurs killed s s') : Inv cfg s' := by
  induction h with
  | refl => exact hi
  | tail _ h ih => exact inv_step hc ho ih h

theorem orderly_possible {cfg : Config} (t : Task) (e : Event) (h : Orderly cfg t e) : Possible cfg t e := by
  cases t with
  | fetch f => cases e <;> first | exact h.1 | trivial
  | extract f rest =>
    cases rest with
    | nil => cases e <;> trivial
    | cons p rest =>
      obtain ⟨m, x⟩ := p
      cases x <;> cases e <;> first | exact h | trivial
  | _ => cases e <;> trivial

theorem faultFree_orderly {cfg : Config} (t : Task) (e : Event) (h : FaultFree cfg t e) : Orderly cfg t e := by
  cases t with
  | fetch f =>
    cases e with
    | response chunks broken => exact ⟨by rw [h.1]; exact List.prefix_refl _, fun _ => h.1⟩
    | _ => exact h.elim
  | extract f rest =>
    cases (show e = .good from h)
    cases rest with
    | nil => trivial
    | cons p rest =>
      obtain ⟨m, x⟩ := p
      cases x <;> trivial
  | cleanup f => exact h
  | _ => cases (show e = .good from h); trivial

/-! ### Orderly histories -/

/-- Archives no download is busy with are complete, and an unbroken transfer completes its archive. -/
structure WholeInv (cfg : Config) (s : Sys) : Prop where
  rest : ∀ f z, s.disk.zips.get? f = some z → (∀ t ∈ s.tasks, t.name = f → ¬ t.downloads) → z = cfg.server f
  write : ∀ f rest, Task.write f rest false ∈ s.tasks → ∀ z, s.disk.zips.get? f = some z → z ++ rest.flatten = cfg.server f

theorem wholeInv_rest {cfg : Config} {s : Sys} (hw : WholeInv cfg s) (ht : s.tasks = []) : Whole cfg s.disk :=
  fun f z h => hw.rest f z h (by simp [ht])

theorem whole_fetches {cfg : Config} (hc : Dataset cfg) {s : Sys} (hi : Inv cfg s) (hw : Whole cfg s.disk) (m : Main) :
    WholeInv cfg ⟨s.disk, m, (remainingZips cfg s.disk).map .fetch⟩ := by
  refine ⟨fun f z h _ => hw f z h, ?_⟩
  intro f rest h
  obtain ⟨g, -, hg⟩ := List.mem_map.1 h
  cases hg

theorem whole_unzips {cfg : Config} {s : Sys} (hw : Whole cfg s.disk) (m : Main) (l : List String) :
    WholeInv cfg ⟨s.disk, m, l.map .unzip⟩ := by
  refine ⟨fun f z h _ => hw f z h, ?_⟩
  intro f rest h
  obtain ⟨g, -, hg⟩ := List.mem_map.1 h
  cases hg

theorem whole_mainStep {cfg : Config} (hc : Dataset cfg) {s : Sys} (hi : Inv cfg s) (hw : Whole cfg s.disk) :
    WholeInv cfg (mainStep cfg s) ∨ (∃ m, mainStep cfg s = ⟨s.disk, m, s.tasks⟩) := by
  have none' : ∀ m, WholeInv cfg ⟨s.disk, m, []⟩ := fun m => ⟨fun f z h _ => hw f z h, by simp⟩
  have uz : ∀ n b, WholeInv cfg (enterUnzip s n b) := by
    intro n b
    unfold enterUnzip
    split_ifs
    · exact none' _
    · exact whole_unzips hw _ _
    · exact none' _
  have dl : ∀ n, WholeInv cfg (enterDownload cfg s n) := by
    intro n
    unfold enterDownload
    split_ifs
    · exact uz _ _
    · exact whole_fetches hc hi hw _
    · exact uz _ _
  unfold mainStep
  split
  · exact .inl (dl _)
  · exact .inl (dl _)
  · exact .inl (uz _ _)
  · exact .inr ⟨_, rfl⟩

theorem whole_work {cfg : Config} (hc : Dataset cfg) {d : Disk} {m : Main} {l r : List Task} {t : Task}
    (hi : Inv cfg ⟨d, m, l ++ t :: r⟩) (hw : WholeInv cfg ⟨d, m, l ++ t :: r⟩) {e : Event} (he : Orderly cfg t e) :
    WholeInv cfg ⟨(taskStep cfg d t e).1, m, l ++ (taskStep cfg d t e).2.toList ++ r⟩ := by
  obtain ⟨htr, hti, htm⟩ := hi.tasks t (by simp)
  have frame : ∀ g ∈ cfg.requested, g ≠ t.name → SameFor cfg d (taskStep cfg d t e).1 g :=
    fun g hg hne => taskStep_frame hc hi.nodup hti htr e hg hne
  have hi' := inv_work hc hi (orderly_possible t e he)
  have self := taskStep_self hc hi.nodup hti htr (hi.file _ htr) htm (orderly_possible t e he)
  -- what happens to the archive of the task
  have own : ∀ z, (taskStep cfg d t e).1.zips.get? t.name = some z →
      ((∀ u, (taskStep cfg d t e).2 = some u → ¬ u.downloads) → z = cfg.server t.name) ∧
      (∀ f rest, (taskStep cfg d t e).2 = some (.write f rest false) → z ++ rest.flatten = cfg.server t.name) := by
    have old : ¬ t.downloads → ∀ z, d.zips.get? t.name = some z → z = cfg.server t.name := by
      intro hd z hz
      refine hw.rest t.name z hz ?_
      intro u hu hun
      rcases List.mem_append.1 hu with h | h
      · exact absurd hun (others_ne hi.names (List.mem_append_left _ h))
      · rcases List.mem_cons.1 h with h | h
        · rw [h]; exact hd
        · exact absurd hun (others_ne hi.names (List.mem_append_right _ h))
    intro z hz
    cases t with
    | fetch f =>
      cases e with
      | response chunks broken =>
        have h0 : (d.zips.set f []).get? f = some [] := Dict.get?_set_self _ _ _
        cases h0.symm.trans hz
        refine ⟨fun h => absurd trivial (h _ rfl), fun g rest h => ?_⟩
        cases h
        exact he.2 rfl
      | _ => exact ⟨fun h => absurd trivial (h _ rfl), fun g rest h => by cases h⟩
    | write f rest b =>
      cases rest with
      | nil =>
        cases b with
        | true => cases e <;> exact ⟨fun h => absurd trivial (h _ rfl), fun g rest h => by cases h⟩
        | false =>
          cases e with
          | good =>
            have := hw.write f [] (by simp) z hz
            exact ⟨fun _ => by simpa [Task.name] using this, fun g rest h => by cases h⟩
          | _ => exact ⟨fun h => absurd trivial (h _ rfl), fun g rest h => by cases h⟩
      | cons c rest =>
        cases e with
        | good =>
          obtain ⟨z0, h0, -⟩ := hti
          rw [step_write h0] at hz ⊢
          have h1 : (d.zips.set f (z0 ++ c)).get? f = some (z0 ++ c) := Dict.get?_set_self _ _ _
          cases h1.symm.trans hz
          refine ⟨fun h => absurd trivial (h _ rfl), fun g rest' h => ?_⟩
          cases h
          have := hw.write f (c :: rest) (by simp) z0 h0
          simpa [Task.name] using this
        | _ => exact ⟨fun h => absurd trivial (h _ rfl), fun g rest h => by cases h⟩
    | cleanup f =>
      cases (show e = .good from he)
      have h0 : (d.zips.pop f).get? f = none := by rw [get?_pop hi.nodup, if_pos rfl]
      cases h0.symm.trans hz
    | unzip f =>
      have hd : ¬ (Task.unzip f).downloads := by simp [Task.downloads]
      have hzz : d.zips.get? f = some z := by
        cases e with
        | good =>
          cases h0 : d.zips.get? f with
          | none => rw [step_unzip_none h0] at hz; rw [← h0]; exact hz
          | some z0 =>
            cases hu : cfg.unpack z0 with
            | none => rw [step_unzip_bad h0 hu] at hz; rw [← h0]; exact hz
            | some ms => rw [step_unzip h0 hu] at hz; rw [← h0]; exact hz
        | _ => exact hz
      refine ⟨fun _ => old hd z hzz, fun g rest h => absurd trivial ?_⟩
      exact fun _ => hd ((self.task _ h).2.2.2.1 trivial)
    | extract f rest =>
      have hd : ¬ (Task.extract f rest).downloads := by simp [Task.downloads]
      refine ⟨fun _ => ?_, fun g rest h => absurd trivial (fun _ => hd ((self.task _ h).2.2.2.1 trivial))⟩
      refine old hd z ?_
      cases rest with
      | nil => cases e <;> exact hz
      | cons p rest =>
        obtain ⟨m, x⟩ := p
        cases x <;> cases e <;> exact hz
    | remove f =>
      have hd : ¬ (Task.remove f).downloads := by simp [Task.downloads]
      refine ⟨fun _ => ?_, fun g rest h => absurd trivial (fun _ => hd ((self.task _ h).2.2.2.1 trivial))⟩
      cases e with
      | good =>
        have h0 : (d.zips.pop f).get? f = none := by rw [get?_pop hi.nodup, if_pos rfl]
        cases h0.symm.trans hz
      | _ => exact old hd z hz
    | mark f =>
      have hd : ¬ (Task.mark f).downloads := by simp [Task.downloads]
      refine ⟨fun _ => ?_, fun g rest h => absurd trivial (fun _ => hd ((self.task _ h).2.2.2.1 trivial))⟩
      cases e <;> exact old hd z hz
  generalize taskStep cfg d t e = res at frame own hi' self ⊢
  obtain ⟨d', o⟩ := res
  refine ⟨?_, ?_⟩
  · intro f z hz hno
    by_cases hft : f = t.name
    · subst hft
      refine (own z hz).1 (fun u hu => hno u ?_ ?_)
      · have hu' : o = some u := hu
        simp [hu']
      · exact (self.task u hu).1
    · have hfr := hi'.keys f z hz
      have hz' : d.zips.get? f = some z := by rw [← (frame f hfr hft).1]; exact hz
      refine hw.rest f z hz' (fun u hu hun => ?_)
      by_cases hut : u = t
      · exact absurd (hut ▸ hun.symm) hft
      · refine hno u ?_ hun
        simp only [List.mem_append, List.mem_cons, hut, false_or] at hu ⊢
        tauto
  · intro f rest hmem z hz
    have hmem' : Task.write f rest false ∈ l ++ r ∨ o = some (.write f rest false) := by
      simp only [List.mem_append, Option.mem_toList, Option.mem_def] at hmem ⊢
      tauto
    rcases hmem' with h | h
    · have hne : f ≠ t.name := others_ne hi.names h
      have hz' : d.zips.get? f = some z := by rw [← (frame f (hi'.keys f z hz) hne).1]; exact hz
      refine hw.write f rest ?_ z hz'
      simp only [List.mem_append, List.mem_cons] at h ⊢
      tauto
    · have hn : f = t.name := (self.task _ h).1
      subst hn
      exact (own z hz).2 _ _ h

theorem whole_step {cfg : Config} (hc : Dataset cfg) {s s' : Sys} (hi : Inv cfg s) (hw : WholeInv cfg s)
    (h : Step cfg (Orderly cfg) false s s') : WholeInv cfg s' := by
  cases h with
  | work d m l r t e he => exact whole_work hc hi hw he
  | main d m =>
    rcases whole_mainStep hc hi (wholeInv_rest hw rfl) with h | ⟨m', h⟩
    · exact h
    · rw [h]
      exact ⟨hw.rest, by simp⟩
  | crash _ h => cases h

theorem whole_reaches {cfg : Config} (hc : Dataset cfg) {s s' : Sys} (hi : Inv cfg s) (hw : WholeInv cfg s)
    (h : Reaches cfg (Orderly cfg) false s s') : WholeInv cfg s' := by
  induction h with
  | refl => exact hw
  | tail h1 h ih => exact whole_step hc (inv_reaches hc orderly_possible hi h1) ih h

/-! ### Runs in which nothing fails -/

/-- What holds where the main process is, in a run in which nothing fails. -/
def GoodPhase (cfg : Config) (d : Disk) (tasks : List Task) : Main → Prop
  | .idle => True
  | .download n => n = 1 ∧ (∀ f, .cleanup f ∉ tasks) ∧ (∀ f rest, .write f rest true ∉ tasks) ∧
      ∀ f ∈ cfg.requested, d.zips.get? f ≠ none ∨ Marked d f ∨ ∃ t ∈ tasks, t.name = f
  | .unzip n b => n = 1 ∧ b = true ∧ (∀ f, .unzip f ∈ tasks → d.zips.get? f ≠ none) ∧ (∀ f, d.zips.get? f ≠ none → ∃ t ∈ tasks, t.name = f) ∧
      ∀ f ∈ cfg.requested, d.zips.get? f ≠ none ∨ Marked d f ∨ ∃ t ∈ tasks, t.name = f
  | .finished a b => a = true ∧ b = true ∧ ∀ f ∈ cfg.requested, Marked d f

structure GoodInv (cfg : Config) (s : Sys) : Prop where
  inv : Inv cfg s
  whole : WholeInv cfg s
  phase : GoodPhase cfg s.disk s.tasks s.main

theorem good_enterUnzip {cfg : Config} (hc : Dataset cfg) {s : Sys} (hi : Inv cfg s)
    (h : ∀ f ∈ cfg.requested, s.disk.zips.get? f ≠ none ∨ Marked s.disk f) :
    GoodPhase cfg (enterUnzip s 0 true).disk (enterUnzip s 0 true).tasks (enterUnzip s 0 true).main ∧
      ((∃ b, (enterUnzip s 0 true).main = .unzip 1 b) ∨ (enterUnzip s 0 true).main = .finished true true) := by
  unfold enterUnzip
  by_cases h1 : existingZips s.disk = []
  · rw [if_pos h1]
    refine ⟨⟨rfl, rfl, fun f hf => ?_⟩, .inr rfl⟩
    rcases h f hf with h2 | h2
    · exfalso
      cases hz : s.disk.zips.get? f with
      | none => exact h2 hz
      | some z =>
        have := (mem_existing hc hi f).2 ⟨z, hz⟩
        rw [h1] at this; simp at this
    · exact h2
  · rw [if_neg h1, if_pos (by decide)]
    refine ⟨⟨rfl, rfl, fun f hf => ?_, fun f hf => ?_, fun f hf => ?_⟩, .inl ⟨_, rfl⟩⟩
    · obtain ⟨g, hg, e⟩ := List.mem_map.1 hf
      cases e
      obtain ⟨z, hz⟩ := (mem_existing hc hi f).1 hg
      show s.disk.zips.get? f ≠ none
      rw [hz]; simp
    · cases hz : s.disk.zips.get? f with
      | none => exact absurd hz hf
      | some z => exact ⟨.unzip f, List.mem_map.2 ⟨f, (mem_existing hc hi f).2 ⟨z, hz⟩, rfl⟩, rfl⟩
    · rcases h f hf with h2 | h2
      · exact .inl h2
      · exact .inr (.inl h2)

theorem good_start {cfg : Config} (hc : Dataset cfg) {s : Sys} (hi : Inv cfg s) :
    GoodPhase cfg (enterDownload cfg s 0).disk (enterDownload cfg s 0).tasks (enterDownload cfg s 0).main ∧
      ((enterDownload cfg s 0).main = .download 1 ∨ (∃ b, (enterDownload cfg s 0).main = .unzip 1 b) ∨
        (enterDownload cfg s 0).main = .finished true true) := by
  unfold enterDownload
  by_cases h1 : remainingZips cfg s.disk = []
  · rw [if_pos h1]
    obtain ⟨k1, k2⟩ := good_enterUnzip hc hi (fun f hf => by
      by_contra hno
      rw [not_or, not_ne_iff] at hno
      have : f ∈ remainingZips cfg s.disk := (mem_remaining hc hi f).2 ⟨hf, hno.1, hno.2⟩
      rw [h1] at this; simp at this)
    exact ⟨k1, .inr k2⟩
  · rw [if_neg h1, if_pos (by decide)]
    refine ⟨⟨rfl, ?_, ?_, fun f hf => ?_⟩, .inl rfl⟩
    · intro f h
      obtain ⟨g, -, hg⟩ := List.mem_map.1 h
      cases hg
    · intro f rest h
      obtain ⟨g, -, hg⟩ := List.mem_map.1 h
      cases hg
    · by_cases h2 : s.disk.zips.get? f = none
      · by_cases h3 : Marked s.disk f
        · exact .inr (.inl h3)
        · exact .inr (.inr ⟨.fetch f, List.mem_map.2 ⟨f, (mem_remaining hc hi f).2 ⟨hf, h2, h3⟩, rfl⟩, rfl⟩)
      · exact .inl h2

/-- The step of the main process in a run in which nothing fails. -/
theorem good_mainStep {cfg : Config} (hc : Dataset cfg) {s : Sys} (hg : GoodInv cfg s) (ht : s.tasks = []) :
    GoodPhase cfg (mainStep cfg s).disk (mainStep cfg s).tasks (mainStep cfg s).main ∧
    (match s.main with
      | .idle => (mainStep cfg s).main = .download 1 ∨ (∃ b, (mainStep cfg s).main = .unzip 1 b) ∨
          (mainStep cfg s).main = .finished true true
      | .download _ => (∃ b, (mainStep cfg s).main = .unzip 1 b) ∨ (mainStep cfg s).main = .finished true true
      | .unzip _ _ => (mainStep cfg s).main = .finished true true
      | .finished _ _ => (mainStep cfg s).main = .idle) := by
  obtain ⟨hi, hw, hp⟩ := hg
  unfold mainStep
  cases hm : s.main with
  | idle => exact good_start hc hi
  | download n =>
    rw [hm] at hp
    obtain ⟨rfl, -, -, h⟩ := hp
    have h' : ∀ f ∈ cfg.requested, s.disk.zips.get? f ≠ none ∨ Marked s.disk f := by
      intro f hf
      rcases h f hf with h | h | ⟨t, h, -⟩
      · exact .inl h
      · exact .inr h
      · rw [ht] at h; simp at h
    have h1 : remainingZips cfg s.disk = [] := by
      rw [List.eq_nil_iff_forall_not_mem]
      intro f hf
      obtain ⟨k1, k2, k3⟩ := (mem_remaining hc hi f).1 hf
      rcases h' f k1 with h | h
      · exact h k2
      · exact k3 h
    dsimp only
    unfold enterDownload
    rw [if_pos h1]
    exact good_enterUnzip hc hi h'
  | unzip n b =>
    rw [hm] at hp
    obtain ⟨rfl, rfl, -, h0, h⟩ := hp
    have h1 : existingZips s.disk = [] := by
      rw [List.eq_nil_iff_forall_not_mem]
      intro f hf
      obtain ⟨z, hz⟩ := (mem_existing hc hi f).1 hf
      obtain ⟨t, h, -⟩ := h0 f (by rw [hz]; simp)
      rw [ht] at h; simp at h
    dsimp only
    unfold enterUnzip
    rw [if_pos h1]
    refine ⟨⟨rfl, rfl, fun f hf => ?_⟩, rfl⟩
    rcases h f hf with h | h | ⟨t, h, -⟩
    · exfalso
      cases hz : s.disk.zips.get? f with
      | none => exact h hz
      | some z =>
        have := (mem_existing hc hi f).2 ⟨z, hz⟩
        rw [h1] at this; simp at this
    · exact h
    · rw [ht] at h; simp at h
  | finished a b => exact ⟨trivial, rfl⟩

/-- How far a task is from its end: requests and openings left, smaller steps left. -/
def Task.left : Task → ℕ × ℕ
  | .fetch _ => (1, 0)
  | .write _ rest _ => (0, rest.length + 2)
  | .cleanup _ => (0, 1)
  | .unzip _ => (1, 0)
  | .extract _ rest => (0, rest.length + 3)
  | .remove _ => (0, 2)
  | .mark _ => (0, 1)

/-- The same for what remains of a task. -/
def optLeft : Option Task → ℕ × ℕ
  | none => (0, 0)
  | some u => u.left

/-- The order of progress. -/
def Less (a b : ℕ × ℕ) : Prop := a.1 < b.1 ∨ (a.1 = b.1 ∧ a.2 < b.2)

/-- A step of a task in which nothing fails: the task gets on, and its archive does not get lost. -/
theorem good_task {cfg : Config} (hc : Dataset cfg) (hint : Intact cfg) {d : Disk} {m : Main} {l r : List Task} {t : Task}
    (hi : Inv cfg ⟨d, m, l ++ t :: r⟩) (hw : WholeInv cfg ⟨d, m, l ++ t :: r⟩) (hcl : ∀ f, t ≠ .cleanup f)
    (hbr : ∀ f rest, t ≠ .write f rest true) (hun : ∀ f, t = .unzip f → d.zips.get? f ≠ none) {e : Event}
    (he : FaultFree cfg t e) :
    (match (taskStep cfg d t e).2 with
      | none => Less (0, 0) t.left ∧ (t.downloads → (taskStep cfg d t e).1.zips.get? t.name ≠ none) ∧
          (¬ t.downloads → Marked (taskStep cfg d t e).1 t.name ∧ (taskStep cfg d t e).1.zips.get? t.name = none)
      | some u => Less u.left t.left ∧ (∀ f, u ≠ .cleanup f) ∧ (∀ f rest, u ≠ .write f rest true) ∧ (∀ f, u ≠ .unzip f)) := by
  obtain ⟨htr, hti, htm⟩ := hi.tasks t (by simp)
  have old : ¬ t.downloads → ∀ z, d.zips.get? t.name = some z → z = cfg.server t.name := by
    intro hd z hz
    refine hw.rest t.name z hz ?_
    intro u hu hun
    rcases List.mem_append.1 hu with h | h
    · exact absurd hun (others_ne hi.names (List.mem_append_left _ h))
    · rcases List.mem_cons.1 h with h | h
      · rw [h]; exact hd
      · exact absurd hun (others_ne hi.names (List.mem_append_right _ h))
  cases t with
  | fetch f =>
    cases e with
    | response chunks broken =>
      obtain ⟨-, rfl⟩ := he
      exact ⟨.inl (by simp [Task.left]), by simp, by simp, by simp⟩
    | _ => exact he.elim
  | write f rest b =>
    cases (show e = .good from he)
    have hb : b = false := by
      cases b with
      | true => exact absurd rfl (hbr f rest)
      | false => rfl
    subst hb
    obtain ⟨z, hz, -⟩ := hti
    cases rest with
    | nil =>
      refine ⟨.inr ⟨rfl, by simp [Task.left]⟩, fun _ => ?_, fun h => absurd trivial h⟩
      show d.zips.get? f ≠ none
      rw [show d.zips.get? f = some z from hz]; simp
    | cons c rest =>
      rw [step_write hz]
      exact ⟨.inr ⟨rfl, by simp [Task.left]⟩, by simp, by simp, by simp⟩
  | cleanup f => exact absurd rfl (hcl f)
  | unzip f =>
    cases (show e = .good from he)
    cases hz : d.zips.get? f with
    | none => exact absurd hz (hun f rfl)
    | some z =>
      have := old (by simp [Task.downloads]) z hz
      obtain ⟨ms, hms, -⟩ := hint f htr
      rw [step_unzip hz (by rw [this]; exact hms)]
      exact ⟨.inl (by simp [Task.left]), by simp, by simp, by simp⟩
  | extract f rest =>
    cases (show e = .good from he)
    cases rest with
    | nil => exact ⟨.inr ⟨rfl, by simp [Task.left]⟩, by simp, by simp, by simp⟩
    | cons p rest =>
      obtain ⟨m, x⟩ := p
      cases x with
      | none =>
        obtain ⟨-, past, h2, -⟩ := hti
        obtain ⟨ms, hms, hsome⟩ := hint f htr
        cases h2.symm.trans hms
        exact absurd rfl (hsome (m, none) (by simp))
      | some b => exact ⟨.inr ⟨rfl, by simp [Task.left]⟩, by simp, by simp, by simp⟩
  | remove f =>
    cases (show e = .good from he)
    exact ⟨.inr ⟨rfl, by simp [Task.left]⟩, by simp, by simp, by simp⟩
  | mark f =>
    cases (show e = .good from he)
    refine ⟨.inr ⟨rfl, by simp [Task.left]⟩, fun h => h.elim, fun _ => ⟨?_, hti.1⟩⟩
    simp [taskStep, Marked, Task.name]

/-- How far a state is from the end of the run. -/
def Sys.left (s : Sys) : ℕ × ℕ × ℕ :=
  (match s.main with
    | .idle => 3
    | .download _ => 2
    | .unzip _ _ => 1
    | .finished _ _ => 0,
   (s.tasks.map fun t => t.left.1).sum, (s.tasks.map fun t => t.left.2).sum)

/-- The lexicographic order on triples. -/
def Progress : ℕ × ℕ × ℕ → ℕ × ℕ × ℕ → Prop := Prod.Lex (· < ·) (Prod.Lex (· < ·) (· < ·))

theorem progress_wf : WellFounded Progress :=
  WellFounded.prod_lex Nat.lt_wfRel.wf (WellFounded.prod_lex Nat.lt_wfRel.wf Nat.lt_wfRel.wf)

theorem progress_of_less {m : Main} {d d' : Disk} {l r : List Task} {t : Task} {o : Option Task}
    (h : Less (optLeft o) t.left) :
    Progress (Sys.left ⟨d', m, l ++ o.toList ++ r⟩) (Sys.left ⟨d, m, l ++ t :: r⟩) := by
  unfold Sys.left
  refine Prod.Lex.right _ ?_
  cases o with
  | none =>
    simp only [Option.toList_none, List.append_nil, List.map_append, List.sum_append, List.map_cons, List.sum_cons]
    simp only [Less, optLeft] at h
    rcases h with h | ⟨h1, h2⟩
    · exact Prod.Lex.left _ _ (by omega)
    · rw [← h1, Nat.zero_add]
      exact Prod.Lex.right _ (by omega)
  | some u =>
    simp only [Option.toList_some, List.append_assoc, List.cons_append, List.nil_append, List.map_append, List.sum_append,
      List.map_cons, List.sum_cons]
    simp only [Less, optLeft] at h
    rcases h with h | ⟨h1, h2⟩
    · exact Prod.Lex.left _ _ (by omega)
    · rw [h1]
      exact Prod.Lex.right _ (by omega)

/-- A step of a run in which nothing fails: the invariant holds on, and the run gets on, until it is finished. -/
theorem good_step {cfg : Config} (hc : Dataset cfg) (hint : Intact cfg) {s s' : Sys} (hg : GoodInv cfg s)
    (h : Step cfg (FaultFree cfg) false s s') :
    GoodInv cfg s' ∧ ((∀ a b, s.main ≠ .finished a b) → Progress s'.left s.left) := by
  have hord : Step cfg (Orderly cfg) false s s' := by
    cases h with
    | work d m l r t e he => exact .work d m l r t e (faultFree_orderly t e he)
    | main d m => exact .main d m
    | crash _ h => cases h
  have hi' := inv_step hc orderly_possible hg.inv hord
  have hw' := whole_step hc hg.inv hg.whole hord
  cases h with
  | crash _ h => cases h
  | main d m =>
    obtain ⟨h1, h2⟩ := good_mainStep hc hg rfl
    refine ⟨⟨hi', hw', h1⟩, fun hno => ?_⟩
    cases m with
    | idle =>
      rcases h2 with h | ⟨b, h⟩ | h <;>
        (unfold Sys.left; rw [h]; exact Prod.Lex.left _ _ (by simp))
    | download n =>
      rcases h2 with ⟨b, h⟩ | h <;>
        (unfold Sys.left; rw [h]; exact Prod.Lex.left _ _ (by simp))
    | unzip n b =>
      unfold Sys.left; rw [show (mainStep cfg ⟨d, .unzip n b, []⟩).main = .finished true true from h2]
      exact Prod.Lex.left _ _ (by simp)
    | finished a b => exact absurd rfl (hno a b)
  | work d m l r t e he =>
    have hi := hg.inv
    have hp := hg.phase
    obtain ⟨htr, hti, htm⟩ := hi.tasks t (by simp)
    have frame : ∀ g ∈ cfg.requested, g ≠ t.name → SameFor cfg d (taskStep cfg d t e).1 g :=
      fun g hg hne => taskStep_frame hc hi.nodup hti htr e hg hne
    have self := taskStep_self hc hi.nodup hti htr (hi.file _ htr) htm (orderly_possible t e (faultFree_orderly t e he))
    have hnc : ∀ f, t ≠ .cleanup f := by
      rintro f rfl
      cases m with
      | idle => exact absurd hi.phase (by simp [PhaseInv])
      | download n => exact hp.2.1 f (by simp)
      | unzip n b => exact hi.phase.1 (.cleanup f) (by simp) trivial
      | finished a b => exact absurd hi.phase.1 (by simp)
    have hnb : ∀ f rest, t ≠ .write f rest true := by
      rintro f rest rfl
      cases m with
      | idle => exact absurd hi.phase (by simp [PhaseInv])
      | download n => exact hp.2.2.1 f rest (by simp)
      | unzip n b => exact hi.phase.1 (.write f rest true) (by simp) trivial
      | finished a b => exact absurd hi.phase.1 (by simp)
    have hnu : ∀ f, t = .unzip f → d.zips.get? f ≠ none := by
      rintro f rfl
      cases m with
      | idle => exact absurd hi.phase (by simp [PhaseInv])
      | download n => exact absurd (hi.phase (.unzip f) (by simp)) (by simp [Task.downloads])
      | unzip n b => exact hp.2.2.1 f (by simp)
      | finished a b => exact absurd hi.phase.1 (by simp)
    have task := good_task hc hint hi hg.whole hnc hnb hnu he
    generalize taskStep cfg d t e = res at frame self task hi' hw' ⊢
    obtain ⟨d', o⟩ := res
    have hless : Less (optLeft o) t.left := by
      cases o with
      | none => exact task.1
      | some u => exact task.1
    refine ⟨⟨hi', hw', ?_⟩, fun _ => progress_of_less hless⟩
    -- every archive is still accounted for
    have still : ∀ f ∈ cfg.requested, (d.zips.get? f ≠ none ∨ Marked d f ∨ ∃ u ∈ l ++ t :: r, u.name = f) →
        (d'.zips.get? f ≠ none ∨ Marked d' f ∨ ∃ u ∈ l ++ o.toList ++ r, u.name = f) := by
      intro f hf h
      by_cases hft : f = t.name
      · subst hft
        cases o with
        | none =>
          by_cases hd : t.downloads
          · exact .inl (task.2.1 hd)
          · exact .inr (.inl (task.2.2 hd).1)
        | some u => exact .inr (.inr ⟨u, by simp, (self.task u rfl).1⟩)
      · have fr := frame f hf hft
        rcases h with h | h | ⟨u, hu, hun⟩
        · left
          show d'.zips.get? f ≠ none
          rw [fr.1]; exact h
        · exact .inr (.inl (fr.2.1.2 h))
        · refine .inr (.inr ⟨u, ?_, hun⟩)
          have hut : u ≠ t := fun e => hft (by rw [← hun, e])
          simp only [List.mem_append, List.mem_cons, hut, false_or] at hu ⊢
          tauto
    have others : ∀ u ∈ l ++ o.toList ++ r, u ∈ l ++ t :: r ∨ o = some u := by
      intro u hu
      simp only [List.mem_append, Option.mem_toList, Option.mem_def, List.mem_cons] at hu ⊢
      tauto
    cases m with
    | idle => trivial
    | finished a b => exact absurd hi.phase.1 (by simp)
    | download n =>
      obtain ⟨h1, h2, h3, h4⟩ := hp
      refine ⟨h1, fun f hf => ?_, fun f rest hf => ?_, fun f hf => still f hf (h4 f hf)⟩
      · rcases others _ hf with h | rfl
        · exact h2 f h
        · exact task.2.1 f rfl
      · rcases others _ hf with h | rfl
        · exact h3 f rest h
        · exact task.2.2.1 f rest rfl
    | unzip n b =>
      obtain ⟨h1, h2, h3, h4, h5⟩ := hp
      refine ⟨h1, h2, fun f hf => ?_, fun f hf => ?_, fun f hf => still f hf (h5 f hf)⟩
      · have hm : Task.unzip f ∈ l ++ r ∨ o = some (.unzip f) := by
          simp only [List.mem_append, Option.mem_toList, Option.mem_def] at hf ⊢
          tauto
        rcases hm with h | rfl
        · have hmem : Task.unzip f ∈ l ++ t :: r := by
            simp only [List.mem_append, List.mem_cons] at h ⊢
            tauto
          have fr := frame f (hi.tasks _ hmem).1 (others_ne hi.names h)
          show d'.zips.get? f ≠ none
          rw [fr.1]; exact h3 f hmem
        · exact absurd rfl (task.2.2.2 f)
      · by_cases hft : f = t.name
        · subst hft
          cases o with
          | none => exact absurd (task.2.2 (hi.phase.1 t (by simp))).2 hf
          | some u => exact ⟨u, by simp, (self.task u rfl).1⟩
        · have hfr : f ∈ cfg.requested := by
            cases hz : d'.zips.get? f with
            | none => exact absurd hz hf
            | some z => exact hi'.keys f z hz
          have fr := frame f hfr hft
          obtain ⟨u, hu, hun⟩ := h4 f (by
            have : d'.zips.get? f ≠ none := hf
            rw [fr.1] at this; exact this)
          have hut : u ≠ t := fun e => hft (by rw [← hun, e])
          refine ⟨u, ?_, hun⟩
          simp only [List.mem_append, List.mem_cons, hut, false_or] at hu ⊢
          tauto

end Downloader
end Sumo
