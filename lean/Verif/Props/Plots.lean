import Verif.Model.Plots
import Verif.Props.FloatAp
import Verif.Lemmas.Assoc

/-! # Properties of the plot of the precision-recall curve (C177) and of the listing of the similarities (C178) -/

namespace Sumo
namespace Plots
open ApSpec

/-- A vertex is inside the window of the figure. -/
def Visible (f : Figure) (v : ℚ × ℚ) : Prop :=
  f.window.1.1 ≤ v.1 ∧ v.1 ≤ f.window.1.2 ∧ f.window.2.1 ≤ v.2 ∧ v.2 ≤ f.window.2.2

variable {σ : Type} [LinearOrder σ]

/-- **C177.** The figure has recall to the right and precision upwards, in the order of the vectors; vectors of different lengths are refused. -/
theorem C177_axes (precision recall : List ℚ) :
    (recall.length = precision.length → ∃ f, plotPr precision recall = .ok f ∧ f.vertices.map Prod.fst = recall ∧
      f.vertices.map Prod.snd = precision ∧ f.xlabel = "Recall" ∧ f.ylabel = "Precision") ∧
    (recall.length ≠ precision.length → plotPr precision recall = .error .valueError) := by
  unfold plotPr
  constructor
  · intro h
    rw [if_pos h]
    exact ⟨_, rfl, List.map_fst_zip h.le, List.map_snd_zip h.ge, rfl, rfl⟩
  · intro h
    rw [if_neg h]

/-- **C177.** A vertex is seen exactly if its recall is between 0 and 1 and its precision between 0 and 1.1. -/
theorem C177_window {precision recall : List ℚ} {f : Figure} (h : plotPr precision recall = .ok f) (v : ℚ × ℚ) :
    Visible f v ↔ 0 ≤ v.1 ∧ v.1 ≤ 1 ∧ 0 ≤ v.2 ∧ v.2 ≤ 11 / 10 := by
  unfold plotPr at h
  split at h
  · simp only [Except.ok.injEq] at h
    subst h
    rfl
  · simp at h

/-- **C177.** Every curve that `compute_ap` returns (in double precision), with no more hits than there are elements to be found, can be plotted: one
vertex per detection, all of them in the window, from left to right and downwards. -/
theorem C177_curve {order : List ℕ} {scores : List σ} (h : IsArgsort order scores) {ms : List ℤ}
    (hl : ms.length = scores.length) {nGt : ℕ} (hm : ms.length < 2 ^ 53) (hn : nGt ≤ 2 ^ 53) (hn0 : 0 < nGt) (htp : nCorrect ms ≤ nGt)
    {sum : List ℚ → ℚ} {a : Option ℚ} {prec recall : List ℚ} (hc : Fl.computeAp sum order ms nGt none false true = .ok (a, prec, recall)) :
    ∃ f, plotPr prec recall = .ok f ∧ f.vertices.length = ms.length ∧ (∀ v ∈ f.vertices, Visible f v) ∧
      f.vertices.Pairwise fun v w => v.1 ≤ w.1 ∧ w.2 ≤ v.2 := by
  obtain ⟨l1, l2, -, p1, p2, p3, p4, -⟩ := C134_curve h hl hm hn hn0 hc
  have e : recall.length = prec.length := by rw [l1, l2]
  obtain ⟨f, hf, f1, f2, -⟩ := (C177_axes prec recall).1 e
  refine ⟨f, hf, ?_, ?_, ?_⟩
  · rw [← l2, ← f1, List.length_map]
  · intro v hv
    have h1 := p4 htp v.1 (f1 ▸ List.mem_map_of_mem hv)
    have h2 := p2 v.2 (f2 ▸ List.mem_map_of_mem hv)
    rw [C177_window hf]
    exact ⟨h1.1, h1.2, h2.1, h2.2.trans (by norm_num)⟩
  · rw [← f1, List.pairwise_map] at p3
    rw [← f2, List.pairwise_map] at p1
    exact p3.and p1 |>.imp fun h => ⟨h.1, h.2⟩

/-- **C177.** A curve sampled at given recalls can be plotted, too; all of it is seen exactly if all the samples are between 0 and 1. -/
theorem C177_sampled {order : List ℕ} {scores : List σ} (h : IsArgsort order scores) {ms : List ℤ}
    (hl : ms.length = scores.length) (nGt : ℕ) (samples : List ℚ) (interp : Bool) :
    ∃ p f, computePr order ms nGt (some samples) interp = .ok (p, samples) ∧ plotPr p samples = .ok f ∧
      f.vertices.map Prod.fst = samples ∧ f.vertices.map Prod.snd = p ∧
      ((∀ v ∈ f.vertices, Visible f v) ↔ ∀ r ∈ samples, 0 ≤ r ∧ r ≤ 1) := by
  have hc := (computePr_curve nGt interp (order_lt h hl)).2 samples
  obtain ⟨f, hf, f1, f2, -⟩ := (C177_axes (samples.map (fun r =>
        let i := searchsortedLeft ((List.range order.length).map (fun k => (tp (ranked order ms) k : ℚ) / nGt)) r
        if i < order.length then
          (if interp then bestFrom (ranked order ms) else precAt (ranked order ms)) i else 0)) samples).1 (by simp)
  refine ⟨_, f, hc, hf, f1, f2, ?_⟩
  constructor
  · intro g r hr
    rw [← f1] at hr
    obtain ⟨v, hv, rfl⟩ := List.mem_map.1 hr
    have := (C177_window hf v).1 (g v hv)
    exact ⟨this.1, this.2.1⟩
  · intro g v hv
    have h1 := g v.1 (f1 ▸ List.mem_map_of_mem hv)
    have h2 : v.2 ∈ f.vertices.map Prod.snd := List.mem_map_of_mem hv
    rw [f2] at h2
    obtain ⟨r, -, hr⟩ := List.mem_map.1 h2
    have hr : 0 ≤ v.2 ∧ v.2 ≤ 1 := by
      rw [← hr]
      dsimp only
      split
      · cases interp
        · exact ⟨precAt_nonneg _ _, (precAt_lt_one _ _).le⟩
        · exact ⟨bestFrom_nonneg _ _, (bestFrom_lt _ _).le⟩
      · exact ⟨le_refl _, zero_le_one⟩
    rw [C177_window hf]
    exact ⟨h1.1, h1.2, hr.1, hr.2.trans (by norm_num)⟩

/-- Non-vacuity: the example of `Verif.Props.Ap`, with three hits for four elements. -/
example : (match Fl.computeAp List.sum ApExample.order ApExample.ms 4 none false true with
    | .ok (_, p, r) => (match plotPr p r with
      | .ok f => decide (f.vertices.length = 5) && decide ((3 / 4, 3 / 4) ∈ f.vertices) && decide (nCorrect ApExample.ms = 3)
      | .error _ => false)
    | .error _ => false) = true := by decide +kernel

/-! ### C178 -/

variable {ι τ P : Type} [DecidableEq ι]

theorem printRow_eq {cache : SimCache ι σ τ} {d : ι} {row : Dict ι (Corr ι σ τ)} (h : cache.get? d = some row) (hn : row.NodupKeys) :
    printRow cache d = .ok (row.map fun p => ⟨d, p.1, p.2.similarity, p.2.detScore⟩) := by
  unfold printRow
  rw [Dict.get_eq_ok.2 h]
  simp only [bind, Except.bind, pure, Except.pure]
  have key : ∀ l : Dict ι (Corr ι σ τ), (∀ p ∈ l, row.get? p.1 = some p.2) →
      l.keys.mapM (printLine d row) = .ok (l.map fun p => ⟨d, p.1, p.2.similarity, p.2.detScore⟩) := by
    intro l
    induction l with
    | nil => intro _; rfl
    | cons p l ih =>
      intro hp
      have h1 : printLine d row p.1 = .ok ⟨d, p.1, p.2.similarity, p.2.detScore⟩ := by
        unfold printLine
        rw [Dict.get_eq_ok.2 (hp p (by simp))]
        rfl
      have h2 := ih fun q hq => hp q (List.mem_cons_of_mem _ hq)
      unfold Dict.keys at h2 ⊢
      rw [List.map_cons, List.mapM_cons, h1]
      simp only [bind, Except.bind, pure, Except.pure] at h2 ⊢
      rw [h2]
      rfl
  exact key row fun p hp => Dict.get?_of_mem hn hp

/-- **C178.** For scenes whose elements have different ids the listing has one line per pair of a detection and a ground truth element, with their
ids, their similarity and the score of the detection, detection by detection; it does not fail, and no pair is listed twice. -/
theorem C178_listing [LinearOrder τ] (sim : Obj ι σ P → Obj ι σ P → τ) {sub gt : Elements ι σ P} (hs : (sub.values.map Obj.id).Nodup)
    (hg : (gt.values.map Obj.id).Nodup) :
    ∃ lines, printSimCache (makeSimCache sim sub gt) = .ok lines ∧
      lines = sub.values.flatMap (fun d => gt.values.map fun g => ⟨d.id, g.id, sim d g, d.score⟩) ∧
      (lines.map fun l => (l.det, l.gt)).Nodup := by
  refine ⟨_, ?_, rfl, ?_⟩
  · have hcache := makeSimCache_eq sim (gt := gt) hs
    have hget : ∀ d ∈ sub.values, printRow (makeSimCache sim sub gt) d.id =
        .ok (gt.values.map fun g => ⟨d.id, g.id, sim d g, d.score⟩) := by
      intro d hd
      have hrow := simRow_eq sim d hg
      have hn : (makeSimCache sim sub gt).NodupKeys := by
        unfold Dict.NodupKeys Dict.keys
        rw [hcache, List.map_map]
        exact hs
      have h1 : (makeSimCache sim sub gt).get? d.id = some (simRow sim d gt.values) := by
        apply Dict.get?_of_mem hn
        rw [hcache]
        exact List.mem_map.2 ⟨d, hd, rfl⟩
      rw [printRow_eq h1 (by unfold Dict.NodupKeys Dict.keys; rw [hrow, List.map_map]; exact hg), hrow, List.map_map]
      rfl
    have hk : (makeSimCache sim sub gt).keys = sub.values.map Obj.id := by
      unfold Dict.keys
      rw [hcache, List.map_map]
      rfl
    have hall : ∀ l : List (Obj ι σ P), (∀ d ∈ l, d ∈ sub.values) → (l.map Obj.id).mapM (printRow (makeSimCache sim sub gt)) =
        .ok (l.map fun d => gt.values.map fun g => ⟨d.id, g.id, sim d g, d.score⟩) := by
      intro l
      induction l with
      | nil => intro _; rfl
      | cons d l ih =>
        intro hm
        rw [List.map_cons, List.mapM_cons, hget d (hm d (by simp)), ih fun x hx => hm x (List.mem_cons_of_mem _ hx)]
        rfl
    unfold printSimCache
    rw [hk, hall sub.values fun _ h => h]
    simp only [bind, Except.bind, pure, Except.pure, List.flatMap_def]
  · rw [List.map_flatMap]
    have e : (sub.values.flatMap fun d => (gt.values.map fun g => (⟨d.id, g.id, sim d g, d.score⟩ : Line ι σ τ)).map fun l => (l.det, l.gt)) =
        (sub.values.map Obj.id) ×ˢ (gt.values.map Obj.id) := by
      induction sub.values with
      | nil => rfl
      | cons d l ih =>
        rw [List.flatMap_cons, List.map_cons, List.product_cons, ih, List.map_map, List.map_map]
        rfl
    rw [e]
    exact hs.product hg

/-- Non-vacuity: two detections and two elements. -/
example : printSimCache (makeSimCache (fun a b : Obj ℕ ℕ ℕ => a.payload + b.payload)
    [(1, ⟨1, "bed", 7, true, 10⟩), (2, ⟨2, "bed", 8, true, 20⟩)] [(5, ⟨5, "bed", 0, true, 3⟩), (6, ⟨6, "sofa", 0, true, 4⟩)]) =
    .ok [⟨1, 5, 13, 7⟩, ⟨1, 6, 14, 7⟩, ⟨2, 5, 23, 8⟩, ⟨2, 6, 24, 8⟩] := by decide +kernel

end Plots
end Sumo
