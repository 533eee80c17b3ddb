import Verif.Model.PoseError
import Mathlib.Analysis.SpecialFunctions.Exp

/-!
# Perceptual score

Model of `sumo-api/sumo/metrics/evaluator.py:535-558, 768-940`, over the real numbers.
-/

namespace Sumo

/-- One of the Gaussian parameter dicts (`metrics/evaluator.py:914-925`). -/
structure GaussParams where
  weight : ℝ
  mean : ℝ
  stdDev : ℝ

/-- `settings["perceptual"]` (`metrics/evaluator.py:227-257`). -/
structure PerceptualParams where
  roomScale : GaussParams
  trueObjScale : GaussParams
  relativeObjScale : GaussParams
  translation : GaussParams
  elevation : GaussParams
  missedWeight : ℝ
  extraWeight : ℝ

/-- The default settings (`metrics/evaluator.py:227-257`). -/
noncomputable def defaultPerceptual : PerceptualParams where
  roomScale := ⟨100, 1, 0.15⟩
  trueObjScale := ⟨5, 1, 0.18⟩
  relativeObjScale := ⟨5, 1, 0.18⟩
  translation := ⟨5, 0, 0.5⟩
  elevation := ⟨5, 0, 0.005⟩
  missedWeight := 25
  extraWeight := 25

/-- `_gaussian_function(settings)(x)` (`metrics/evaluator.py:914-940`). A zero standard deviation is a division by
zero (an exception for Python floats; numpy scalars would give NaN with a warning, which is not distinguished). -/
noncomputable def gaussian (s : GaussParams) (x : ℝ) : Except PyErr ℝ :=
  if s.stdDev ^ 2 = 0 then .error .zeroDivisionError
  else .ok (s.weight * Real.exp (-0.5 * (x - s.mean) ^ 2 / s.stdDev ^ 2))

variable {ι σ τ : Type} [DecidableEq ι] [LinearOrder σ] [LinearOrder τ]

/-- `x_size * z_size` (`metrics/evaluator.py:886-888, 900-902`). -/
noncomputable def floorSize (b : Box3d ℝ) : ℝ :=
  (b.maxCorner.x - b.minCorner.x) * (b.maxCorner.z - b.minCorner.z)

/-- `_room_scale` (`metrics/evaluator.py:864-908`). -/
noncomputable def roomScale (sub gt : Elements ι σ Payload) : ℝ :=
  let gtFloorArea := gt.values.foldl (fun a e =>
    if e.category = "floor" ∧ e.evaluated = true then a + floorSize e.payload.bounds else a) 0
  let subFloorArea := sub.values.foldl (fun a e =>
    if e.category = "floor" then a + floorSize e.payload.bounds else a) 0
  if gtFloorArea > 0 then subFloorArea / gtFloorArea else 0

/-- One iteration of the correspondence loop (`metrics/evaluator.py:806-844`); the state is
(`perceptual_score`, `max_score`). -/
noncomputable def perceptualStep (p : PerceptualParams) (sub gt : Elements ι σ Payload) (rs : ℝ)
    (st : ℝ × ℝ) (corr : Corr ι σ τ) : Except PyErr (ℝ × ℝ) := do
  let g ← gt.get corr.gtId
  let d ← sub.get corr.detId
  if g.evaluated = false then pure st else do
    let gtVolume := g.payload.bounds.volume
    let gtRoomscaleVolume := gtVolume * rs
    let detVolume := d.payload.bounds.volume
    let st1 ← (if gtVolume > 0 then do
      let x ← gaussian p.trueObjScale (detVolume / gtVolume)
      pure (st.1 + x, st.2 + p.trueObjScale.weight) else pure st)
    let st2 ← (if gtRoomscaleVolume > 0 then do
      let x ← gaussian p.relativeObjScale (detVolume / gtRoomscaleVolume)
      pure (st1.1 + x, st1.2 + p.relativeObjScale.weight) else pure st1)
    let translationDiff := Real.sqrt ((d.payload.pose.t.x - g.payload.pose.t.x) ^ 2 +
      (d.payload.pose.t.z - g.payload.pose.t.z) ^ 2)
    let x ← gaussian p.translation translationDiff
    let y ← gaussian p.elevation (d.payload.pose.t.y - g.payload.pose.t.y)
    pure (st2.1 + x + y, st2.2 + p.translation.weight + p.elevation.weight)

/-- `_perceptual_score_1` (`metrics/evaluator.py:768-862`). The sets `missed` and `extra` are lists: any
iteration order. -/
noncomputable def perceptualScore1 (p : PerceptualParams) (ev : Evaluator ι σ τ Payload)
    (matched : Dict ι (Corr ι σ τ)) (missed extra : List ι) (normalized : Bool) : Except PyErr ℝ := do
  let rs := roomScale ev.submission ev.groundTruth
  let x ← gaussian p.roomScale rs
  let st ← matched.values.foldlM (perceptualStep p ev.submission ev.groundTruth rs) (x, p.roomScale.weight)
  let s1 ← missed.foldlM (fun s i => do
    let g ← ev.groundTruth.get i
    pure (if g.evaluated then s - p.missedWeight * g.payload.bounds.volume else s)) st.1
  let s2 ← extra.foldlM (fun s i => do
    let d ← ev.submission.get i
    pure (s - p.extraWeight * d.payload.bounds.volume)) s1
  if normalized then
    if s2 ≤ 0 then pure 0
    else if st.2 = 0 then .error .zeroDivisionError
    else pure (s2 / st.2)
  else pure s2

/-- `perceptual_score` (`metrics/evaluator.py:535-558`); `none` is NaN, the mean of no scores. -/
noncomputable def perceptualScore (p : PerceptualParams) (ev : Evaluator ι σ τ Payload) :
    Except PyErr (Option ℝ) := do
  let scores ← ev.settings.thresholds.foldlM (fun acc t => do
    let a ← ev.agnostic.get t
    let missed := ev.groundTruth.keys.filter (fun i => !(a.values.map Corr.gtId).contains i)
    let extra := ev.submission.keys.filter (fun i => !(a.values.map Corr.detId).contains i)
    let s ← perceptualScore1 p ev a missed extra true
    pure (acc ++ [s])) []
  return if scores.length = 0 then none else some (meanR scores)

end Sumo
