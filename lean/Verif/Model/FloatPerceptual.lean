import Verif.Model.FloatAp
import Verif.Model.FloatVoxel
import Verif.Model.Box

/-!
# Perceptual score in machine precision

Model of `sumo-api/sumo/metrics/evaluator.py:535-558, 768-940` as `Verif.Model.Perceptual`, with every arithmetic operation
rounded.  Corners of boxes are numpy vectors of `float32` or `float64`; numpy (before version 2) computes with two `float32`
scalars in `float32`, and in `float64` as soon as one operand is a Python number or a `float64`.
-/

namespace Sumo.Fl

/-- Library functions: `math.exp`; squaring, `x**2`, which is `pow` for Python floats and `np.square` for numpy scalars;
`np.linalg.norm` of a vector with two components. -/
structure PerceptualLib where
  exp : ℚ → ℚ
  sq : ℚ → ℚ
  norm2 : ℚ → ℚ → ℚ

/-- One of the Gaussian parameter dicts (`metrics/evaluator.py:914-925`). -/
structure GaussParams where
  weight : ℚ
  mean : ℚ
  stdDev : ℚ

/-- `settings["perceptual"]` (`metrics/evaluator.py:227-257`). -/
structure PerceptualParams where
  roomScale : GaussParams
  trueObjScale : GaussParams
  relativeObjScale : GaussParams
  translation : GaussParams
  elevation : GaussParams
  missedWeight : ℚ
  extraWeight : ℚ

/-- The default settings (`metrics/evaluator.py:227-257`). -/
def defaultPerceptual : PerceptualParams where
  roomScale := ⟨100, 1, double 0.15⟩
  trueObjScale := ⟨5, 1, double 0.18⟩
  relativeObjScale := ⟨5, 1, double 0.18⟩
  translation := ⟨5, 0, 0.5⟩
  elevation := ⟨5, 0, double 0.005⟩
  missedWeight := 25
  extraWeight := 25

/-- The attributes of `ProjectObject` (`semantic/project_object.py:34-52`) used by `perceptual_score`, besides those in `Obj`.
`isSingle`: the corners of `bounds` are vectors of `float32`. -/
structure PerceptualPayload where
  bounds : Box3d ℚ
  isSingle : Bool
  t : Vec3 ℚ

/-- Rounding of an operation on scalars of the given type. -/
def rnd (isSingle : Bool) (x : ℚ) : ℚ := if isSingle then single x else double x

/-- `_gaussian_function(settings)(x)` (`metrics/evaluator.py:914-940`).  A zero divisor is an exception, as in
`Sumo.gaussian`. -/
def gaussian (L : PerceptualLib) (s : GaussParams) (x : ℚ) : Except PyErr ℚ :=
  if L.sq s.stdDev = 0 then .error .zeroDivisionError
  else .ok (double (s.weight * L.exp (double (double (-0.5 * L.sq (double (x - s.mean))) / L.sq s.stdDev))))

/-- `bounds.volume()` (`threedee/box_3d.pyx:80-83`): `np.prod` of the differences of the corners. -/
def volume (p : PerceptualPayload) : ℚ :=
  let r := rnd p.isSingle
  r (r (r (p.bounds.maxCorner.x - p.bounds.minCorner.x) * r (p.bounds.maxCorner.y - p.bounds.minCorner.y)) *
    r (p.bounds.maxCorner.z - p.bounds.minCorner.z))

/-- `x_size * z_size` (`metrics/evaluator.py:886-888, 900-902`). -/
def floorSize (p : PerceptualPayload) : ℚ :=
  let r := rnd p.isSingle
  r (r (p.bounds.maxCorner.x - p.bounds.minCorner.x) * r (p.bounds.maxCorner.z - p.bounds.minCorner.z))

variable {ι σ τ : Type} [DecidableEq ι] [LinearOrder σ] [LinearOrder τ]

/-- `_room_scale` (`metrics/evaluator.py:864-908`). -/
def roomScale (sub gt : Elements ι σ PerceptualPayload) : ℚ :=
  let gtFloorArea := gt.values.foldl (fun a e =>
    if e.category = "floor" ∧ e.evaluated = true then double (a + floorSize e.payload) else a) 0
  let subFloorArea := sub.values.foldl (fun a e =>
    if e.category = "floor" then double (a + floorSize e.payload) else a) 0
  if gtFloorArea > 0 then double (subFloorArea / gtFloorArea) else 0

/-- One iteration of the correspondence loop (`metrics/evaluator.py:806-844`); the state is
(`perceptual_score`, `max_score`). -/
def perceptualStep (L : PerceptualLib) (p : PerceptualParams) (sub gt : Elements ι σ PerceptualPayload) (rs : ℚ)
    (st : ℚ × ℚ) (corr : Corr ι σ τ) : Except PyErr (ℚ × ℚ) := do
  let g ← gt.get corr.gtId
  let d ← sub.get corr.detId
  if g.evaluated = false then pure st else do
    let gtVolume := volume g.payload
    let gtRoomscaleVolume := double (gtVolume * rs)
    let detVolume := volume d.payload
    let st1 ← (if gtVolume > 0 then do
      let x ← gaussian L p.trueObjScale (rnd (d.payload.isSingle && g.payload.isSingle) (detVolume / gtVolume))
      pure (double (st.1 + x), double (st.2 + p.trueObjScale.weight)) else pure st)
    let st2 ← (if gtRoomscaleVolume > 0 then do
      let x ← gaussian L p.relativeObjScale (double (detVolume / gtRoomscaleVolume))
      pure (double (st1.1 + x), double (st1.2 + p.relativeObjScale.weight)) else pure st1)
    let translationDiff := L.norm2 (double (d.payload.t.x - g.payload.t.x)) (double (d.payload.t.z - g.payload.t.z))
    let x ← gaussian L p.translation translationDiff
    let st3 := (double (st2.1 + x), double (st2.2 + p.translation.weight))
    let y ← gaussian L p.elevation (double (d.payload.t.y - g.payload.t.y))
    pure (double (st3.1 + y), double (st3.2 + p.elevation.weight))

/-- `_perceptual_score_1` (`metrics/evaluator.py:768-862`).  `missed` and `extra` are the sets in the order in which Python
iterates over them. -/
def perceptualScore1 (L : PerceptualLib) (p : PerceptualParams) (ev : Evaluator ι σ τ PerceptualPayload)
    (matched : Dict ι (Corr ι σ τ)) (missed extra : List ι) (normalized : Bool) : Except PyErr ℚ := do
  let rs := roomScale ev.submission ev.groundTruth
  let x ← gaussian L p.roomScale rs
  let st ← matched.values.foldlM (perceptualStep L p ev.submission ev.groundTruth rs) (x, p.roomScale.weight)
  let s1 ← missed.foldlM (fun s i => do
    let g ← ev.groundTruth.get i
    pure (if g.evaluated then double (s - double (p.missedWeight * volume g.payload)) else s)) st.1
  let s2 ← extra.foldlM (fun s i => do
    let d ← ev.submission.get i
    pure (double (s - double (p.extraWeight * volume d.payload)))) s1
  if normalized then
    if s2 ≤ 0 then pure 0
    else if st.2 = 0 then .error .zeroDivisionError
    else pure (double (s2 / st.2))
  else pure s2

/-- `perceptual_score` (`metrics/evaluator.py:535-558`); `none` is NaN, the mean of no scores.  `iter` gives the order in which
Python iterates over a set, which for strings changes from run to run. -/
def perceptualScore (L : PerceptualLib) (sum : List ℚ → ℚ) (iter : List ι → List ι) (p : PerceptualParams)
    (ev : Evaluator ι σ τ PerceptualPayload) : Except PyErr (Option ℚ) := do
  let scores ← ev.settings.thresholds.foldlM (fun acc t => do
    let a ← ev.agnostic.get t
    let missed := ev.groundTruth.keys.filter (fun i => !(a.values.map Corr.gtId).contains i)
    let extra := ev.submission.keys.filter (fun i => !(a.values.map Corr.detId).contains i)
    let s ← perceptualScore1 L p ev a (iter missed) (iter extra) true
    pure (acc ++ [s])) []
  return npMean sum scores

end Sumo.Fl
