import Verif.Model.Assoc

/-!
# Specification of data association

What a greedy, one-to-one association *is*, stated on the objects of the two scenes, without any
reference to caches, pruning, sorting or loops.
-/

namespace Sumo
namespace AssocSpec

variable {ι σ τ P : Type} [DecidableEq ι] [LinearOrder σ] [LinearOrder τ]

/-- `a` is listed before `b` in the scene `l` (ids are unique in a scene). -/
def Before (l : List (Obj ι σ P)) (a b : Obj ι σ P) : Prop :=
  (l.map Obj.id).idxOf a.id < (l.map Obj.id).idxOf b.id

/-- Detection `a` is served before detection `b`: higher score, ties by scene order. -/
def Outranks (ds : List (Obj ι σ P)) (a b : Obj ι σ P) : Prop :=
  b.score < a.score ∨ (a.score = b.score ∧ Before ds a b)

/-- Detection `d` prefers ground truth element `g` to `g'`: more similar, ties in favour of the element
listed later. -/
def Prefers (sim : Obj ι σ P → Obj ι σ P → τ) (gs : List (Obj ι σ P)) (d g g' : Obj ι σ P) : Prop :=
  sim d g' < sim d g ∨ (sim d g' = sim d g ∧ Before gs g' g)

/-- `M` is a one-to-one assignment of detections to sufficiently similar ground truth elements. -/
structure IsMatching (sim : Obj ι σ P → Obj ι σ P → τ) (t : τ) (ds gs : List (Obj ι σ P))
    (M : Obj ι σ P → Obj ι σ P → Prop) : Prop where
  mem : ∀ d g, M d g → d ∈ ds ∧ g ∈ gs
  similar : ∀ d g, M d g → t ≤ sim d g
  one_gt : ∀ d g g', M d g → M d g' → g = g'
  one_det : ∀ d d' g, M d g → M d' g → d = d'

/-- `(d, g)` should have been matched: they are similar enough, `d` prefers `g` to what it got (if
anything) and `d` outranks whoever got `g` (if anyone). -/
def Blocking (sim : Obj ι σ P → Obj ι σ P → τ) (t : τ) (ds gs : List (Obj ι σ P))
    (M : Obj ι σ P → Obj ι σ P → Prop) (d g : Obj ι σ P) : Prop :=
  d ∈ ds ∧ g ∈ gs ∧ t ≤ sim d g ∧ ¬ M d g ∧
    (∀ g', M d g' → Prefers sim gs d g g') ∧ (∀ d', M d' g → Outranks ds d d')

/-- The greedy association: a matching without blocking pairs. -/
structure IsGreedy (sim : Obj ι σ P → Obj ι σ P → τ) (t : τ) (ds gs : List (Obj ι σ P))
    (M : Obj ι σ P → Obj ι σ P → Prop) : Prop extends IsMatching sim t ds gs M where
  stable : ∀ d g, ¬ Blocking sim t ds gs M d g

/-- Order-free version of `Blocking`: `(d, g)` are similar enough and not matched, `d` is strictly more similar
to `g` than to what it got, and has a strictly higher score than whoever got `g`. -/
def StrictBlocking (sim : Obj ι σ P → Obj ι σ P → τ) (t : τ) (ds gs : List (Obj ι σ P))
    (M : Obj ι σ P → Obj ι σ P → Prop) (d g : Obj ι σ P) : Prop :=
  d ∈ ds ∧ g ∈ gs ∧ t ≤ sim d g ∧ ¬ M d g ∧
    (∀ g', M d g' → sim d g' < sim d g) ∧ (∀ d', M d' g → d'.score < d.score)

/-- Pairwise distinct scores, and pairwise distinct similarities for each detection. -/
structure NoTies (sim : Obj ι σ P → Obj ι σ P → τ) (ds gs : List (Obj ι σ P)) : Prop where
  scores : ∀ d ∈ ds, ∀ d' ∈ ds, d.score = d'.score → d = d'
  sims : ∀ d ∈ ds, ∀ g ∈ gs, ∀ g' ∈ gs, sim d g = sim d g' → g = g'

/-- What an association table says: `d` was matched to `g`. -/
def Matched (ds gs : List (Obj ι σ P)) (a : Dict ι (Corr ι σ τ)) (d g : Obj ι σ P) : Prop :=
  d ∈ ds ∧ g ∈ gs ∧ ∃ c, a.get? d.id = some c ∧ c.gtId = g.id

/-- The evaluator reports `d` and `g` as matched at threshold `t`. -/
def MatchedAt (sub gt : Elements ι σ P) (ev : Evaluator ι σ τ P) (t : τ) (d g : Obj ι σ P) : Prop :=
  ∃ a, ev.agnostic.get? t = some a ∧ Matched sub.values gt.values a d g

end AssocSpec
end Sumo
