import Verif.Model.Track
import Verif.Lemmas.AssocProps

/-!
# Association does not look at the payload
-/

set_option linter.unusedSectionVars false

namespace Sumo
namespace Track

variable {ι σ τ P Q : Type} [DecidableEq ι] [LinearOrder σ] [LinearOrder τ]

/-- The same scene with other payloads. -/
def mapEls (f : P → Q) (els : Elements ι σ P) : Elements ι σ Q := els.map fun p => (p.1, mapObj f p.2)

@[simp] theorem mapObj_id (f : P → Q) (o : Obj ι σ P) : (mapObj f o).id = o.id := rfl
@[simp] theorem mapObj_category (f : P → Q) (o : Obj ι σ P) : (mapObj f o).category = o.category := rfl
@[simp] theorem mapObj_score (f : P → Q) (o : Obj ι σ P) : (mapObj f o).score = o.score := rfl
@[simp] theorem mapObj_evaluated (f : P → Q) (o : Obj ι σ P) : (mapObj f o).evaluated = o.evaluated := rfl
@[simp] theorem mapObj_payload (f : P → Q) (o : Obj ι σ P) : (mapObj f o).payload = f o.payload := rfl

theorem values_mapEls (f : P → Q) (els : Elements ι σ P) : (mapEls f els).values = els.values.map (mapObj f) := by
  simp [mapEls, Dict.values]

theorem keys_mapEls (f : P → Q) (els : Elements ι σ P) : (mapEls f els).keys = els.keys := by
  simp [mapEls, Dict.keys]

theorem wellKeyed_mapEls (f : P → Q) {els : Elements ι σ P} (h : WellKeyed els) : WellKeyed (mapEls f els) := by
  constructor
  · unfold Dict.NodupKeys; rw [keys_mapEls]; exact h.1
  · intro p hp
    obtain ⟨q, hq, rfl⟩ := List.mem_map.1 hp
    exact h.2 q hq

theorem simRow_map (f : P → Q) {sim : Obj ι σ P → Obj ι σ P → τ} {sim' : Obj ι σ Q → Obj ι σ Q → τ}
    (det : Obj ι σ P) (gts : List (Obj ι σ P))
    (hsim : ∀ g ∈ gts, sim' (mapObj f det) (mapObj f g) = sim det g) :
    simRow sim' (mapObj f det) (gts.map (mapObj f)) = simRow sim det gts := by
  unfold simRow
  rw [List.foldl_map]
  apply List.foldl_ext
  intro row g hg
  simp [hsim g hg]

theorem makeSimCache_map (f : P → Q) {sim : Obj ι σ P → Obj ι σ P → τ} {sim' : Obj ι σ Q → Obj ι σ Q → τ}
    {sub gt : Elements ι σ P}
    (hsim : ∀ d ∈ sub.values, ∀ g ∈ gt.values, sim' (mapObj f d) (mapObj f g) = sim d g) :
    makeSimCache sim' (mapEls f sub) (mapEls f gt) = makeSimCache sim sub gt := by
  unfold makeSimCache
  rw [values_mapEls, values_mapEls, List.foldl_map]
  apply List.foldl_ext
  intro c d hd
  rw [simRow_map f d _ (hsim d hd), mapObj_id]

theorem pySortedRev_map {α β κ : Type} [LinearOrder κ] (f : α → β) (k : β → κ) (l : List α) :
    pySortedRev k (l.map f) = (pySortedRev (fun a => k (f a)) l).map f := by
  unfold pySortedRev
  exact (List.map_insertionSort (r := fun a b => k (f b) ≤ k (f a)) (s := fun a b => k b ≤ k a) f l
    (fun a _ b _ => Iff.rfl)).symm

theorem matchStep_map (f : P → Q) (cache : SimCache ι σ τ) (st : MatchState ι σ τ) (d : Obj ι σ P) :
    matchStep cache st (mapObj f d) = matchStep cache st d := rfl

theorem matchAll_map (f : P → Q) (cache : SimCache ι σ τ) (ds : List (Obj ι σ P)) :
    matchAll cache (ds.map (mapObj f)) = matchAll cache ds := by
  unfold matchAll
  rw [pySortedRev_map, List.foldlM_map]
  rfl

theorem agnosticAssoc_map (f : P → Q) (els : Elements ι σ P) (ts : List τ) (cache : SimCache ι σ τ) :
    agnosticAssoc (mapEls f els) ts cache = agnosticAssoc els ts cache := by
  unfold agnosticAssoc threshStep
  simp only [values_mapEls, matchAll_map]

theorem mapEls_set (f : P → Q) (els : Elements ι σ P) (k : ι) (o : Obj ι σ P) :
    (mapEls f els).set k (mapObj f o) = mapEls f (els.set k o) := by
  induction els with
  | nil => rfl
  | cons p els ih =>
    obtain ⟨k', o'⟩ := p
    show Dict.set ((k', mapObj f o') :: mapEls f els) k (mapObj f o) = _
    by_cases h : k' = k
    · simp [Dict.set, h, mapEls]
    · simp only [Dict.set, h, if_false, ih]; rfl

theorem byCategory_map (f : P → Q) (els : Elements ι σ P) (cat : String) :
    byCategory (mapEls f els) cat = mapEls f (byCategory els cat) := by
  unfold byCategory
  have : ∀ (l : Elements ι σ P) (acc : Elements ι σ P),
      (mapEls f l).foldl (fun d p => if p.2.category = cat then d.set p.1 p.2 else d) (mapEls f acc) =
      mapEls f (l.foldl (fun d p => if p.2.category = cat then d.set p.1 p.2 else d) acc) := by
    intro l
    induction l with
    | nil => intro acc; rfl
    | cons p l ih =>
      intro acc
      show List.foldl _ _ ((p.1, mapObj f p.2) :: mapEls f l) = _
      rw [List.foldl_cons, List.foldl_cons, ← ih]
      congr 1
      show (if p.2.category = cat then Dict.set (mapEls f acc) p.1 (mapObj f p.2) else mapEls f acc) =
        mapEls f (if p.2.category = cat then Dict.set acc p.1 p.2 else acc)
      by_cases hc : p.2.category = cat
      · rw [if_pos hc, if_pos hc]; exact mapEls_set f acc p.1 p.2
      · rw [if_neg hc, if_neg hc]
  exact this els []

theorem categoryAssoc_map (f : P → Q) (sub gt : Elements ι σ P) (ts : List τ) (cats : List String)
    (cache : SimCache ι σ τ) :
    categoryAssoc (mapEls f sub) (mapEls f gt) ts cats cache = categoryAssoc sub gt ts cats cache := by
  unfold categoryAssoc catCache
  simp only [byCategory_map, agnosticAssoc_map, keys_mapEls]
  simp only [mapEls, List.length_map]

/-- The same evaluator with other payloads. -/
def mapEv (f : P → Q) (ev : Evaluator ι σ τ P) : Evaluator ι σ τ Q :=
  ⟨ev.settings, mapEls f ev.submission, mapEls f ev.groundTruth, ev.simCache, ev.agnostic, ev.category⟩

theorem build_map (f : P → Q) {sim : Obj ι σ P → Obj ι σ P → τ} {sim' : Obj ι σ Q → Obj ι σ Q → τ}
    {sub gt : Elements ι σ P} (s : AssocSettings τ)
    (hsim : ∀ d ∈ sub.values, ∀ g ∈ gt.values, sim' (mapObj f d) (mapObj f g) = sim d g) {ev : Evaluator ι σ τ P}
    (h : Evaluator.build sim sub gt s = .ok ev) :
    Evaluator.build sim' (mapEls f sub) (mapEls f gt) s = .ok (mapEv f ev) := by
  obtain ⟨h1, h2, h3, h4, h5, h6⟩ := build_ok h
  unfold Evaluator.build
  simp only [makeSimCache_map f hsim, agnosticAssoc_map, categoryAssoc_map, h1, h2, bind, Except.bind, pure, Except.pure]
  congr 1
  unfold mapEv
  rw [h3, h4, h5, h6]

/-- Any similarity can be carried over to other payloads, by looking up the elements by id. -/
theorem exists_sim (f : P → Q) {sub gt : Elements ι σ P} (hs : WellKeyed sub) (hg : WellKeyed gt)
    (sim : Obj ι σ P → Obj ι σ P → τ) [Inhabited τ] : ∃ sim' : Obj ι σ Q → Obj ι σ Q → τ,
      ∀ d ∈ sub.values, ∀ g ∈ gt.values, sim' (mapObj f d) (mapObj f g) = sim d g := by
  refine ⟨fun a b => match sub.get? a.id, gt.get? b.id with
    | some d, some g => sim d g
    | _, _ => default, ?_⟩
  have key : ∀ {els : Elements ι σ P}, WellKeyed els → ∀ e ∈ els.values, els.get? e.id = some e := by
    intro els hw e he
    unfold Dict.values at he
    obtain ⟨p, hp, rfl⟩ := List.mem_map.1 he
    rw [← hw.2 p hp]
    exact Dict.get?_of_mem hw.1 hp
  intro d hd g hgm
  simp only [mapObj_id, key hs d hd, key hg g hgm]

end Track
end Sumo
