import Verif.Props.Project
import Verif.Props.Scene
import Verif.Props.GltfForeign

/-! # A scene loaded from its files is `almost_equal` to the one saved (C95) -/

namespace Sumo
namespace Project

open GlbSave

variable {E : Env} {printed : Gltf.Number → Option ℚ} {round : ℚ → ℚ}

theorem sizes_back {ms ns : List AnyMesh} (h : List.Forall₂ (Gltf.MeshBack round) ms ns) : ms.map Gltf.sizes = ns.map Gltf.sizes := by
  induction h with
  | nil => rfl
  | cons h _ ih =>
    rw [List.map_cons, List.map_cons, ih]
    congr 1
    cases h with
    | plain m m' h1 h2 => simp [Gltf.sizes, h1, h2]
    | textured m m' h1 h2 => simp [Gltf.sizes, h1, h2]

theorem isClose_of_close8' {a b : ℚ} (h : Close8 a b) : ProjectObject.isClose b a = true := by
  unfold ProjectObject.isClose
  rw [decide_eq_true_eq]
  unfold Close8 at h
  have h0 := abs_nonneg a
  rcases max_cases (1 : ℚ) |a| with ⟨e, -⟩ | ⟨e, -⟩ <;> rw [e] at h <;> norm_num at h ⊢ <;> linarith

theorem poseAlmostEqual_of_close' {p q : Pose3 ℚ} (h : PoseClose p q) : ProjectObject.poseAlmostEqual q p = true := by
  obtain ⟨⟨⟨a1, a2, a3⟩, ⟨b1, b2, b3⟩, ⟨c1, c2, c3⟩⟩, ⟨d1, d2, d3⟩⟩ := h
  unfold ProjectObject.poseAlmostEqual Pose3.matrix34
  simp only [List.flatten_cons, List.flatten_nil, List.cons_append, List.nil_append, List.append_nil,
    List.zipWith_cons_cons, List.zipWith_nil_left, List.all_cons, List.all_nil, Bool.and_true, Bool.and_eq_true]
  exact ⟨isClose_of_close8' a1, isClose_of_close8' b1, isClose_of_close8' c1, isClose_of_close8' d1,
    isClose_of_close8' a2, isClose_of_close8' b2, isClose_of_close8' c2, isClose_of_close8' d2,
    isClose_of_close8' a3, isClose_of_close8' b3, isClose_of_close8' c3, isClose_of_close8' d3⟩

theorem almostEqual_back {o o' : ProjectObject (ops E)} (h : Back E round o o') :
    o.almostEqual o' = .ok true ∧ o'.almostEqual o = .ok true := by
  have h1 : (o.id == o'.id && ProjectObject.poseAlmostEqual o.pose o'.pose && o.category == o'.category &&
      o.symmetry.eq o'.symmetry && ProjectObject.isClose o.score o'.score && o.evaluated == o'.evaluated) = true := by
    rw [h.id, h.category, h.symmetry, h.score, h.evaluated, poseAlmostEqual_of_close h.pose, isClose_self, (C59_eq_iff _ _).2 rfl]
    simp
  have h2 : (o'.id == o.id && ProjectObject.poseAlmostEqual o'.pose o.pose && o'.category == o.category &&
      o'.symmetry.eq o.symmetry && ProjectObject.isClose o'.score o.score && o'.evaluated == o.evaluated) = true := by
    rw [h.id, h.category, h.symmetry, h.score, h.evaluated, poseAlmostEqual_of_close' h.pose, isClose_self,
      (C59_eq_iff _ _).2 rfl]
    simp
  unfold ProjectObject.almostEqual
  dsimp only
  rw [h1, h2]
  rcases h.meshes with ⟨e1, e2⟩ | ⟨M, N, ms, ns, e1, e2, e3, e4, e5⟩
  · rw [e1, e2]; exact ⟨rfl, rfl⟩
  · have hs := sizes_back e5
    have s1 : (ops E).sameSize M N = .ok true := by
      show Gltf.Model.sameSize M N = _
      rw [Gltf.C95_same_size e3 e4]; simp [hs]
    have s2 : (ops E).sameSize N M = .ok true := by
      show Gltf.Model.sameSize N M = _
      rw [Gltf.C95_same_size e4 e3]; simp [hs]
    rw [e1, e2]
    simp only [s1, s2]
    exact ⟨rfl, rfl⟩

theorem almostEqualFrom_all {G : MeshOps} {other : ObjectDict G} : ∀ {l : ObjectDict G},
    (∀ kv ∈ l, ∃ o', other.get? kv.1 = some o' ∧ kv.2.almostEqual o' = .ok true) → ObjectDict.almostEqualFrom other l = .ok true
  | [], _ => rfl
  | (k, o) :: l, h => by
    obtain ⟨o', h1, h2⟩ := h (k, o) List.mem_cons_self
    unfold ObjectDict.almostEqualFrom
    simp only [h1, h2]
    exact almostEqualFrom_all fun kv hkv => h kv (List.mem_cons_of_mem _ hkv)

theorem forall₂_both {α β : Type} {R : α → β → Prop} {l : List α} {l' : List β} (h : List.Forall₂ R l l') :
    (∀ a ∈ l, ∃ b ∈ l', R a b) ∧ ∀ b ∈ l', ∃ a ∈ l, R a b := by
  induction h with
  | nil => simp
  | cons h _ ih =>
    constructor
    · intro a ha
      rcases List.mem_cons.1 ha with rfl | ha
      · exact ⟨_, List.mem_cons_self, h⟩
      · obtain ⟨b, hb, hr⟩ := ih.1 a ha
        exact ⟨b, List.mem_cons_of_mem _ hb, hr⟩
    · intro b hb
      rcases List.mem_cons.1 hb with rfl | hb
      · exact ⟨_, List.mem_cons_self, h⟩
      · obtain ⟨a, ha, hr⟩ := ih.2 b hb
        exact ⟨a, List.mem_cons_of_mem _ ha, hr⟩

/-- **C95.** A scene saved to a free place with an absolute path, or without meshes, whose mesh files have less than 2 GiB, is loaded
from there, and the elements of the scene saved and of the scene loaded are `almost_equal`, whichever of the two is asked. -/
theorem C95_scene (hE : E.Faithful printed round) (h : Heap) {os : Os} {temps : ℕ → Dir} {path : Path} {name : String}
    {s : ProjectScene (ops E)} (hn : FileName name) (hfree : Free os (path.dir os ++ [name]))
    (ht : ∀ i, Fresh os (temps i) ∧ ¬ temps i <+: path.dir os ++ [name])
    (hp : path.absolute = true ∨ s.projectType ≠ "meshes")
    (hpt : s.projectType ∈ ["bounding_box", "voxels", "meshes"]) (hd : s.constrained = true) (hk : KeyedById s.elements)
    (hs : ∀ o ∈ s.elements.values, Whole E o ∧ o.projectType = s.projectType ∧ XmlText o.id ∧
      ∀ c, o.category = some c → XmlText c)
    (hset : ∀ k ∈ fileSettings, ∃ v, (h.cells s.settings).get? k = some v ∧ ∀ x, v = some x → XmlText x) {fx : List Effect}
    (hsave : saveScene E h os temps path name s = (s, fx, .ok ()))
    (hsmall : s.projectType = "meshes" → ∀ o ∈ s.elements.values, ∀ b,
      (runAll os fx).file (path.dir os ++ [name]) (o.id ++ ".glb") = some b → b.length < 2 ^ 31) :
    ∃ h' s', loadScene E h (runAll os fx) path name = .ok (h', s') ∧ s.elements.almostEqual s'.elements = .ok true ∧
      s'.elements.almostEqual s.elements = .ok true := by
  obtain ⟨fx', r, h1, -, -, -, -, h2⟩ := C131_partial hE h hn hfree ht hp hpt hd hk hs hset
  rw [hsave, Prod.mk.injEq, Prod.mk.injEq] at h1
  obtain ⟨-, rfl, rfl⟩ := h1
  obtain ⟨h', s', l1, -, -, -, l2⟩ := h2 rfl hsmall
  refine ⟨h', s', l1, ?_⟩
  have hkeys : s'.elements.keys = s.elements.keys := by
    have hf : List.Forall₂ (fun a b => b = a) s.elements.keys s'.elements.keys :=
      List.forall₂_map_left_iff.2 (List.forall₂_map_right_iff.2 (l2.imp fun _ _ h => h.1))
    exact List.forall₂_eq_eq_eq.le _ _ hf.flip
  have hnd : s'.elements.NodupKeys := by unfold Dict.NodupKeys; rw [hkeys]; exact hk.1
  have hlen := l2.length_eq
  obtain ⟨m1, m2⟩ := forall₂_both l2
  unfold ObjectDict.almostEqual
  rw [if_neg (not_not.2 hlen), if_neg (not_not.2 hlen.symm)]
  refine ⟨almostEqualFrom_all fun kv hkv => ?_, almostEqualFrom_all fun kv hkv => ?_⟩
  · obtain ⟨kv', hm, he, hb⟩ := m1 kv hkv
    exact ⟨kv'.2, he ▸ Dict.get?_of_mem hnd hm, (almostEqual_back hb).1⟩
  · obtain ⟨kv', hm, he, hb⟩ := m2 kv hkv
    exact ⟨kv'.2, he ▸ Dict.get?_of_mem hk.1 hm, (almostEqual_back hb).2⟩

/-- Non-vacuity: a scene of voxels. -/
example : ∃ fx h' s', saveScene exEnv .start exOs exTemps ⟨false, []⟩ "p" exVoxelScene = (exVoxelScene, fx, .ok ()) ∧
    loadScene exEnv .start (runAll exOs fx) ⟨false, []⟩ "p" = .ok (h', s') ∧ exVoxelScene.elements.almostEqual s'.elements = .ok true := by
  have hk : KeyedById exVoxelScene.elements := ⟨by unfold Dict.NodupKeys; decide, by
      intro kv hkv
      simp only [exVoxelScene, List.mem_cons, List.not_mem_nil, or_false] at hkv
      subst hkv; rfl⟩
  obtain ⟨fx, r, h1, h2, -⟩ := C131_partial exEnv_faithful .start (os := exOs) (temps := exTemps) (path := ⟨false, []⟩) (name := "p")
    (s := exVoxelScene) (by unfold FileName; decide) exOs_free exTemps_fresh (Or.inr (by decide)) (by decide) rfl hk exVoxelScene_whole
    exSettings
  rcases h2 with rfl | ⟨-, h2⟩
  · obtain ⟨h', s', l1, l2, -⟩ := C95_scene exEnv_faithful .start (os := exOs) (temps := exTemps) (path := ⟨false, []⟩) (name := "p")
      (s := exVoxelScene) (by unfold FileName; decide) exOs_free exTemps_fresh (Or.inr (by decide)) (by decide) rfl hk exVoxelScene_whole
      exSettings h1 (fun e => absurd e (by decide))
    exact ⟨fx, h', s', h1, l1, l2⟩
  · exact absurd h2 (by decide)

end Project
end Sumo
