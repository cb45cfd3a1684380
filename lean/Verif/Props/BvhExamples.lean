import Verif.Props.Bvh

/-!
# Non-vacuity of C01–C08

A concrete scene over ℚ with the reference environment: three parallel triangles at heights 1, 2 and 3, and vertical rays through
them, which meet all the hypotheses of the theorems of `Props/Bvh.lean`.
-/

namespace Rendering
namespace BvhExamples

/-- A unit right triangle at height `z`. -/
def triAt (z : ℚ) : Tri ℚ := ⟨⟨0, 0, z⟩, ⟨1, 0, z⟩, ⟨0, 1, z⟩⟩

/-- Three stacked triangles, pushed in the order 3, 1, 2, with distinct materials. -/
def scene : Scene ℚ where
  triangles := [triAt 3, triAt 1, triAt 2]
  front := [0, 1, 2]
  back := [3, 4, 5]
  normals := [(0, 0, 0), (0, 0, 0), (0, 0, 0)]

/-- Upwards ray from height 0, through the interior of the triangles. -/
def up : Ray3 ℚ := ⟨⟨1 / 4, 1 / 4, 0⟩, ⟨0, 0, 1⟩⟩

/-- A ray that misses everything. -/
def away : Ray3 ℚ := ⟨⟨1 / 4, 1 / 4, 4⟩, ⟨0, 0, 1⟩⟩

theorem scene_aligned : scene.Aligned := ⟨rfl, rfl, rfl⟩

theorem small_fits {l : List (Tri ℚ)} (h : l.length < 2 ^ 15) : FitsAccelerator l :=
  ⟨by omega, fun l' hl hlen => by have := hl.length_le; omega⟩

theorem scene_fits : FitsAccelerator scene.triangles := small_fits (by decide)

/-- The environment's contracts hold and the scene can be built: the hypotheses of C01–C07 are met. -/
theorem scene_built : ∃ s', scene.BuiltFrom (refSceneEnv ℚ) s' := by
  obtain ⟨s', _, e, _⟩ := rebuild_spec (refSceneEnv ℚ) refEnv_lawful scene scene_aligned
  exact ⟨s', Or.inr e⟩

/-- The ray `up` goes through the triangle at height `z > 0`. -/
theorem up_hits (z : ℚ) (hz : 1 ≤ z) : VisibleHit up (triAt z) (z ^ 2) := by
  refine ⟨z, ⟨1 / 4, 1 / 4, z⟩, ⟨?_, 1 / 4, 1 / 4, by norm_num, by norm_num, by norm_num, ?_⟩, ?_, ?_, ?_⟩
  · ext <;> simp [up]
  · ext <;> simp [triAt]
    ring
  · have : (1 : ℚ) / 10 ^ 5 < 1 := by norm_num
    linarith
  · have : tripleProduct up (triAt z) = -1 := by simp [tripleProduct, up, triAt]
    rw [this]; norm_num
  · simp [distSq, up]

theorem one_lt_floatMax : (1 : ℚ) < floatMax ℚ := by
  unfold floatMax
  have h : (1 : ℚ) ≤ 2 ^ 971 := one_le_pow₀ (by norm_num)
  have h2 : (1 : ℚ) < 2 ^ 53 - 1 := by norm_num
  calc (1 : ℚ) < 2 ^ 53 - 1 := h2
    _ ≤ (2 ^ 53 - 1) * 2 ^ 971 := le_mul_of_one_le_right (by linarith) h

/-- `up` is clear of the edges of all three triangles. -/
theorem up_clear (z : ℚ) : ClearOfEdges up (triAt z) := by
  rintro t p u v ⟨h1, _, h3, _⟩
  rw [h1] at h3
  have hx := congrArg Vec3.x h3
  have hy := congrArg Vec3.y h3
  simp [up, triAt] at hx hy
  subst hx
  rw [← hy]
  norm_num

/-- C01, C02, C07: the query on the built scene does report a hit, at distance one (so the conclusion of C01 is about something). -/
example (s' : Scene ℚ) (h : scene.BuiltFrom (refSceneEnv ℚ) s') :
    ∃ x, s'.castRay (refSceneEnv ℚ) up [7, 7] = .ok (some x) := by
  rw [C02_cast_ray_iff (refSceneEnv ℚ) refEnv_lawful refEnv_conservative scene s' scene_aligned scene_fits h up]
  · refine ⟨triAt 1, by simp [scene], 1, ?_, by norm_num, ?_⟩
    · simpa using up_hits 1 (by norm_num)
    · exact one_lt_floatMax
  · intro t ht
    simp only [scene, List.mem_cons, List.not_mem_nil, or_false] at ht
    rcases ht with rfl | rfl | rfl <;> exact up_clear _

/-- The same by running the model: the nearest triangle (height 1) is found; it carries its own materials. -/
example : ((scene.buildAccelerator (refSceneEnv ℚ)).bind fun s' =>
    (s'.castRay (refSceneEnv ℚ) up [7, 7]).bind fun r =>
      .ok (r.map fun x => (s'.front[x.1]?, s'.back[x.1]?, x.2))) =
    .ok (some (some 1, some 4, ⟨⟨1 / 4, 1 / 4, 1⟩, 1 / 4, 1 / 4, 1⟩)) := by
  decide +kernel

example : ((scene.buildAccelerator (refSceneEnv ℚ)).bind fun s' => s'.castRay (refSceneEnv ℚ) away []) = .ok none := by
  decide +kernel

/-- C03: a target behind the first triangle is obstructed, one in front of it is not. -/
example : ((scene.buildAccelerator (refSceneEnv ℚ)).bind fun s' => s'.unobstructedDistance (refSceneEnv ℚ) up (9 / 4) [3]) = .ok false := by
  decide +kernel

example : ((scene.buildAccelerator (refSceneEnv ℚ)).bind fun s' => s'.unobstructedDistance (refSceneEnv ℚ) up (1 / 4) [3]) = .ok true := by
  decide +kernel

/-- C05: building does reorder. -/
example : ((scene.buildAccelerator (refSceneEnv ℚ)).bind fun s' => .ok s'.triangles) = .ok [triAt 1, triAt 2, triAt 3] := by
  decide +kernel

/-- More than 24 triangles: the bucketed (SAH) path of the builder is exercised. -/
def tower : Scene ℚ where
  triangles := (List.range 30).map fun i => triAt (30 - i)
  front := (List.range 30)
  back := (List.range 30)
  normals := (List.range 30).map fun _ => (0, 0, 0)

example : ((tower.buildAccelerator (refSceneEnv ℚ)).bind fun s' =>
    (s'.castRay (refSceneEnv ℚ) up []).bind fun r => .ok (r.map fun x => s'.triangles[x.1]?)) = .ok (some (some (triAt 1))) := by
  decide +kernel

/-- C08: the hypotheses of the violation are met, e.g. by 40000 copies of a triangle. -/
example : ∃ s' bvh, Scene.BuiltFrom (refSceneEnv ℚ) (copiesScene 40000 (triAt 1) 0 0 (0, 0, 0)) s' ∧ s'.accelerator = some bvh ∧
    (∀ x, s'.castRay (refSceneEnv ℚ) up [] ≠ .ok x) := by
  obtain ⟨s', bvh, h1, h2, h3, _⟩ := C08_violation (refSceneEnv ℚ) refEnv_lawful refEnv_conservative (triAt 1) 40000 (by norm_num)
    (by norm_num) 0 0 (0, 0, 0) up [] _ (up_hits 1 le_rfl)
  exact ⟨s', bvh, h1, h2, h3⟩

theorem scene_clear : ∀ tri ∈ scene.triangles, ClearOfEdges up tri := by
  intro t ht
  simp only [scene, List.mem_cons, List.not_mem_nil, or_false] at ht
  rcases ht with rfl | rfl | rfl <;> exact up_clear _

/-- C01: the hit that is reported is at the nearest triangle. -/
example : ∃ s' i info, scene.BuiltFrom (refSceneEnv ℚ) s' ∧ s'.castRay (refSceneEnv ℚ) up [7, 7] = .ok (some (i, info)) ∧ distSq info.p up.origin ≤ 1 := by
  obtain ⟨s', h⟩ := scene_built
  obtain ⟨⟨i, info⟩, hx⟩ := (C02_cast_ray_iff (refSceneEnv ℚ) refEnv_lawful refEnv_conservative scene s' scene_aligned scene_fits h up scene_clear [7, 7]).2
    ⟨triAt 1, by simp [scene], 1, by simpa using up_hits 1 (by norm_num), by norm_num, one_lt_floatMax⟩
  obtain ⟨_, _, _, _, _, hn⟩ := C01_cast_ray_nearest (refSceneEnv ℚ) refEnv_lawful refEnv_conservative scene s' scene_aligned scene_fits h up [7, 7] i info hx
  exact ⟨s', i, info, h, hx, hn (triAt 1) (by simp [scene]) 1 (by simpa using up_hits 1 (by norm_num)) (by norm_num)⟩

/-- C02, C03, C05: for the scene built. -/
example := fun s' h => C02_cast_ray_misses_nothing (refSceneEnv ℚ) refEnv_lawful refEnv_conservative scene s' scene_aligned scene_fits h up [7, 7]

example := fun s' h => C03_unobstructed (refSceneEnv ℚ) refEnv_lawful refEnv_conservative scene s' scene_aligned scene_fits h up (9 / 4) [3]

example := fun s' h => C03_unobstructed_iff (refSceneEnv ℚ) refEnv_lawful refEnv_conservative scene s' scene_aligned scene_fits h up (9 / 4) scene_clear [3]

example := fun s' h => C05_build_permutes (refSceneEnv ℚ) refEnv_lawful scene s' scene_aligned h

example := fun s' h => C05_rows_stay_together (refSceneEnv ℚ) refEnv_lawful scene s' scene_aligned h

/-- C04: the scene can be built, whatever is attached to the triangles. -/
example := C04_build_succeeds (refSceneEnv ℚ).bvh refEnv_lawful scene.triangles scene.front scene.back scene.normals rfl rfl rfl

/-- The same triangles in another order. -/
def sceneReversed : Scene ℚ where
  triangles := [triAt 2, triAt 1, triAt 3]
  front := [2, 1, 0]
  back := [5, 4, 3]
  normals := [(0, 0, 0), (0, 0, 0), (0, 0, 0)]

/-- C07: two ways to build. -/
example : ∃ s₁' s₂', scene.BuiltFrom (refSceneEnv ℚ) s₁' ∧ sceneReversed.BuiltFrom (refSceneEnv ℚ) s₂' ∧ s₁'.unobstructedDistance (refSceneEnv ℚ) up (9 / 4) [] = s₂'.unobstructedDistance (refSceneEnv ℚ) up (9 / 4) [1, 2] := by
  obtain ⟨s₁', h₁⟩ := scene_built
  obtain ⟨s₂', _, e, _⟩ := rebuild_spec (refSceneEnv ℚ) refEnv_lawful sceneReversed ⟨rfl, rfl, rfl⟩
  exact ⟨s₁', s₂', h₁, Or.inr e, (C07_answers_independent_of_tree (refSceneEnv ℚ) (refSceneEnv ℚ) refEnv_lawful refEnv_lawful refEnv_conservative refEnv_conservative scene sceneReversed s₁' s₂' scene_aligned ⟨rfl, rfl, rfl⟩ scene_fits
    (by simp only [scene, sceneReversed]
        exact (List.reverse_perm [triAt 2, triAt 1, triAt 3])) h₁ (Or.inr e) up (9 / 4) scene_clear [] [1, 2]).2⟩

theorem copies_aligned (n : Nat) (tri : Tri ℚ) : (copiesScene n tri 0 0 (0, 0, 0)).Aligned := by simp [Scene.Aligned, copiesScene]

theorem copies_all (n : Nat) (h : 0 < n) (tri : Tri ℚ) : (copiesScene n tri 0 0 (0, 0, 0)).triangles.length = n ∧ tri ∈ (copiesScene n tri 0 0 (0, 0, 0)).triangles := by
  simp [copiesScene, h.ne']

/-- C08: few enough coincident triangles. -/
example : ∃ s' i info, Scene.BuiltFrom (refSceneEnv ℚ) (copiesScene 30000 (triAt 1) 0 0 (0, 0, 0)) s' ∧ s'.castRay (refSceneEnv ℚ) up [] = .ok (some (i, info)) := by
  have ha := copies_aligned 30000 (triAt 1)
  obtain ⟨h1, h2⟩ := copies_all 30000 (by norm_num) (triAt 1)
  obtain ⟨s', _, e, _⟩ := rebuild_spec (refSceneEnv ℚ) refEnv_lawful _ ha
  obtain ⟨i, info, h, _⟩ := C08_coincident_partial (refSceneEnv ℚ) refEnv_lawful refEnv_conservative _ s' ha (by rw [h1]; norm_num) (Or.inr e) up [] (triAt 1) h2 1 (by simpa using up_hits 1 (by norm_num)) ⟨by norm_num, one_lt_floatMax⟩
  exact ⟨s', i, info, Or.inr e, h⟩

end BvhExamples
end Rendering
