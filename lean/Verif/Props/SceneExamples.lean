import Verif.Props.Scene
import Verif.Props.BvhExamples

/-!
# Non-vacuity of C05, C09–C14

A history over ℚ with a light, a diffuse material, three triangles, a sun and two builds.
-/

namespace Rendering
namespace SceneExamples
open BvhExamples

theorem refMesh : (refSceneEnv ℚ).MeshAligned := fun _ _ => rfl

def grey : Material ℚ := .plastic ⟨1 / 2, 1 / 2, 1 / 2⟩ 0 0
def lamp : Material ℚ := .light ⟨10, 10, 10⟩

/-- Push two materials and two triangles (one a lamp), build, add a sky with the sun up, push a third triangle, rebuild. -/
def history : List (SceneOp ℚ) :=
  [.pushMaterial grey, .pushMaterial lamp, .pushObject 0 0 (.triangle (triAt 3)), .pushObject 0 1 (.triangle (triAt 2)), .build,
   .addPerezSky (some (⟨0, 0, 1⟩, 100, 1 / 2)), .pushObject 0 0 (.triangle (triAt 1)), .rebuild]

/-- The history runs to completion: the hypothesis of C05, C10, C11, C12, C14 is met, and the final scene is not trivial. -/
example : ((Scene.run (refSceneEnv ℚ) {} history).bind fun s =>
    .ok (s.triangles, s.front, s.back, s.materials.length, s.lights.length, s.distantLights.length)) =
    .ok ([triAt 1, triAt 2, triAt 3], [0, 0, 0], [0, 1, 0], 3, 1, 1) := by
  decide +kernel

/-- Its pushed rows, as the specification computes them. -/
example : (pushedRows (refSceneEnv ℚ) history).map (fun r => (r.1, r.2.1, r.2.2.1)) =
    [(triAt 3, 0, 0), (triAt 2, 0, 1), (triAt 1, 0, 0)] := by
  decide +kernel

/-- C09 partial: `before`, the rebuild and `after` of the theorem, with a hit on the triangle pushed after the first build. -/
example : ((Scene.run (refSceneEnv ℚ) {} (history ++ [.pushMaterial grey])).bind fun s =>
    (s.castRay (refSceneEnv ℚ) up [1, 2, 3]).bind fun r => .ok (r.map fun x => (s.triangles[x.1]?, x.2.t))) =
    .ok (some (some (triAt 1), 1)) := by
  decide +kernel

/-- C09, violation: the triangle pushed after the build is visible to the ray, and is not reported. -/
theorem C09_violation_witness : ∃ s, Scene.run (refSceneEnv ℚ) {} [.pushMaterial grey, .build, .pushObject 0 0 (.triangle (triAt 1))] = .ok s ∧
    (∃ tri ∈ s.triangles, ∃ d2, VisibleHit up tri d2 ∧ InRange d2) ∧ s.castRay (refSceneEnv ℚ) up [] = .ok none := by
  obtain ⟨s, h1, h2, h3⟩ := C09_violation (refSceneEnv ℚ) grey (triAt 1) up []
  exact ⟨s, h1, ⟨_, h2, _, up_hits 1 le_rfl, by norm_num, by simpa using one_lt_floatMax⟩, h3⟩

/-- C13: the three ways of panicking, and a success that appends. -/
example : ((Scene.run (refSceneEnv ℚ) {} [.pushMaterial grey]).bind fun s =>
    (s.pushObject (refSceneEnv ℚ) 1 0 (.triangle (triAt 1))).bind fun s => .ok s.front) = .panic := by decide +kernel
example : ((Scene.run (refSceneEnv ℚ) {} [.pushMaterial grey]).bind fun s =>
    (s.pushObject (refSceneEnv ℚ) 0 1 (.triangle (triAt 1))).bind fun s => .ok s.front) = .panic := by decide +kernel
example : ((Scene.run (refSceneEnv ℚ) {} [.pushMaterial grey]).bind fun s =>
    (s.pushObject (refSceneEnv ℚ) 0 0 (.cylinder 0 0 1)).bind fun s => .ok s.front) = .panic := by decide +kernel
example : ((Scene.run (refSceneEnv ℚ) {} [.pushMaterial grey, .pushMaterial lamp]).bind fun s =>
    (s.pushObject (refSceneEnv ℚ) 0 1 (.triangle (triAt 1))).bind fun s => .ok (s.front, s.back)) = .ok ([0], [1]) := by
  decide +kernel

/-- C14: building twice panics. -/
example : ((Scene.run (refSceneEnv ℚ) {} [.build, .build]).bind fun s => .ok s.front) = .panic := by decide +kernel

theorem ok_of_bind {A B : Type} {x : Res A} {f : A → Res B} {b : B} (h : x.bind f = .ok b) : ∃ a, x = .ok a ∧ f a = .ok b := by
  cases x with
  | ok a => exact ⟨a, rfl, h⟩
  | panic => cases h
  | diverge => cases h

/-- The history as one that has run. -/
theorem history_runs : ∃ s, Scene.run (refSceneEnv ℚ) {} history = .ok s ∧ s.triangles = [triAt 1, triAt 2, triAt 3] := by
  have h : ((Scene.run (refSceneEnv ℚ) {} history).bind fun s => .ok s.triangles) = .ok [triAt 1, triAt 2, triAt 3] := by decide +kernel
  obtain ⟨s, h1, h2⟩ := ok_of_bind h
  exact ⟨s, h1, Res.ok.inj h2⟩

/-- C09: a ray cast after the rebuild, whatever is in the scratch list. -/
example (scratch : List Nat) : ∃ s r, Scene.run (refSceneEnv ℚ) {} (history ++ [.pushMaterial grey]) = .ok s ∧ s.castRay (refSceneEnv ℚ) up scratch = .ok r := by
  obtain ⟨s0, h0, _⟩ := history_runs
  have hrun : Scene.run (refSceneEnv ℚ) {} (history.dropLast ++ .rebuild :: [.pushMaterial grey]) = .ok (s0.pushMaterial grey).1 := by
    have : ∀ (ops : List (SceneOp ℚ)) (s s' : Scene ℚ), s.run (refSceneEnv ℚ) ops = .ok s' → s.run (refSceneEnv ℚ) (ops ++ [.pushMaterial grey]) = .ok (s'.pushMaterial grey).1 := by
      intro ops
      induction ops with
      | nil => intro s s' h; cases h; rfl
      | cons op ops ih =>
        intro s s' h
        obtain ⟨s1, h1, h2⟩ := ok_of_bind h
        change ((s.step (refSceneEnv ℚ) op).bind fun s => s.run (refSceneEnv ℚ) (ops ++ [.pushMaterial grey])) = _
        rw [h1, Res.bind_ok, ih s1 s' h2]
    exact this history {} s0 h0
  obtain ⟨r, h1, _⟩ := C09_all_pushed_seen_partial (refSceneEnv ℚ) refEnv_lawful refEnv_conservative refMesh history.dropLast [.pushMaterial grey] .rebuild (by simp [SceneOp.NoBuild]) (by simp [SceneOp.NoBuild]) rfl _ hrun
    ⟨by decide +kernel, fun l hl hlen => absurd (hl.length_le.trans_lt (by decide +kernel : _ < 2 ^ 15)) (by omega)⟩ up scratch
  exact ⟨_, r, hrun, h1⟩

/-- C13: pushing a lamp onto a scene with one material. -/
example := fun s' => C13_push_object_effect (refSceneEnv ℚ) refMesh { materials := [lamp] } s' 0 0 (.triangle (triAt 1)) ⟨rfl, rfl, rfl⟩

example := fun ray D scratch => C14_query_without_accelerator (refSceneEnv ℚ) { materials := [lamp] } ray D scratch rfl

end SceneExamples
end Rendering
