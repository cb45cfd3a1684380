import Verif.Props.GlazedRepaint
import Verif.Props.ClearerExample

/-!
# A concrete case of C142
-/

set_option linter.unusedSectionVars false
namespace Rendering

open MeasureTheory Set

/-- The court with a wall of glass and a floor of a gray. -/
noncomputable def floorCalls (x : ℝ) : List (SceneOp ℝ) :=
  [.pushMaterial (.plastic (Spectrum.gray x) 0 0), .pushMaterial (.light (Spectrum.gray 5)), .pushMaterial (.glass (Spectrum.gray (9 / 10)) (38 / 25)), .pushObject 0 0 (.triangle (plane 0)), .pushObject 2 2 (.triangle courtWall), .pushObject 1 1 (.source ⟨0, 0, 1⟩ (1 / 100))]

theorem floor_repainted {R : Spectrum ℝ → Spectrum ℝ → Prop} {x y : ℝ} (h : R (Spectrum.gray x) (Spectrum.gray y)) : List.Forall₂ (SceneOp.Repainted R) (floorCalls x) (floorCalls y) := by
  refine .cons (.material _ _ (.plastic _ _ _ h)) (.cons (.material _ _ (.other _ (by intro col r; simp))) (.cons (.material _ _ (.other _ (by intro col r; simp))) (.cons (.other _ (by simp)) (.cons (.other _ (by simp)) (.cons (.other _ (by simp)) .nil)))))

/-- C142: the floor painted gray 3/4 instead of 1/2, the wall of glass stays: the mean light from the floor is positive, and grows at least `3/2` times and at most `(3/2)^4` times. -/
example : ∃ (w : World) (s' b' : Scene ℝ), w.SunlitGlazed (paneCourt (9 / 10)) ∧ Scene.run w.env {} (floorCalls (1 / 2)) = .ok (paneCourt (9 / 10)) ∧ Scene.run w.env {} (floorCalls (3 / 4)) = .ok s' ∧ s'.BuiltFrom w.env b' ∧
    let mean := fun w => ∫⁻ r, seenLight (traceRay w ⟨3, 10, 70, 0, 3 / 10⟩ 100 ⟨r, defaultRays⟩ downRay) Spectrum.c0 ∂randomNumbers
    0 < mean w ∧ ENNReal.ofReal (3 / 2) * mean w ≤ mean { w with scene := b' } ∧ mean { w with scene := b' } ≤ ENNReal.ofReal (3 / 2) ^ 4 * mean w := by
  obtain ⟨w, henv, hS, i, hit, hc, hdep, hmat, hpos⟩ := courtOf_world_env 2 (by norm_num) (.glass (Spectrum.gray (9 / 10)) (38 / 25))
  have hW : w.SunlitGlazed (paneCourt (9 / 10)) := glassCourt_glazed hS
  have hrun : Scene.run w.env {} (floorCalls (1 / 2)) = .ok (paneCourt (9 / 10)) := by rw [henv]; exact pane_run _
  have hu : Norm downRay.geometry.direction = 1 := Norm_eq_one (by norm_num [Dot, downRay])
  have hv : 0 ≤ downRay.value := by simp [downRay, TRay.default]
  have hi : 0 < downRay.refractionIndex := by simp [downRay, TRay.default]
  have hlen : defaultRays.length = 15 := by simp [defaultRays]
  obtain ⟨s', h', key⟩ := C142_at_least hW (pane_shines _) _ (floorCalls (3 / 4)) hrun (3 / 2) (by norm_num) (floor_repainted (by norm_num [AtLeastTimes, Spectrum.Nonneg, Spectrum.AtMost, Spectrum.gray]))
  obtain ⟨s'', h'', key2⟩ := C142_at_most hW (pane_shines _) _ (floorCalls (3 / 4)) hrun (3 / 2) (by norm_num) (floor_repainted (by norm_num [UpToTimes, Spectrum.Nonneg, Spectrum.AtMost, Spectrum.gray]))
  obtain rfl : s' = s'' := by rw [h'] at h''; exact Res.ok.inj h''
  have hal : s'.Aligned := by
    have e : Scene.run realEnv {} (floorCalls (3 / 4)) = .ok { paneCourt (9 / 10) with materials := [.plastic (Spectrum.gray (3 / 4)) 0 0, .light (Spectrum.gray 5), .glass (Spectrum.gray (9 / 10)) (38 / 25)], normals := (meshTriangle realEnv (plane 0)).2 ++ (meshTriangle realEnv courtWall).2 } := rfl
    rw [henv, e] at h'
    cases h'
    exact ⟨rfl, rfl, rfl⟩
  obtain ⟨b', bvh, e, _⟩ := rebuild_spec w.env hW.renders.lawful s' hal
  have hrow : ∀ ray : TRay, Norm ray.geometry.direction = 1 → w.SpecularRow 1 ray := paneCourt_rows hW.renders
  have hE := rows_end hW ⟨3, 10, 70, 0, 3 / 10⟩ 1 (fun ray h _ => hrow ray h) 4 1 downRay hu hi rfl (hrow downRay hu)
  refine ⟨w, s', b', hW, hrun, h', Or.inr e, ?_, (key b' (Or.inr e) ⟨3, 10, 70, 0, 3 / 10⟩ (by norm_num) Spectrum.c0 (by simp) defaultRays (by rw [hlen]; decide) downRay hu hv hi _ hE).2 100 (by norm_num),
    key2 b' (Or.inr e) ⟨3, 10, 70, 0, 3 / 10⟩ (by norm_num) rfl Spectrum.c0 (by simp) defaultRays (by rw [hlen]; decide) downRay hu hv hi _ hE 100 (by norm_num)⟩
  beta_reduce
  rw [C123_mean_light hW ⟨3, 10, 70, 0, 3 / 10⟩ (by norm_num) Spectrum.c0 (by simp) defaultRays (by rw [hlen]; decide) downRay hu hv hi _ hE 100 (by norm_num)]
  change 0 < glazedLight w _ Spectrum.c0 (9 + 1) downRay
  unfold glazedLight
  simp only [hc, hmat, Material.specularOnly, Bool.false_eq_true, if_false]
  rw [if_neg (by simp [downRay, TRay.default])]
  exact lt_of_lt_of_le hpos le_self_add

end Rendering
