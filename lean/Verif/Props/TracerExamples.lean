import Verif.Props.Direct

/-!
# Scenes that meet the hypotheses of C62 and C77
-/

set_option linter.unusedSectionVars false
namespace Rendering

open Classical

/-- A scene of one horizontal triangle. -/
noncomputable def floorOf (m : Material ℝ) : Scene ℝ := { triangles := [plane 0], normals := [(⟨0, 0, 1⟩, ⟨0, 0, 1⟩, ⟨0, 0, 1⟩)], front := [0], back := [0], materials := [m] }

theorem floorOf_renders (m : Material ℝ) (sky : Option (Vec3 ℝ → ℝ)) (c : Option (Spectrum ℝ)) : ∃ w : World, w.Renders (floorOf m) ∧ w.sky = sky ∧ w.skyColour = c := by
  obtain ⟨w, h, _, _, h1, h2⟩ := renders_exists (floorOf m) ⟨rfl, rfl, rfl⟩ (fits_of_small _ (by simp [floorOf])) ⟨fun _ => none, fun _ _ => none⟩ ⟨fun _ _ => false, fun _ _ => false⟩ sky c
  exact ⟨w, h, h1, h2⟩

theorem downRay_visible : VisibleHit downRay.geometry (plane 0) ((1 / 2) ^ 2) := plane_visible 0 (1 / 2) (1 / 2) (-1) (by norm_num) (by norm_num) (by norm_num)

theorem downRay_inRange : InRange (((1 : ℝ) / 2) ^ 2) := ⟨by norm_num, lt_trans (by norm_num) floatMax_gt_one⟩

/-- C62: a ray straight down onto a luminous floor sees its colour. -/
example (rt : RayTracer) (st : TState) (c : Spectrum ℝ) : ∃ w : World, ∃ pdf ray', traceRay w rt 1 st downRay = .ok ((c, pdf), ray', st) := by
  obtain ⟨w, hR, _⟩ := floorOf_renders (.light c) none none
  refine ⟨w, C62_lights_seen_directly w _ hR downRay (Norm_eq_one (by norm_num [Dot, downRay])) c ⟨plane 0, by simp [floorOf], _, downRay_visible, downRay_inRange⟩ ?_ rt 0 st⟩
  intro j tri t p u v hj _ _
  cases j with
  | succ j => simp [floorOf] at hj
  | zero =>
    unfold Scene.facingMaterial
    split_ifs <;> simp [floorOf]

/-- C62: a ray straight up from above the floor sees the sky. -/
example (rt : RayTracer) (st : TState) (m : Material ℝ) : ∃ w : World, ∃ pdf ray',
    traceRay w rt 1 st { TRay.default with geometry := ⟨⟨0, 0, 1⟩, ⟨0, 0, 1⟩⟩ } = .ok ((Spectrum.gray 7, pdf), ray', st) := by
  obtain ⟨w, hR, h1, h2⟩ := floorOf_renders m (some fun d => 7 * d.z) none
  refine ⟨w, ?_⟩
  obtain ⟨pdf, ray', h⟩ := C62_sky_seen_directly w _ hR { TRay.default with geometry := ⟨⟨0, 0, 1⟩, ⟨0, 0, 1⟩⟩ } (by
    intro tri ht t p u v ⟨hp, h1, h2, _⟩
    simp only [floorOf, List.mem_singleton] at ht
    subst ht
    exfalso
    have e1 : p.z = 1 + t := by rw [hp]; simp [Vec3.scale]
    have e2 : p.z = 0 := by rw [h2]; simp [Vec3.scale, plane]
    have : (0 : ℝ) < 1 / 10 ^ 5 := by norm_num
    linarith) rt 0 st
  refine ⟨pdf, ray', ?_⟩
  rw [h, h1, h2]
  simp [Spectrum.scale, Spectrum.gray]

/-- C77: the grey floor looks the same under any two skies. -/
example (rt : RayTracer) (sky sky' : Vec3 ℝ → ℝ) (fuel : Nat) (rng : Rng) (hr : rt.maxDepth < 15) : ∃ w : World, (∃ hit, w.cast downRay = .ok (some hit)) ∧
    outcome (traceRay (w.withSky sky none) rt fuel ⟨rng, defaultRays⟩ downRay) = outcome (traceRay (w.withSky sky' none) rt fuel ⟨rng, defaultRays⟩ downRay) := by
  obtain ⟨w, hR, _, _⟩ := floorOf_renders (.plastic (Spectrum.gray (1 / 2)) 0 0) none none
  have hc : ∃ hit, w.cast downRay = .ok (some hit) := by
    rcases hR.cast_cases downRay with ⟨_, hno⟩ | ⟨i, tri, b, j, hc, _⟩
    · exact absurd downRay_inRange (hno (plane 0) (by simp [floorOf]) _ downRay_visible)
    · exact ⟨_, hc⟩
  refine ⟨w, hc, ?_⟩
  obtain ⟨hit, hc⟩ := hc
  exact C77_violation_sky_lights_nothing w (by rw [hR.same.1]; simp [floorOf, Material.specularOnly]) rt fuel sky sky' none none rng defaultRays downRay (by simpa [defaultRays] using hr) hit hc

/-- **C77, violation, a case that returns.** Without ambient bounces, a matt floor in full view of the sky is black, whatever the sky and its brightness. -/
theorem C77_violation_floor_is_black (w : World) (c : Spectrum ℝ) (hw : w.Shows (.plastic c 0 0) [plane 0]) (rt : RayTracer) (hD : rt.maxDepth = 0) (fuel : Nat) (st : TState) :
    ∃ ray', (traceRay w rt (fuel + 1) st downRay : Res ((Spectrum ℝ × ℝ) × TRay × TState)) = .ok ((Spectrum.black, 0), ray', st) := by
  obtain ⟨tri, _, b, _, _, _, _, hstep⟩ := hw.step rfl (by norm_num) downRay (Norm_eq_one (by norm_num [Dot, downRay])) ⟨plane 0, by simp, _, downRay_visible, downRay_inRange⟩
  rw [traceRay, hstep]
  have hdep : ¬ downRay.depth > rt.maxDepth := by rw [hD]; simp [downRay, TRay.default]
  simp only [hdep, if_false, Material.specularOnly, Bool.false_eq_true, TRay.getNAmbientSamples, hD, true_or, if_true, globalIllumination, Res.bind_ok]
  exact ⟨_, rfl⟩

example (sky : Vec3 ℝ → ℝ) : ∃ w : World, w.sky = some sky ∧ ∃ ray' : TRay, (traceRay w ⟨0, 10, 70, 1 / 1000, 3 / 10⟩ 1 ⟨fun _ => 1 / 2, defaultRays⟩ downRay : Res ((Spectrum ℝ × ℝ) × TRay × TState)) =
    .ok ((Spectrum.black, 0), ray', ⟨fun _ => 1 / 2, defaultRays⟩) := by
  obtain ⟨w, hw, hs⟩ := shows_exists (.plastic (Spectrum.gray (1 / 2)) 0 0) rfl [plane 0] (some sky)
  exact ⟨w, hs, C77_violation_floor_is_black w _ hw _ rfl 0 _⟩

end Rendering
